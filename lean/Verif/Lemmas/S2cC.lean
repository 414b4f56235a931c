import Verif.Lemmas.S2cJob

/-!
# Temperature from pressure and entropy in subregion 2c, part C of the certificate
-/

namespace PyX.Kron.S2c

set_option Elab.async false

def t27 : CTree :=
  .sy (.sx (.sx (.sy (.leaf ⟨455, 16, 20, 798, 16, 425, ⟨[[], [(343597383680, 0)]], 3, 4⟩, ⟨[[(0, 138515409535), (0,
    2687116498938), (0, 34833497677), (0, 941659726), (0, 27513172)], [(0, 162353682514), (0, 4005716617), (0,
    145001170), (0, 5516718), (0, 180471)], [(0, 47479828), (0, 5694791), (0, 343373), (0, 15236), (0, 488)], [(0,
    59323), (0, 7321), (0, 502), (0, 20), (0, 1)]], 3, 4⟩, 1099511627776, 0, 1251686937, ⟨[[(47152123228724, 0),
    (47921919403, 0), (299588769, 0), (516250, 0), (0, 940)], [(22619042557, 0), (56042911, 0), (0, 33160), (181, 0),
    (0, 2)], [(0, 19338270), (0, 47612), (0, 33)], [(22524, 0), (84, 0)]], 3, 4⟩, 68719476736, 3467270,
    3050958425055549888052465145379678015761362335339055841465379971661710885539865227736334750188, ⟨0, 5,
    230374175882079, [50638733563, 17389675, 7962]⟩⟩) (.leaf ⟨455, 16, 20, 633, 16, 344, ⟨[[], [(343597383680, 0)]],
    3, 4⟩, ⟨[[(0, 180429969842), (0, 2619436291929), (0, 48349850916), (0, 1603827103), (0, 56133115)], [(0,
    156284340369), (0, 5296397791), (0, 243756335), (0, 11123805), (0, 588700)], [(0, 79532482), (0, 9879558), (0,
    697939), (0, 49767), (0, 4911)], [(0, 104933), (0, 15404), (0, 1792), (0, 260), (0, 36)]], 3, 4⟩, 1099511627776,
    0, 7059332413, ⟨[[(46461806933004, 0), (47903763440, 0), (417408844, 0), (1085009, 0), (0, 2128)], [(21715844886,
    0), (70750464, 0), (0, 67732), (539, 0), (0, 4)], [(0, 18586900), (0, 57612), (0, 42)], [(21187, 0), (103, 0)]],
    3, 4⟩, 68719476736, 4587107,
    4515638683214531781333871089073299453764329180177910633554489699619817507108641245118177490813, ⟨0, 5,
    186467568243377, [40987586695, 14075408, 6445]⟩⟩)) (.sy (.leaf ⟨485, 16, 20, 689, 16, 374, ⟨[[], [(343597383680,
    0)]], 3, 4⟩, ⟨[[(286120931124, 0), (0, 2755312570534), (0, 46096049468), (0, 1437472110), (0, 45132529)], [(0,
    152445100117), (0, 4680037753), (0, 198618812), (0, 8102682), (0, 311304)], [(0, 58472646), (0, 7087057), (0,
    444334), (0, 22552), (0, 1599)], [(0, 63064), (0, 7868), (0, 603), (0, 67), (0, 11)]], 3, 4⟩, 1099511627776, 0,
    2754269191, ⟨[[(47133941945975, 0), (46529600990, 0), (353421004, 0), (851564, 0), (0, 1602)], [(20704420249, 0),
    (62041321, 0), (0, 58428), (397, 0), (0, 2)], [(0, 16857115), (0, 45337), (0, 35)], [(18225, 0), (77, 0)]], 3,
    4⟩, 68719476736, 3790065,
    3577910945699851710374356502412783445874377725297201723276955270789559707628148938340023423468, ⟨0, 5,
    206872111301272, [41805667873, 13468321, 5785]⟩⟩) (.sy (.leaf ⟨485, 16, 20, 793, 16, 438, ⟨[[], [(343597383680,
    0)]], 3, 4⟩, ⟨[[(0, 170574755813), (0, 1919531245610), (0, 21384632218), (0, 409828211), (0, 9737067)], [(0,
    208980141503), (0, 4178609392), (0, 110793923), (0, 3371183), (0, 142196)], [(0, 120174027), (0, 8027330), (0,
    378326), (0, 22165), (0, 1395)], [(0, 146606), (0, 15335), (0, 1564), (0, 142), (0, 10)]], 3, 4⟩, 1099511627776,
    0, 6419433522, ⟨[[(46629893035420, 0), (32881770409, 0), (234591400, 0), (576874, 0), (0, 828)], [(19958908917,
    0), (54317645, 0), (0, 54382), (316, 0), (0, 1)], [(0, 16323286), (0, 38113), (0, 17)], [(17312, 0), (65, 0)]],
    3, 4⟩, 68719476736, 2790666,
    2030802794689345602008592524859438022276060262730040075490334206461311720979289355606173110131, ⟨0, 5,
    242272686497212, [48959578953, 15773060, 6775]⟩⟩) (.sx (.leaf ⟨979, 16, 41, 1060, 16, 590, ⟨[[(0, 137438953472)],
    [(352187318272, 0)]], 3, 4⟩, ⟨[[(0, 323200178278), (0, 2822518515417), (0, 36666475568), (0, 855468282), (0,
    27988079)], [(0, 155233178385), (0, 3599053732), (0, 116721562), (0, 4920430), (0, 254861)], [(0, 56411265), (0,
    4439825), (0, 293157), (0, 20983), (0, 1303)], [(0, 45114), (0, 6833), (0, 808), (0, 70), (0, 4)]], 3, 4⟩,
    1099511627776, 0, 1426143809, ⟨[[(46291472107408, 0), (22033881010, 0), (123630285, 0), (243159, 0), (0, 246)],
    [(9691986687, 0), (20131343, 0), (0, 16191), (70, 0)], [(0, 3920607), (0, 6965), (0, 2)], [(2036, 0), (6, 0)]],
    3, 4⟩, 68719476736, 471360,
    1466289698828618318258261901651419476775002728088824368625018794956032100294781075943803462093, ⟨0, 5,
    324753883946682, [33492991746, 5479874, 1195]⟩⟩) (.leaf ⟨1010, 16, 41, 925, 16, 522, ⟨[[(0, 412316860416)],
    [(352187318272, 0)]], 3, 4⟩, ⟨[[(136516446685, 0), (0, 2845794637155), (0, 45560742629), (0, 1415993137), (0,
    61328226)], [(0, 148235538561), (0, 4164680927), (0, 180866591), (0, 10298988), (0, 592030)], [(0, 64941918), (0,
    6676370), (0, 601385), (0, 47692), (0, 2914)], [(0, 69012), (0, 14314), (0, 1820), (0, 153), (0, 9)]], 3, 4⟩,
    1099511627776, 0, 3108449744, ⟨[[(46284861493680, 0), (21744194128, 0), (143260998, 0), (374950, 0), (0, 400)],
    [(9165075983, 0), (22869098, 0), (0, 24837), (111, 0)], [(0, 3644900), (0, 7249)], [(1815, 0), (6, 0)]], 3, 4⟩,
    68719476736, 614605,
    3177729646732421204485484659523636832293606422982198808050132465811475363117439968025060610359, ⟨0, 5,
    290125602216707, [28730261233, 4557465, 964]⟩⟩))))) (.sy (.sx (.leaf ⟨515, 16, 20, 580, 16, 321, ⟨[[],
    [(343597383680, 0)]], 3, 4⟩, ⟨[[(0, 335521503547), (0, 2812883297070), (0, 60069627001), (0, 2175499378), (0,
    92336275)], [(0, 142030162395), (0, 5389834801), (0, 266228093), (0, 14391212), (0, 1118356)], [(0, 66629265),
    (0, 8398135), (0, 696084), (0, 76949), (0, 10254)], [(0, 60216), (0, 10882), (0, 2309), (0, 472), (0, 69)]], 3,
    4⟩, 1099511627776, 0, 10555219849, ⟨[[(47159911461634, 0), (46035889220, 0), (428444944, 0), (1503057, 0), (0,
    2976)], [(18940527627, 0), (71465624, 0), (0, 105835), (785, 0), (0, 4)], [(0, 14819474), (0, 44665), (0, 28),
    (0, 1)], [(14934, 0), (73, 0)]], 3, 4⟩, 68719476736, 4974595,
    3932145709311408983232651209681807675790422766346978774693306980753893029264576233336618268754, ⟨0, 5,
    180898282829176, [33791160391, 10252172, 4147]⟩⟩) (.sy (.leaf ⟨545, 16, 20, 767, 16, 431, ⟨[[], [(343597383680,
    0)]], 3, 4⟩, ⟨[[(0, 113137887291), (0, 2124034601395), (0, 26000449276), (0, 550275900), (0, 16697486)], [(0,
    196666367261), (0, 4164309506), (0, 118992673), (0, 4674247), (0, 258379)], [(0, 93542962), (0, 6590845), (0,
    423022), (0, 34376), (0, 2423)], [(0, 75800), (0, 13673), (0, 2126), (0, 216), (0, 15)]], 3, 4⟩, 1099511627776,
    0, 6491700607, ⟨[[(47325292139654, 0), (30577157860, 0), (212874684, 0), (674293, 0), (0, 917)], [(17477398972,
    0), (52902146, 0), (0, 71244), (352, 0), (0, 1)], [(0, 13224724), (0, 28637), (0, 2)], [(12543, 0), (44, 0)]], 3,
    4⟩, 68719476736, 2534639,
    3686504868608847351610574620979209332370601064214210866971434977019359960624480715555731994051, ⟨0, 5,
    247121793698669, [42873216817, 12291633, 4699]⟩⟩) (.sx (.sy (.leaf ⟨1102, 16, 41, 1466, 16, 829, ⟨[[(0,
    137438953472)], [(352187318272, 0)]], 3, 4⟩, ⟨[[(404154636844, 0), (0, 2184160247541), (0, 15148707372), (0,
    194306588), (0, 3750689)], [(0, 204042959357), (0, 2438824337), (0, 42822344), (0, 1088437), (0, 32451)], [(0,
    59320427), (0, 2551159), (0, 106826), (0, 4538), (0, 152)], [(0, 36809), (0, 4104), (0, 300), (0, 14)]], 3, 4⟩,
    1099511627776, 0, 683053944, ⟨[[(47053903722221, 0), (14646417013, 0), (55022999, 0), (96840, 0), (0, 66)],
    [(8496297327, 0), (13707088, 0), (0, 10086), (26, 0)], [(0, 3180542), (0, 3667)], [(1477, 0), (3, 0)]], 3, 4⟩,
    68719476736, 203907,
    2061754583634246464708984863633076510765673083242719176120199329309960985462697916920918472557, ⟨0, 5,
    473329553924770, [41807227592, 6076632, 1178]⟩⟩) (.skip)) (.skip)))) (.sx (.sy (.sx (.leaf ⟨1040, 16, 41, 1004,
    16, 565, ⟨[[(412316860416, 0)], [(352187318272, 0)]], 3, 4⟩, ⟨[[(306549687646, 0), (0, 2927682960427), (0,
    41526654811), (0, 1092153458), (0, 41815126)], [(0, 147653055186), (0, 3667841581), (0, 133386133), (0, 6667785),
    (0, 380039)], [(0, 51764157), (0, 4540552), (0, 363067), (0, 28920), (0, 1848)], [(0, 40567), (0, 7840), (0,
    1037), (0, 92), (0, 6)]], 3, 4⟩, 1099511627776, 0, 1855006159, ⟨[[(46615607665409, 0), (21406189787, 0),
    (124142373, 0), (294946, 0), (0, 298)], [(9009140436, 0), (20624324, 0), (0, 20508), (83, 0)], [(0, 3504380), (0,
    6225), (0, 1)], [(1711, 0), (5, 0)]], 3, 4⟩, 68719476736, 476160,
    1852008925439141632171309486528374210595314581053725754015729219351000490148246332525023269611, ⟨0, 5,
    316965583943065, [30177809170, 4645599, 954]⟩⟩) (.sy (.leaf ⟨1071, 16, 41, 1339, 16, 760, ⟨[[(137438953472, 0)],
    [(352187318272, 0)]], 3, 4⟩, ⟨[[(0, 142893585440), (0, 2129871973419), (0, 17020533639), (0, 267033464), (0,
    5989131)], [(0, 204750743051), (0, 2826152577), (0, 61714203), (0, 1836778), (0, 55145)], [(0, 77121350), (0,
    4058296), (0, 195264), (0, 8171), (0, 259)], [(0, 72367), (0, 8443), (0, 575), (0, 25), (0, 1)]], 3, 4⟩,
    1099511627776, 0, 1413840841, ⟨[[(46711790843558, 0), (14862187146, 0), (63963863, 0), (126453, 0), (0, 91)],
    [(8621791313, 0), (15330844, 0), (0, 12531), (35, 0)], [(0, 3301072), (0, 4300)], [(1560, 0), (3, 0)]], 3, 4⟩,
    68719476736, 234136,
    2818858349950286105718102154918380840565748329972801528025660014226965695323512734441226992212, ⟨0, 5,
    430201248682176, [39427805384, 5895306, 1175]⟩⟩) (.skip))) (.skip)) (.skip)))) (.sx (.sy (.sx (.sx (.sy (.leaf
    ⟨917, 16, 41, 1137, 16, 626, ⟨[[(412316860416, 0)], [(352187318272, 0)]], 3, 4⟩, ⟨[[(512189816890, 0), (0,
    2718381707247), (0, 31451062797), (0, 643017507), (0, 17219597)], [(0, 163636657840), (0, 3438811136), (0,
    98460707), (0, 3382128), (0, 151327)], [(0, 58812136), (0, 4186878), (0, 222774), (0, 13582), (0, 806)], [(0,
    48296), (0, 5655), (0, 565), (0, 47), (0, 3)]], 3, 4⟩, 1099511627776, 0, 1031765247, ⟨[[(45933237717684, 0),
    (22381638826, 0), (117924503, 0), (190679, 0), (0, 188)], [(10445478684, 0), (19533863, 0), (0, 12067), (54, 0)],
    [(0, 4424945), (0, 7772), (0, 2)], [(2459, 0), (7, 0)]], 3, 4⟩, 68719476736, 439617,
    2448681596056363865836244794954820978632094660292041541754244599135893875049585539848217800824, ⟨0, 4,
    337522582828397, [37918975960, 6619933, 1541]⟩⟩) (.leaf ⟨917, 16, 41, 941, 16, 525, ⟨[[(412316860416, 0)],
    [(352187318272, 0)]], 3, 4⟩, ⟨[[(0, 535654699558), (0, 2671692747007), (0, 40886239256), (0, 1206122951), (0,
    48755052)], [(0, 158348225408), (0, 4342947312), (0, 179848764), (0, 9457583), (0, 509078)], [(0, 80778188), (0,
    7852066), (0, 640264), (0, 46973), (0, 2725)], [(0, 98732), (0, 17728), (0, 2052), (0, 163), (0, 9)]], 3, 4⟩,
    1099511627776, 0, 3475209889, ⟨[[(45623971509114, 0), (22633525098, 0), (155129515, 0), (342183, 0), (0, 374)],
    [(10150174826, 0), (23767903, 0), (0, 20860), (106, 0)], [(0, 4309073), (0, 9197), (0, 2)], [(2355, 0), (8, 0)]],
    3, 4⟩, 68719476736, 687261,
    3644702521187455397505786366681653946366053847571606564744136121288591571420249303847466487621, ⟨0, 4,
    283066063873655, [31801058113, 5551861, 1292]⟩⟩)) (.sy (.leaf ⟨948, 16, 41, 999, 16, 557, ⟨[[(137438953472, 0)],
    [(352187318272, 0)]], 3, 4⟩, ⟨[[(0, 109140053955), (0, 2752289621586), (0, 38801068166), (0, 1020575136), (0,
    37801186)], [(0, 157013985294), (0, 3958860900), (0, 145493443), (0, 6977472), (0, 372630)], [(0, 67732544), (0,
    5940173), (0, 444299), (0, 32517), (0, 1950)], [(0, 67652), (0, 11379), (0, 1338), (0, 111), (0, 7)]], 3, 4⟩,
    1099511627776, 0, 2296276870, ⟨[[(45948788088329, 0), (22196657917, 0), (137798546, 0), (288468, 0), (0, 302)],
    [(9903710572, 0), (21862689, 0), (0, 18481), (86, 0)], [(0, 4103546), (0, 7986), (0, 2)], [(2183, 0), (7, 0)]],
    3, 4⟩, 68719476736, 505836,
    2703964332134232606622285312816315321623181803843337041931042126051982967031717403457778189243, ⟨0, 5,
    303505496361854, [32645157241, 5514385, 1242]⟩⟩) (.sy (.leaf ⟨948, 16, 41, 1178, 16, 665, ⟨[[(137438953472, 0)],
    [(352187318272, 0)]], 3, 4⟩, ⟨[[(176034960128, 0), (0, 1899142324797), (0, 17646252760), (0, 324957425), (0,
    7563289)], [(0, 213232663384), (0, 3505639460), (0, 91310775), (0, 2804797), (0, 78421)], [(0, 128250557), (0,
    7673113), (0, 366377), (0, 13979), (0, 402)], [(0, 190226), (0, 19846), (0, 1184), (0, 46), (0, 1)]], 3, 4⟩,
    1099511627776, 0, 3735373503, ⟨[[(45695802504532, 0), (15860975724, 0), (89006407, 0), (178173, 0), (0, 146)],
    [(9631519005, 0), (18727431, 0), (0, 15332), (57, 0)], [(0, 4005427), (0, 6663)], [(2098, 0), (6, 0)]], 3, 4⟩,
    68719476736, 347869,
    2322528582495334514810278107296355811143883690935061588114841950186907344033543729839750755203, ⟨0, 5,
    362353958852124, [38974918430, 6583601, 1483]⟩⟩) (.skip)))) (.sy (.sx (.leaf ⟨979, 16, 41, 848, 16, 480, ⟨[[(0,
    137438953472)], [(352187318272, 0)]], 3, 4⟩, ⟨[[(499196467488, 0), (0, 2757502455267), (0, 50320046188), (0,
    1823013719), (0, 85217152)], [(0, 148512396102), (0, 4767646556), (0, 243802039), (0, 15064063), (0, 857855)],
    [(0, 81724126), (0, 9681379), (0, 935851), (0, 72962), (0, 4281)], [(0, 112196), (0, 24048), (0, 2948), (0, 236),
    (0, 13)]], 3, 4⟩, 1099511627776, 0, 4897200904, ⟨[[(45939428671632, 0), (22000454587, 0), (166626534, 0),
    (483402, 0), (0, 546)], [(9330880406, 0), (25532375, 0), (0, 30486), (150, 0)], [(0, 3797944), (0, 8520)],
    [(1932, 0), (7, 0)]], 3, 4⟩, 68719476736, 834835,
    4843011631251421669121252079226873135481470130091398201199699534284660490287550964680746300625, ⟨0, 5,
    264206549651538, [27248535658, 4458203, 973]⟩⟩) (.skip)) (.skip))) (.skip)) (.skip))
theorem c27 : checkC job ⟨6, 8, 7, 8, 9, 13⟩ 1 25 lims t27 400 48 16 39 3 128 = true := by decide +kernel

def t28 : CTree :=
  .sx (.sx (.sy (.leaf ⟨671, 16, 41, 1060, 16, 555, ⟨[[(412316860416, 0)], [(352187318272, 0)]], 3, 4⟩, ⟨[[(0,
    144325377028), (0, 3102693222093), (0, 38000277348), (0, 961514165), (0, 25332035)], [(0, 139423809666), (0,
    3320618274), (0, 116779625), (0, 4150175), (0, 139273)], [(0, 33356056), (0, 3780824), (0, 217470), (0, 10092),
    (0, 495)], [(0, 35631), (0, 4251), (0, 317), (0, 21), (0, 2)]], 3, 4⟩, 1099511627776, 0, 750416158,
    ⟨[[(44495282131114, 0), (37023878224, 0), (189228901, 0), (203436, 0), (0, 244)], [(14637458123, 0), (27471826,
    0), (0, 5218), (20, 0)], [(0, 8036089), (0, 19211), (0, 5)], [(6263, 0), (23, 0)]], 3, 4⟩, 68719476736, 956266,
    3135337892997971824634077797963517138936854482351087698675780397612331344461007337836605326858, ⟨0, 4,
    269182917273028, [45936403028, 10958111, 3485]⟩⟩) (.sy (.leaf ⟨671, 16, 41, 1324, 16, 702, ⟨[[(412316860416, 0)],
    [(352187318272, 0)]], 3, 4⟩, ⟨[[(0, 517714398207), (0, 2222443474800), (0, 17363206182), (0, 258066824), (0,
    4443649)], [(0, 198812693358), (0, 2967130125), (0, 62680236), (0, 1411622), (0, 39321)], [(0, 70821276), (0,
    4203415), (0, 149180), (0, 5503), (0, 241)], [(0, 81398), (0, 6101), (0, 354), (0, 21), (0, 1)]], 3, 4⟩,
    1099511627776, 0, 1100530131, ⟨[[(44037525118011, 0), (25393623781, 0), (113062588, 0), (106904, 0), (0, 95)],
    [(14272542439, 0), (21839298, 0), (0, 3981), (19, 0)], [(0, 7782510), (0, 15078), (0, 3)], [(5960, 0), (18, 0)]],
    3, 4⟩, 68719476736, 641938,
    2611088801658305340375801953630058053001202101789373484371037042227186108185416019069757833902, ⟨0, 4,
    340480014280479, [58103342208, 13860530, 4409]⟩⟩) (.leaf ⟨671, 16, 41, 1171, 16, 627, ⟨[[(412316860416, 0)],
    [(352187318272, 0)]], 3, 4⟩, ⟨[[(0, 290471662019), (0, 2200203884984), (0, 20792168815), (0, 377418843), (0,
    9293915)], [(0, 195818298991), (0, 3499145662), (0, 90097364), (0, 2823096), (0, 110305)], [(0, 92008434), (0,
    6148722), (0, 296320), (0, 15340), (0, 762)], [(0, 122591), (0, 12527), (0, 1007), (0, 68), (0, 4)]], 3, 4⟩,
    1099511627776, 0, 2679834969, ⟨[[(43727894059077, 0), (25218981544, 0), (136412563, 0), (156886, 0), (0, 148)],
    [(13989489431, 0), (24578684, 0), (0, 6064), (36, 0)], [(0, 7588101), (0, 16791), (0, 4)], [(5726, 0), (20, 0)]],
    3, 4⟩, 68719476736, 723281,
    3330338667670428346983498557548664399912586486025962004746424366148197552753630898120223852388, ⟨0, 4,
    304103944378718, [51895720178, 12379704, 3938]⟩⟩))) (.sy (.leaf ⟨702, 16, 41, 949, 16, 503, ⟨[[(137438953472,
    0)], [(352187318272, 0)]], 3, 4⟩, ⟨[[(276760611404, 0), (0, 3136259040128), (0, 46715118736), (0, 1339735081),
    (0, 41419772)], [(0, 133146345480), (0, 3789820196), (0, 153586693), (0, 6315685), (0, 291207)], [(0, 40964619),
    (0, 4799664), (0, 314025), (0, 19428), (0, 1505)], [(0, 43000), (0, 5921), (0, 581), (0, 61), (0, 7)]], 3, 4⟩,
    1099511627776, 0, 1685316559, ⟨[[(44484397863809, 0), (36507097254, 0), (220255772, 0), (291692, 0), (0, 375)],
    [(13816006876, 0), (29238469, 0), (0, 8093), (50, 0)], [(0, 7263787), (0, 18884), (0, 6)], [(5348, 0), (21, 0)]],
    3, 4⟩, 68719476736, 1103276,
    3482813968923222896453988499140147336346284740172823015264939052025488327209908297630742241435, ⟨0, 4,
    247870065138755, [39809132698, 9080550, 2762]⟩⟩) (.sy (.leaf ⟨702, 16, 41, 1160, 16, 624, ⟨[[(137438953472, 0)],
    [(352187318272, 0)]], 3, 4⟩, ⟨[[(492806188172, 0), (0, 2268924086927), (0, 22381101266), (0, 418775057), (0,
    10573972)], [(0, 191113879106), (0, 3548785351), (0, 94268514), (0, 3037449), (0, 121780)], [(0, 88897148), (0,
    6063288), (0, 300717), (0, 16016), (0, 815)], [(0, 113374), (0, 11962), (0, 992), (0, 69), (0, 4)]], 3, 4⟩,
    1099511627776, 0, 2439701371, ⟨[[(44017610855465, 0), (24619725226, 0), (134911403, 0), (163656, 0), (0, 156)],
    [(13406817948, 0), (23778243, 0), (0, 6976), (40, 0)], [(0, 7001800), (0, 15088), (0, 4)], [(5049, 0), (17, 0)]],
    3, 4⟩, 68719476736, 661203,
    3814320883918839767898269286458718111693620593235670440724504609633444777126689321420268396964, ⟨0, 4,
    307496860132372, [49385484699, 11264937, 3426]⟩⟩) (.leaf ⟨702, 16, 41, 985, 16, 536, ⟨[[(137438953472, 0)],
    [(352187318272, 0)]], 3, 4⟩, ⟨[[(490837593108, 0), (0, 2228899970359), (0, 28575312764), (0, 748468578), (0,
    26800606)], [(0, 186107130954), (0, 4428043219), (0, 163348940), (0, 7514236), (0, 352754)], [(0, 121070550), (0,
    10645189), (0, 745082), (0, 46928), (0, 2385)], [(0, 207762), (0, 30660), (0, 2974), (0, 205), (0, 10)]], 3, 4⟩,
    1099511627776, 0, 6616872157, ⟨[[(43713989853014, 0), (24591662312, 0), (173784409, 0), (271270, 0), (0, 285)],
    [(13089626705, 0), (27924742, 0), (0, 11902), (80, 0)], [(0, 6802019), (0, 17455), (0, 5)], [(4820, 0), (20,
    0)]], 3, 4⟩, 68719476736, 876725,
    4658792579848056576721681456959031313736014682645501572446870174986788718116222826648524356270, ⟨0, 4,
    264131918318833, [42420865062, 9676292, 2943]⟩⟩)))) (.sy (.sx (.sy (.leaf ⟨733, 16, 41, 1320, 16, 705, ⟨[[(0,
    137438953472)], [(352187318272, 0)]], 3, 4⟩, ⟨[[(269972298831, 0), (0, 2361015004274), (0, 19688218696), (0,
    306655500), (0, 5403936)], [(0, 189872934247), (0, 2996797716), (0, 66215008), (0, 1532260), (0, 43291)], [(0,
    64755683), (0, 3939426), (0, 143432), (0, 5399), (0, 246)], [(0, 66739), (0, 5144), (0, 306), (0, 19), (0, 1)]],
    3, 4⟩, 1099511627776, 0, 819595899, ⟨[[(44647474579415, 0), (24449868590, 0), (108698145, 0), (110566, 0), (0,
    100)], [(13177205379, 0), (20160675, 0), (0, 4933), (23, 0)], [(0, 6669449), (0, 12094), (0, 3)], [(4678, 0),
    (13, 0)]], 3, 4⟩, 68719476736, 494485,
    2789717655753398740150991017487466391738461797677885435590943909548284282981779321118065658900, ⟨0, 4,
    352654765550311, [53455005376, 11681601, 3404]⟩⟩) (.leaf ⟨733, 16, 41, 1158, 16, 625, ⟨[[(0, 137438953472)],
    [(352187318272, 0)]], 3, 4⟩, ⟨[[(414449697069, 0), (0, 2337004566971), (0, 23724091716), (0, 450714876), (0,
    11435919)], [(0, 186737857330), (0, 3553266053), (0, 95846362), (0, 3111085), (0, 126238)], [(0, 84351557), (0,
    5807370), (0, 290516), (0, 15695), (0, 815)], [(0, 101631), (0, 10849), (0, 917), (0, 65), (0, 4)]], 3, 4⟩,
    1099511627776, 0, 2111964544, ⟨[[(44330989055969, 0), (24273446954, 0), (132346731, 0), (166589, 0), (0, 161)],
    [(12898471512, 0), (22910686, 0), (0, 7656), (42, 0)], [(0, 6503402), (0, 13551), (0, 4)], [(4497, 0), (15, 0)]],
    3, 4⟩, 68719476736, 614472,
    4123923048616552924749432249027098737732195479020381851645246207055161162668887103225917144014, ⟨0, 4,
    312637203502049, [47389189163, 10356029, 3017]⟩⟩)) (.sy (.leaf ⟨764, 16, 41, 1166, 16, 631, ⟨[[(0,
    412316860416)], [(352187318272, 0)]], 3, 4⟩, ⟨[[(319012710548, 0), (0, 2407996813027), (0, 24814441224), (0,
    471841031), (0, 11787101)], [(0, 182940761254), (0, 3519281676), (0, 94957592), (0, 3041866), (0, 123119)], [(0,
    78797267), (0, 5417260), (0, 267901), (0, 14467), (0, 765)], [(0, 88511), (0, 9368), (0, 795), (0, 57), (0, 3)]],
    3, 4⟩, 1099511627776, 0, 1739579254, ⟨[[(44648886884117, 0), (23930501776, 0), (128070722, 0), (165151, 0), (0,
    160)], [(12439467683, 0), (21950235, 0), (0, 8118), (43, 0)], [(0, 6067485), (0, 12134), (0, 3)], [(4033, 0),
    (13, 0)]], 3, 4⟩, 68719476736, 559155,
    4211599519707396406037772186328616637123734308025676731198917420241733390501139092116340419449, ⟨0, 4,
    320137812537972, [45917516303, 9630352, 2693]⟩⟩) (.leaf ⟨764, 16, 41, 984, 16, 539, ⟨[[(0, 412316860416)],
    [(352187318272, 0)]], 3, 4⟩, ⟨[[(255203504790, 0), (0, 2366391070811), (0, 31663663618), (0, 839651331), (0,
    30499635)], [(0, 177965934008), (0, 4388952150), (0, 164201845), (0, 7678460), (0, 372788)], [(0, 107107136), (0,
    9516889), (0, 679735), (0, 44377), (0, 2350)], [(0, 163374), (0, 24817), (0, 2508), (0, 181), (0, 9)]], 3, 4⟩,
    1099511627776, 0, 4983853277, ⟨[[(44337592362920, 0), (23920185334, 0), (165726281, 0), (279339, 0), (0, 298)],
    [(12129459814, 0), (25995859, 0), (0, 13894), (85, 0)], [(0, 5897706), (0, 14101), (0, 4)], [(3855, 0), (15,
    0)]], 3, 4⟩, 68719476736, 737607,
    4979842370116325184341572180380341934930448344323845733945978677002464427141449196433588494432, ⟨0, 4,
    273461617999947, [39222727872, 8226243, 2300]⟩⟩))) (.sx (.sy (.leaf ⟨733, 16, 41, 980, 16, 535, ⟨[[(0,
    137438953472)], [(352187318272, 0)]], 3, 4⟩, ⟨[[(0, 111093768876), (0, 2297099497758), (0, 30370266835), (0,
    808775258), (0, 29393888)], [(0, 181809598803), (0, 4445148611), (0, 166933579), (0, 7806743), (0, 373609)], [(0,
    115080015), (0, 10261841), (0, 731455), (0, 47019), (0, 2438)], [(0, 188093), (0, 28372), (0, 2814), (0, 198),
    (0, 10)]], 3, 4⟩, 1099511627776, 0, 5883710726, ⟨[[(44034500255501, 0), (24396115400, 0), (171430725, 0),
    (279024, 0), (0, 297)], [(12595997017, 0), (27027549, 0), (0, 12999), (83, 0)], [(0, 6325932), (0, 15727), (0,
    4)], [(4303, 0), (17, 0)]], 3, 4⟩, 68719476736, 820137,
    4931992526230751457117895021237323742462742515763572102900951387367669151772911047164320665086, ⟨0, 4,
    267617446197754, [40565145923, 8864761, 2583]⟩⟩) (.sx (.leaf ⟨1450, 16, 82, 1181, 16, 651, ⟨[[(412316860416, 0)],
    [(352187318272, 0)]], 3, 4⟩, ⟨[[(307713804102, 0), (0, 3178790374370), (0, 55402037947), (0, 1979827295), (0,
    84324594)], [(0, 126067487403), (0, 4012386498), (0, 203272387), (0, 11337450), (0, 555934)], [(0, 56007725), (0,
    6404203), (0, 543295), (0, 35940), (0, 1800)], [(0, 61770), (0, 10932), (0, 1109), (0, 75), (0, 4)]], 3, 4⟩,
    1099511627776, 0, 2142972251, ⟨[[(43720140341325, 0), (17271159191, 0), (110420683, 0), (160637, 0), (0, 133)],
    [(6219645655, 0), (11320544, 0), (0, 5230), (27, 0)], [(0, 1569619), (0, 3302), (0, 1)], [(531, 0), (2, 0)]], 3,
    4⟩, 68719476736, 182884,
    2739019242352992435369622950933118214465962391215047704052048578381754887081436777272190100535, ⟨0, 4,
    324452000247771, [24941918229, 2754187, 406]⟩⟩) (.leaf ⟨1481, 16, 82, 1012, 16, 563, ⟨[[(137438953472, 0)],
    [(352187318272, 0)]], 3, 4⟩, ⟨[[(0, 413019170545), (0, 3142964731200), (0, 70106767943), (0, 3006710738), (0,
    136683070)], [(0, 120078398248), (0, 4852515767), (0, 298478926), (0, 17966262), (0, 886413)], [(0, 68343940),
    (0, 9209088), (0, 843746), (0, 56273), (0, 2779)], [(0, 88024), (0, 16706), (0, 1705), (0, 114), (0, 5)]], 3, 4⟩,
    1099511627776, 0, 3336112678, ⟨[[(43733538946027, 0), (17680646164, 0), (140285688, 0), (258664, 0), (0, 240)],
    [(6002867210, 0), (13002360, 0), (0, 8273), (46, 0)], [(0, 1487570), (0, 3613), (0, 1)], [(487, 0), (2, 0)]], 3,
    4⟩, 68719476736, 282175,
    3291148196181366818061471301470656627100764867971270034766610469592913755526608328546267979417, ⟨0, 4,
    282642773218086, [21122525843, 2284010, 329]⟩⟩))) (.sy (.sx (.leaf ⟨1512, 16, 82, 1170, 16, 647, ⟨[[(0,
    137438953472)], [(352187318272, 0)]], 3, 4⟩, ⟨[[(0, 118827521491), (0, 3245294400353), (0, 57455018665), (0,
    2065260003), (0, 89107064)], [(0, 122153862004), (0, 3938817649), (0, 200845849), (0, 11351286), (0, 567181)],
    [(0, 51893066), (0, 5974944), (0, 514413), (0, 34696), (0, 1773)], [(0, 54204), (0, 9769), (0, 1012), (0, 70),
    (0, 4)]], 3, 4⟩, 1099511627776, 0, 2099335290, ⟨[[(44033750196922, 0), (17244291408, 0), (109591042, 0), (167432,
    0), (0, 141)], [(5989689437, 0), (11040253, 0), (0, 5683), (28, 0)], [(0, 1464295), (0, 2998), (0, 1)], [(476,
    0), (2, 0)]], 3, 4⟩, 68719476736, 196724,
    3021737100283376703750219519830651046780568753787785367561644349709604796077858075935507895130, ⟨0, 4,
    327119721531206, [23780312789, 2519101, 356]⟩⟩) (.leaf ⟨1543, 16, 82, 1008, 16, 563, ⟨[[(0, 412316860416)],
    [(352187318272, 0)]], 3, 4⟩, ⟨[[(332892700429, 0), (0, 3209590479231), (0, 71800300088), (0, 3085847195), (0,
    142229668)], [(0, 116500780302), (0, 4710515272), (0, 290304592), (0, 17714437), (0, 890992)], [(0, 62544529),
    (0, 8463416), (0, 787089), (0, 53535), (0, 2698)], [(0, 76182), (0, 14722), (0, 1534), (0, 105), (0, 5)]], 3, 4⟩,
    1099511627776, 0, 3231196711, ⟨[[(44028438020598, 0), (17367811442, 0), (136608227, 0), (265478, 0), (0, 248)],
    [(5773414380, 0), (12645077, 0), (0, 8915), (48, 0)], [(0, 1387988), (0, 3267), (0, 1)], [(437, 0), (2, 0)]], 3,
    4⟩, 68719476736, 317199,
    3079121843068478243579727942308105450581824105816419281253171353200716892570309694577024517087, ⟨0, 4,
    286616360910473, [20280431789, 2105527, 291]⟩⟩)) (.sx (.sy (.leaf ⟨1512, 16, 82, 1412, 16, 791, ⟨[[(0,
    137438953472)], [(352187318272, 0)]], 3, 4⟩, ⟨[[(527128244581, 0), (0, 2401796477985), (0, 30642227224), (0,
    711313615), (0, 16578640)], [(0, 177591919582), (0, 4094957374), (0, 137287366), (0, 4255770), (0, 105407)], [(0,
    113985570), (0, 8270146), (0, 390462), (0, 13083), (0, 322)], [(0, 154972), (0, 15119), (0, 775), (0, 26), (0,
    1)]], 3, 4⟩, 1099511627776, 0, 1790672430, ⟨[[(43798442515793, 0), (11501152793, 0), (68135417, 0), (96243, 0),
    (0, 62)], [(5822126195, 0), (9186795, 0), (0, 4720), (18, 0)], [(0, 1419292), (0, 2440)], [(452, 0), (1, 0)]], 3,
    4⟩, 68719476736, 134130,
    1620148315168896526162553504634457059914869637587112742214129436845884102140583047991637922351, ⟨0, 4,
    399925347343407, [29072994461, 3079766, 435]⟩⟩) (.skip)) (.skip)))))
theorem c28 : checkC job ⟨6, 8, 7, 8, 9, 13⟩ 1 25 lims t28 560 48 32 87 3 256 = true := by decide +kernel

def t29 : CTree :=
  .sy (.sx (.sx (.sy (.leaf ⟨794, 16, 41, 998, 16, 548, ⟨[[(412316860416, 0)], [(352187318272, 0)]], 3, 4⟩,
    ⟨[[(399673438100, 0), (0, 2437130394289), (0, 32440088234), (0, 839760366), (0, 29978977)], [(0, 174565706293),
    (0, 4269183915), (0, 155885908), (0, 7161207), (0, 350717)], [(0, 97797712), (0, 8512940), (0, 598858), (0,
    39492), (0, 2139)], [(0, 136400), (0, 20542), (0, 2107), (0, 155), (0, 8)]], 3, 4⟩, 1099511627776, 0, 4017775456,
    ⟨[[(44638194405165, 0), (23509719568, 0), (157954954, 0), (270999, 0), (0, 287)], [(11725402059, 0), (24842297,
    0), (0, 14263), (82, 0)], [(0, 5535388), (0, 12623), (0, 4)], [(3490, 0), (13, 0)]], 3, 4⟩, 68719476736, 703001,
    4755142432472076041379266134126489459391275703822728504128357741629218858962691968091744672401, ⟨0, 4,
    281780951871871, [38334001750, 7728629, 2078]⟩⟩) (.sx (.leaf ⟨1573, 16, 82, 1174, 16, 651, ⟨[[(412316860416, 0)],
    [(352187318272, 0)]], 3, 4⟩, ⟨[[(0, 16951868798), (0, 3313148847934), (0, 58195561611), (0, 2061379538), (0,
    89270905)], [(0, 118670387996), (0, 3786610780), (0, 190144494), (0, 10779292), (0, 548188)], [(0, 46900044), (0,
    5338944), (0, 461962), (0, 31736), (0, 1658)], [(0, 45445), (0, 8275), (0, 875), (0, 62), (0, 3)]], 3, 4⟩,
    1099511627776, 0, 1970300774, ⟨[[(44337356431831, 0), (17104352173, 0), (106284443, 0), (167868, 0), (0, 142)],
    [(5781782545, 0), (10663485, 0), (0, 5951), (28, 0)], [(0, 1372306), (0, 2704), (0, 1)], [(430, 0), (1, 0)]], 3,
    4⟩, 68719476736, 211080,
    3148423472293165076387417179533005971816167609118213334536776543197131310310141677784461904971, ⟨0, 4,
    333645168505190, [22992061429, 2340397, 318]⟩⟩) (.leaf ⟨1604, 16, 82, 1022, 16, 572, ⟨[[(137438953472, 0)],
    [(352187318272, 0)]], 3, 4⟩, ⟨[[(37455680107, 0), (0, 3281113604163), (0, 71696149165), (0, 3032760755), (0,
    140911319)], [(0, 113471549496), (0, 4469681618), (0, 270669853), (0, 16635372), (0, 853152)], [(0, 55751268),
    (0, 7453848), (0, 699404), (0, 48533), (0, 2501)], [(0, 63063), (0, 12355), (0, 1315), (0, 92), (0, 5)]], 3, 4⟩,
    1099511627776, 0, 3023893795, ⟨[[(44338422533118, 0), (17288373957, 0), (130185310, 0), (257909, 0), (0, 239)],
    [(5583261385, 0), (12109249, 0), (0, 8989), (46, 0)], [(0, 1305278), (0, 2924)], [(397, 0), (1, 0)]], 3, 4⟩,
    68719476736, 302067,
    2917537480067928773979447192304023609264389650398129102853908526536533174145613522355931991537, ⟨0, 4,
    295077415309510, [19814676635, 1978302, 263]⟩⟩))) (.sy (.sx (.leaf ⟨1635, 16, 82, 1193, 16, 663, ⟨[[(0,
    137438953472)], [(352187318272, 0)]], 3, 4⟩, ⟨[[(463674623076, 0), (0, 3385174933668), (0, 57766594222), (0,
    1974505661), (0, 84886218)], [(0, 115669918328), (0, 3576779663), (0, 173017976), (0, 9721542), (0, 502353)],
    [(0, 41483071), (0, 4582159), (0, 393977), (0, 27529), (0, 1473)], [(0, 36476), (0, 6649), (0, 717), (0, 52), (0,
    3)]], 3, 4⟩, 1099511627776, 0, 1779232991, ⟨[[(44645325511941, 0), (16898140695, 0), (100836687, 0), (161984, 0),
    (0, 135)], [(5589570220, 0), (10187445, 0), (0, 6009), (27, 0)], [(0, 1289444), (0, 2415)], [(390, 0), (1, 0)]],
    3, 4⟩, 68719476736, 201000,
    3348105760111847919422671583328045903155062472722345167698320536832137220116818177794440117963, ⟨0, 4,
    344205516327694, [22535030146, 2207585, 288]⟩⟩) (.leaf ⟨1666, 16, 82, 1053, 16, 590, ⟨[[(0, 412316860416)],
    [(352187318272, 0)]], 3, 4⟩, ⟨[[(0, 337056613036), (0, 3361573089908), (0, 70065967314), (0, 2860302710), (0,
    132978910)], [(0, 111060727437), (0, 4161408154), (0, 242480464), (0, 14888123), (0, 778428)], [(0, 48575538),
    (0, 6303803), (0, 592322), (0, 41939), (0, 2215)], [(0, 49987), (0, 9875), (0, 1076), (0, 77), (0, 4)]], 3, 4⟩,
    1099511627776, 0, 2723703349, ⟨[[(44659534200555, 0), (17196326342, 0), (121008314, 0), (238574, 0), (0, 217)],
    [(5412603552, 0), (11423956, 0), (0, 8647), (41, 0)], [(0, 1231585), (0, 2585)], [(362, 0), (1, 0)]], 3, 4⟩,
    68719476736, 245123,
    3075175542809975038653733667277065784777622211361137990574755950695764051978005603476151037721, ⟨0, 4,
    308213851511646, [19683573611, 1892651, 243]⟩⟩)) (.skip))) (.skip)) (.skip)
theorem c29 : checkC job ⟨6, 8, 7, 8, 9, 13⟩ 1 25 lims t29 656 48 32 87 3 256 = true := by decide +kernel

def t30 : CTree :=
  .sx (.sy (.sx (.sx (.sy (.leaf ⟨671, 16, 41, 1001, 16, 542, ⟨[[(412316860416, 0)], [(352187318272, 0)]], 3, 4⟩,
    ⟨[[(0, 21427141194), (0, 2161985633507), (0, 26364802067), (0, 665089437), (0, 23110619)], [(0, 190911597234),
    (0, 4337114961), (0, 153746652), (0, 6842690), (0, 313470)], [(0, 124626122), (0, 10617074), (0, 717862), (0,
    44064), (0, 2195)], [(0, 220135), (0, 31299), (0, 2955), (0, 200), (0, 10)]], 3, 4⟩, 1099511627776, 0,
    7072297726, ⟨[[(43422390952233, 0), (25159555042, 0), (174154705, 0), (254742, 0), (0, 263)], [(13668446583, 0),
    (28638898, 0), (0, 10248), (71, 0)], [(0, 7370171), (0, 19313), (0, 5)], [(5463, 0), (23, 0)]], 3, 4⟩,
    68719476736, 920693,
    4213452123054918096755357211434116588014123325024350613661263526176574628924518527719081232291, ⟨0, 4,
    262877731823390, [44860415209, 10701435, 3404]⟩⟩) (.sx (.leaf ⟨1327, 16, 82, 1257, 16, 686, ⟨[[(412316860416,
    0)], [(352187318272, 0)]], 3, 4⟩, ⟨[[(0, 276242909835), (0, 3058217214047), (0, 47946315001), (0, 1592080675),
    (0, 64344535)], [(0, 135724474372), (0, 3907203909), (0, 182833225), (0, 9636188), (0, 453071)], [(0, 60438181),
    (0, 6453160), (0, 516026), (0, 32699), (0, 1580)], [(0, 69964), (0, 11634), (0, 1129), (0, 74), (0, 4)]], 3, 4⟩,
    1099511627776, 0, 1980403778, ⟨[[(43134041700431, 0), (17581302839, 0), (104959943, 0), (129396, 0), (0, 101)],
    [(6775926112, 0), (11498336, 0), (0, 3742), (20, 0)], [(0, 1834732), (0, 3907), (0, 1)], [(677, 0), (2, 0)]], 3,
    4⟩, 68719476736, 196448,
    3274259003507428999902645545234150685449241186001756854320567152886682845633130852200980917255, ⟨0, 4,
    331349227073959, [28718360948, 3465053, 557]⟩⟩) (.leaf ⟨1358, 16, 82, 1074, 16, 592, ⟨[[(137438953472, 0)],
    [(352187318272, 0)]], 3, 4⟩, ⟨[[(0, 195798687258), (0, 3024609985243), (0, 61643984475), (0, 2498687097), (0,
    108763300)], [(0, 129142263768), (0, 4785297424), (0, 276867870), (0, 15924087), (0, 755996)], [(0, 75021264),
    (0, 9559849), (0, 835398), (0, 53592), (0, 2555)], [(0, 102608), (0, 18525), (0, 1817), (0, 117), (0, 5)]], 3,
    4⟩, 1099511627776, 0, 3190371026, ⟨[[(43134821129564, 0), (17823813593, 0), (134123511, 0), (210264, 0), (0,
    184)], [(6523056032, 0), (13172040, 0), (0, 6176), (36, 0)], [(0, 1727489), (0, 4260), (0, 1)], [(615, 0), (3,
    0)]], 3, 4⟩, 68719476736, 264239,
    4040780609927600285786008330167936617289152757027917789790017492036022603473637634825925163265, ⟨0, 4,
    288297735302117, [24222063081, 2856375, 449]⟩⟩))) (.sy (.sx (.leaf ⟨1389, 16, 82, 1210, 16, 664, ⟨[[(0,
    137438953472)], [(352187318272, 0)]], 3, 4⟩, ⟨[[(164172205230, 0), (0, 3116711449955), (0, 52161547655), (0,
    1815606227), (0, 75679207)], [(0, 130582020319), (0, 4001711968), (0, 197043806), (0, 10740245), (0, 516196)],
    [(0, 58937145), (0, 6572214), (0, 544179), (0, 35267), (0, 1734)], [(0, 67268), (0, 11594), (0, 1151), (0, 77),
    (0, 4)]], 3, 4⟩, 1099511627776, 0, 2102624242, ⟨[[(43425903798104, 0), (17409682699, 0), (108857326, 0), (147256,
    0), (0, 119)], [(6479486099, 0), (11463637, 0), (0, 4547), (24, 0)], [(0, 1691068), (0, 3601), (0, 1)], [(596,
    0), (2, 0)]], 3, 4⟩, 68719476736, 157267,
    2836715991635192178001529767359545049719107255984828861699694717614240419607288537849829405612, ⟨0, 4,
    325940012663205, [26566484365, 3063478, 471]⟩⟩) (.leaf ⟨1420, 16, 82, 1034, 16, 573, ⟨[[(0, 412316860416)],
    [(352187318272, 0)]], 3, 4⟩, ⟨[[(0, 19610140038), (0, 3083690861858), (0, 66693820158), (0, 2805370025), (0,
    125135972)], [(0, 124366846249), (0, 4882584634), (0, 294127995), (0, 17361456), (0, 840352)], [(0, 72690432),
    (0, 9601707), (0, 861831), (0, 56377), (0, 2733)], [(0, 97317), (0, 18061), (0, 1806), (0, 119), (0, 6)]], 3, 4⟩,
    1099511627776, 0, 3324521123, ⟨[[(43430661877496, 0), (17684943314, 0), (138825524, 0), (239169, 0), (0, 217)],
    [(6243091066, 0), (13169801, 0), (0, 7379), (43, 0)], [(0, 1596857), (0, 3938), (0, 1)], [(544, 0), (2, 0)]], 3,
    4⟩, 68719476736, 270870,
    3610254026729980395833098206664905123135611937424903991263545402730717602784023849445520115468, ⟨0, 4,
    283447370174665, [22429012395, 2530349, 381]⟩⟩)) (.sx (.sy (.leaf ⟨1389, 16, 82, 1450, 16, 805, ⟨[[(0,
    137438953472)], [(352187318272, 0)]], 3, 4⟩, ⟨[[(298065201458, 0), (0, 2261735629936), (0, 27028850637), (0,
    601988531), (0, 13498470)], [(0, 186474989301), (0, 4039903837), (0, 129560905), (0, 3860024), (0, 92060)], [(0,
    125594664), (0, 8731356), (0, 395560), (0, 12759), (0, 303)], [(0, 183726), (0, 17149), (0, 845), (0, 27), (0,
    1)]], 3, 4⟩, 1099511627776, 0, 2216231209, ⟨[[(43203454699862, 0), (11922852231, 0), (69768073, 0), (86357, 0),
    (0, 55)], [(6318323372, 0), (9572853, 0), (0, 3839), (16, 0)], [(0, 1640868), (0, 2956)], [(567, 0), (2, 0)]], 3,
    4⟩, 68719476736, 146686,
    2666367331637495844679085117180060355906837976455901020966284179644252971550107770594840650120, ⟨0, 4,
    395153178002831, [32207861317, 3714006, 571]⟩⟩) (.leaf ⟨1389, 16, 82, 1201, 16, 673, ⟨[[(0, 137438953472)],
    [(352187318272, 0)]], 3, 4⟩, ⟨[[(319490690860, 0), (0, 2227677634699), (0, 34623378908), (0, 866807533), (0,
    19773982)], [(0, 180870917433), (0, 5102683691), (0, 186596448), (0, 5697496), (0, 133907)], [(0, 163374718), (0,
    12672187), (0, 588828), (0, 18737), (0, 435)], [(0, 270725), (0, 25792), (0, 1252), (0, 39), (0, 1)]], 3, 4⟩,
    1099511627776, 0, 3324422047, ⟨[[(43055604394329, 0), (12074804302, 0), (94754038, 0), (152795, 0), (0, 111)],
    [(6188933043, 0), (11584500, 0), (0, 6455), (30, 0)], [(0, 1601200), (0, 3525)], [(543, 0), (2, 0)]], 3, 4⟩,
    68719476736, 152436,
    3884804545811960975746203129494521835726110605599058035655759974347427943557876068845930058505, ⟨0, 4,
    330357874280628, [26926572256, 3105001, 477]⟩⟩)) (.sy (.leaf ⟨1420, 16, 82, 1178, 16, 662, ⟨[[(0, 412316860416)],
    [(352187318272, 0)]], 3, 4⟩, ⟨[[(274696410620, 0), (0, 2259648746263), (0, 36171199691), (0, 919480360), (0,
    21195287)], [(0, 178254166421), (0, 5180962624), (0, 192619189), (0, 5944742), (0, 140953)], [(0, 161541618), (0,
    12723395), (0, 597679), (0, 19186), (0, 449)], [(0, 264243), (0, 25454), (0, 1247), (0, 40), (0, 1)]], 3, 4⟩,
    1099511627776, 0, 3203622800, ⟨[[(43204455177980, 0), (11984025845, 0), (96080769, 0), (163141, 0), (0, 121)],
    [(6052164272, 0), (11606925, 0), (0, 7019), (32, 0)], [(0, 1540399), (0, 3393)], [(512, 0), (2, 0)]], 3, 4⟩,
    68719476736, 197138,
    3606908247383752093050906207058208910851425633851107148174870669936820624203635813985147692371, ⟨0, 4,
    327473226973173, [25912750795, 2923370, 440]⟩⟩) (.skip))))) (.sy (.sx (.sx (.sy (.leaf ⟨1450, 16, 82, 1418, 16,
    791, ⟨[[(412316860416, 0)], [(352187318272, 0)]], 3, 4⟩, ⟨[[(28154111655, 0), (0, 2330797564992), (0,
    29208735581), (0, 669249574), (0, 15329331)], [(0, 181708294144), (0, 4123291766), (0, 136360149), (0, 4153395),
    (0, 100926)], [(0, 121492458), (0, 8689169), (0, 402731), (0, 13236), (0, 320)], [(0, 172632), (0, 16501), (0,
    829), (0, 27), (0, 1)]], 3, 4⟩, 1099511627776, 0, 2036716845, ⟨[[(43499919737363, 0), (11753215880, 0),
    (70126230, 0), (93677, 0), (0, 60)], [(6060361217, 0), (9450834, 0), (0, 4366), (17, 0)], [(0, 1523593), (0,
    2705)], [(505, 0), (2, 0)]], 3, 4⟩, 68719476736, 176997,
    2069668498517137649203782283486073113891447095562012285550074032831160141231438355648519058649, ⟨0, 4,
    394226623956969, [30305771612, 3346485, 493]⟩⟩) (.leaf ⟨1450, 16, 82, 1163, 16, 655, ⟨[[(412316860416, 0)],
    [(352187318272, 0)]], 3, 4⟩, ⟨[[(0, 254501485097), (0, 2292888089341), (0, 37513029375), (0, 965454098), (0,
    22475773)], [(0, 175882262360), (0, 5224512345), (0, 196827026), (0, 6136007), (0, 146801)], [(0, 158532943), (0,
    12645043), (0, 600130), (0, 19438), (0, 458)], [(0, 255256), (0, 24850), (0, 1228), (0, 39), (0, 1)]], 3, 4⟩,
    1099511627776, 0, 3056872247, ⟨[[(43353579956683, 0), (11966061976, 0), (96632033, 0), (170723, 0), (0, 128)],
    [(5931723431, 0), (11567628, 0), (0, 7448), (34, 0)], [(0, 1487074), (0, 3257)], [(485, 0), (2, 0)]], 3, 4⟩,
    68719476736, 192264,
    3404918749958278362494027315076313228862085549383641625024307422273752842984309723282368403791, ⟨0, 4,
    326445560925177, [25095171183, 2771110, 408]⟩⟩)) (.skip)) (.skip)) (.skip))) (.sx (.sx (.sy (.sx (.sy (.leaf
    ⟨1327, 16, 82, 1510, 16, 833, ⟨[[(412316860416, 0)], [(352187318272, 0)]], 3, 4⟩, ⟨[[(0, 454968121364), (0,
    2195310634448), (0, 24286030331), (0, 517244274), (0, 11300603)], [(0, 191990546830), (0, 3852478084), (0,
    117630282), (0, 3409024), (0, 79786)], [(0, 125896757), (0, 8380278), (0, 369075), (0, 11682), (0, 273)], [(0,
    186548), (0, 16924), (0, 819), (0, 26), (0, 1)]], 3, 4⟩, 1099511627776, 0, 2299297062, ⟨[[(42915937300003, 0),
    (12208807996, 0), (67563298, 0), (75291, 0), (0, 46)], [(6620306014, 0), (9561866, 0), (0, 3143), (13, 0)], [(0,
    1782223), (0, 3203)], [(644, 0), (2, 0)]], 3, 4⟩, 68719476736, 112256,
    3275605643672714444677161426812412002026471284544278485623177585072808351994074864931329468926, ⟨0, 4,
    402352632875521, [34872295437, 4207565, 677]⟩⟩) (.leaf ⟨1327, 16, 82, 1269, 16, 706, ⟨[[(412316860416, 0)],
    [(352187318272, 0)]], 3, 4⟩, ⟨[[(0, 541849887103), (0, 2164516326772), (0, 30983386190), (0, 745187339), (0,
    16612825)], [(0, 186621601941), (0, 4840930958), (0, 169388067), (0, 5049471), (0, 116637)], [(0, 163053087), (0,
    12155585), (0, 551289), (0, 17245), (0, 394)], [(0, 274621), (0, 25541), (0, 1220), (0, 38), (0, 1)]], 3, 4⟩,
    1099511627776, 0, 3461815542, ⟨[[(42771376778440, 0), (12419995822, 0), (89994033, 0), (127505, 0), (0, 89)],
    [(6498105744, 0), (11384208, 0), (0, 5124), (24, 0)], [(0, 1741529), (0, 3768)], [(619, 0), (2, 0)]], 3, 4⟩,
    68719476736, 200532,
    4297898145541271198727890141766969606998828406935357962954396167440250867206102775153903013930, ⟨0, 4,
    341009554393899, [29555630947, 3566075, 574]⟩⟩)) (.sy (.leaf ⟨1358, 16, 82, 1230, 16, 687, ⟨[[(137438953472, 0)],
    [(352187318272, 0)]], 3, 4⟩, ⟨[[(177951923530, 0), (0, 2193772648610), (0, 32849802358), (0, 807444095), (0,
    18216616)], [(0, 183475394868), (0, 4983608248), (0, 178615591), (0, 5391422), (0, 125618)], [(0, 163727039), (0,
    12470147), (0, 572730), (0, 18069), (0, 416)], [(0, 273994), (0, 25801), (0, 1242), (0, 39), (0, 1)]], 3, 4⟩,
    1099511627776, 0, 3408456387, ⟨[[(42909753225575, 0), (12212403575, 0), (92833610, 0), (141150, 0), (0, 101)],
    [(6336164872, 0), (11520354, 0), (0, 5833), (27, 0)], [(0, 1667626), (0, 3654)], [(579, 0), (2, 0)]], 3, 4⟩,
    68719476736, 211137,
    4140721457421245556835145705241763028364695626494479113015241441082221277962998017604666783420, ⟨0, 4,
    334561729987423, [28109049555, 3314746, 521]⟩⟩) (.sx (.sy (.leaf ⟨2717, 16, 165, 2361, 16, 1324,
    ⟨[[(377957122048, 0)], [(354334801920, 0)]], 3, 4⟩, ⟨[[(0, 230184238852), (0, 2302007601484), (0, 19428869467),
    (0, 248532854), (0, 2804269)], [(0, 192296868019), (0, 2952517314), (0, 55425893), (0, 839062), (0, 9672)], [(0,
    98871803), (0, 3911805), (0, 90142), (0, 1408), (0, 16)], [(0, 87133), (0, 4109), (0, 98), (0, 2)]], 3, 4⟩,
    1099511627776, 0, 440321146, ⟨[[(42803248498623, 0), (5821649141, 0), (24442645, 0), (19964, 0), (0, 7)],
    [(3133377422, 0), (3000717, 0), (0, 835), (2, 0)], [(0, 410705), (0, 474)], [(71, 0)]], 3, 4⟩, 68719476736,
    35472, 3142115350019973151726600844996886764079514188647529699196358234126150689808649507623541125799, ⟨0, 4,
    643470159912044, [27240349033, 1615296, 128]⟩⟩) (.skip)) (.skip)))) (.sx (.sy (.sx (.sy (.leaf ⟨2655, 16, 165,
    2443, 16, 1365, ⟨[[(515396075520, 0)], [(354334801920, 0)]], 3, 4⟩, ⟨[[(0, 64522319636), (0, 2266106952691), (0,
    18238769729), (0, 228473428), (0, 2548811)], [(0, 195241154492), (0, 2853791330), (0, 52348154), (0, 783178), (0,
    8953)], [(0, 97982381), (0, 3797139), (0, 86470), (0, 1339), (0, 15)], [(0, 86958), (0, 4054), (0, 96), (0, 1)]],
    3, 4⟩, 1099511627776, 0, 445977198, ⟨[[(42657782043372, 0), (5878422824, 0), (23524713, 0), (17882, 0), (0, 6)],
    [(3211460089, 0), (2955804, 0), (0, 735), (2, 0)], [(0, 428470), (0, 488)], [(75, 0)]], 3, 4⟩, 68719476736,
    57832, 3309864959093975195523897367116588561427564972664029580368340152800175103435313793012070850395, ⟨0, 4,
    657941904552736, [28738276594, 1743827, 141]⟩⟩) (.skip)) (.skip)) (.skip)) (.skip))) (.sy (.sx (.sy (.sx (.leaf
    ⟨2779, 16, 165, 1458, 16, 823, ⟨[[(240518168576, 0)], [(354334801920, 0)]], 3, 4⟩, ⟨[[(269124748067, 0), (0,
    3148322623684), (0, 58939291795), (0, 1563924808), (0, 35675414)], [(0, 126988554803), (0, 4341772742), (0,
    169890873), (0, 5207514), (0, 120506)], [(0, 71260593), (0, 5844405), (0, 272751), (0, 8551), (0, 195)], [(0,
    63498), (0, 6060), (0, 290), (0, 9)]], 3, 4⟩, 1099511627776, 0, 559457257, ⟨[[(42908940020505, 0), (8473230657,
    0), (60688982, 0), (85527, 0), (0, 49)], [(3037581607, 0), (4779364, 0), (0, 2416), (9, 0)], [(0, 390966), (0,
    721)], [(65, 0)]], 3, 4⟩, 68719476736, 66860,
    5309052004228792501037872472517745822210716243937391353551285988902881232136767564620238633155, ⟨0, 4,
    403196433141101, [16555655016, 959859, 74]⟩⟩) (.skip)) (.skip)) (.skip)) (.skip))) (.skip))) (.skip)
theorem c30 : checkC job ⟨6, 8, 7, 8, 9, 13⟩ 1 25 lims t30 304 48 16 93 3 256 = true := by decide +kernel

def t31 : CTree :=
  .skip
theorem c31 : checkC job ⟨6, 8, 7, 8, 9, 13⟩ 1 25 lims t31 400 48 16 45 3 128 = true := by decide +kernel

def t32 : CTree :=
  .sx (.sy (.sx (.leaf ⟨295, 16, 10, 701, 16, 353, ⟨[[], [(343597383680, 0)]], 3, 4⟩, ⟨[[(0, 189157843506), (0,
    3198704938924), (0, 29028115580), (0, 816712516), (0, 18766571)], [(0, 137844182576), (0, 3013531103), (0,
    95855895), (0, 2915926), (0, 86479)], [(15794799, 0), (0, 1799248), (0, 94976), (0, 3733), (0, 177)], [(0,
    21904), (56, 0), (8, 0), (0, 1)]], 3, 4⟩, 1099511627776, 0, 766775399, ⟨[[(53089112747387, 0), (102126802749, 0),
    (512496234, 0), (544458, 0), (0, 2764)], [(40909362040, 0), (103937594, 0), (0, 120722), (0, 627), (0, 9)], [(0,
    55699715), (0, 136071), (0, 187)], [(107686, 0), (343, 0)]], 3, 4⟩, 68719476736, 35197966,
    2300676919848767496943515495299695546699757833541931292176391758397480072918526293801368217787, ⟨0, 5,
    207257580058210, [64872105214, 34360225, 24266]⟩⟩) (.leaf ⟨325, 16, 10, 652, 16, 334, ⟨[[], [(343597383680, 0)]],
    3, 4⟩, ⟨[[(0, 187607812318), (0, 3315767463115), (0, 36985436137), (0, 1071231774), (0, 27516110)], [(0,
    128036076159), (0, 3170824217), (0, 107383770), (0, 3473840), (0, 125858)], [(10409806, 0), (0, 1592497), (0,
    82157), (0, 3992), (0, 303)], [(0, 10878), (742, 0), (45, 0), (0, 2), (0, 1)]], 3, 4⟩, 1099511627776, 0,
    867140274, ⟨[[(53088073556756, 0), (98562398368, 0), (544400266, 0), (787941, 0), (0, 3621)], [(36665941237, 0),
    (105187337, 0), (0, 130717), (0, 239), (0, 10)], [(0, 45884508), (0, 112104), (0, 198)], [(80344, 0), (248, 0)]],
    3, 4⟩, 68719476736, 29526777,
    2842825637675517592577899304971866115336615829208444140920457264591339196841563922145588900958, ⟨0, 5,
    201713852338958, [55714521915, 26785828, 17170]⟩⟩)) (.sx (.sy (.leaf ⟨295, 16, 10, 893, 16, 459, ⟨[[],
    [(343597383680, 0)]], 3, 4⟩, ⟨[[(504435513718, 0), (0, 2286975773443), (0, 13951681370), (0, 210896710), (0,
    3085775)], [(0, 199794846342), (0, 2661481668), (0, 48742643), (0, 899535), (0, 19201)], [(6933721, 0), (0,
    1937507), (0, 59691), (0, 1812), (0, 63)], [(0, 28343), (0, 95), (0, 29), (0, 3)]], 3, 4⟩, 1099511627776, 0,
    786303108, ⟨[[(51738244754592, 0), (67605819921, 0), (287421630, 0), (317550, 0), (0, 922)], [(39407684414, 0),
    (82363499, 0), (0, 61985), (0, 60), (0, 3)], [(0, 53802063), (0, 100503), (0, 113)], [(102844, 0), (260, 0)]], 3,
    4⟩, 68719476736, 30504624,
    2681634319459076555988876676582594173053524655224630091356279261118992366245151239106350569990, ⟨0, 5,
    269493567271156, [84352114145, 44678027, 31552]⟩⟩) (.leaf ⟨295, 16, 10, 804, 16, 419, ⟨[[], [(343597383680, 0)]],
    3, 4⟩, ⟨[[(0, 278707778823), (0, 2264128173615), (0, 16947902252), (0, 284910899), (0, 5201458)], [(0,
    198766695287), (0, 3070748869), (0, 64262671), (0, 1458253), (0, 38519)], [(0, 6690684), (0, 2663476), (0,
    101044), (0, 3804), (0, 129)], [(0, 28021), (0, 770), (0, 96), (0, 5)]], 3, 4⟩, 1099511627776, 0, 923353197,
    ⟨[[(50952853872062, 0), (66512245890, 0), (329933669, 0), (475903, 0), (0, 1286)], [(38389827705, 0), (91882126,
    0), (0, 74699), (94, 0), (0, 4)], [(0, 52588243), (0, 107075), (0, 134)], [(99670, 0), (283, 0)]], 3, 4⟩,
    68719476736, 30319160,
    3922506311667172457747903590205726855357416621346216008199633123477635013359513703042947750829, ⟨0, 5,
    246008289077592, [77001167378, 40784517, 28803]⟩⟩)) (.sy (.leaf ⟨325, 16, 10, 832, 16, 436, ⟨[[], [(343597383680,
    0)]], 3, 4⟩, ⟨[[(170785015898, 0), (0, 2431999478275), (0, 18243764493), (0, 300497420), (0, 5305524)], [(0,
    189101027585), (0, 2878916870), (0, 57910842), (0, 1252981), (0, 31456)], [(1368680, 0), (0, 1784202), (0,
    63533), (0, 2323), (0, 63)], [(0, 9232), (536, 0), (0, 10)]], 3, 4⟩, 1099511627776, 0, 756927252,
    ⟨[[(51758981357102, 0), (63713952642, 0), (296488231, 0), (446569, 0), (0, 1169)], [(35098049828, 0), (83485610,
    0), (0, 77615), (130, 0), (0, 3)], [(0, 44285539), (0, 81447), (0, 114)], [(76758, 0), (186, 0)]], 3, 4⟩,
    68719476736, 24524555,
    3511146920621379415197746135809232600321260733561303794146187442742992350808520635865611065142, ⟨0, 5,
    263315088681993, [72729136392, 34965931, 22414]⟩⟩) (.leaf ⟨325, 16, 10, 734, 16, 391, ⟨[[], [(343597383680, 0)]],
    3, 4⟩, ⟨[[(0, 251687766973), (0, 2411306390234), (0, 22506810722), (0, 431330453), (0, 9276794)], [(0,
    187228782448), (0, 3355354227), (0, 79830384), (0, 2071668), (0, 51969)], [(0, 10943141), (0, 2553037), (0,
    104580), (0, 2912), (22, 0)], [(0, 5312), (685, 0), (88, 0), (16, 0), (1, 0)]], 3, 4⟩, 1099511627776, 0,
    1578989949, ⟨[[(50950381217020, 0), (62390184680, 0), (344562144, 0), (704760, 0), (0, 1721)], [(33954358079, 0),
    (95543736, 0), (0, 106626), (369, 0), (0, 4)], [(0, 43204303), (0, 87532), (0, 128), (0, 1)], [(74264, 0), (204,
    0)]], 3, 4⟩, 68719476736, 25320058,
    4392113397041659418795184076202616431902989227186731736547722619926742438310250848137015961457, ⟨0, 5,
    236138072648301, [65222688829, 31357062, 20101]⟩⟩)))) (.sy (.sx (.leaf ⟨355, 16, 10, 604, 16, 315, ⟨[[],
    [(343597383680, 0)]], 3, 4⟩, ⟨[[(310077429452, 0), (0, 3427284823024), (0, 45273540114), (0, 1361739762), (0,
    40363927)], [(0, 119068441011), (0, 3252484301), (0, 114688652), (0, 4067046), (0, 183876)], [(8154824, 0), (0,
    1190222), (0, 60607), (0, 4383), (0, 345)], [(0, 1315), (1479, 0), (78, 0), (0, 0), (1, 0)]], 3, 4⟩,
    1099511627776, 0, 1240117119, ⟨[[(53044224394009, 0), (94855841295, 0), (573516251, 0), (1140582, 0), (0, 4659)],
    [(32948648403, 0), (108476791, 0), (0, 158930), (209, 0), (0, 10)], [(0, 38398651), (0, 94663), (0, 203)],
    [(61422, 0), (177, 0)]], 3, 4⟩, 68719476736, 28307807,
    3331287110889463127286401655821008165106873390141968541866190964897733738669088354709490630656, ⟨0, 5,
    195064032887492, [48104699174, 21172843, 12425]⟩⟩) (.leaf ⟨385, 16, 10, 560, 16, 297, ⟨[[], [(343597383680, 0)]],
    3, 4⟩, ⟨[[(16223791886, 0), (0, 3534766062687), (0, 53514368348), (0, 1686622170), (0, 56415133)], [(0,
    110745806631), (0, 3235992161), (0, 116398435), (0, 4462700), (0, 184348)], [(8529378, 0), (0, 599740), (0,
    23566), (0, 1019), (482, 0)], [(7059, 0), (2284, 0), (190, 0), (30, 0), (6, 0)]], 3, 4⟩, 1099511627776, 0,
    2293474531, ⟨[[(53069792059334, 0), (92227018195, 0), (597348836, 0), (1597229, 0), (0, 5828)], [(29742989083,
    0), (113212027, 0), (0, 204015), (609, 0), (0, 8)], [(0, 32635966), (0, 82626), (0, 186), (0, 1)], [(48204, 0),
    (123, 0)]], 3, 4⟩, 68719476736, 30337524,
    3201842319185311294266714227537488971811474707409700611822348272073048298719798691834552838331, ⟨0, 5,
    188097450067649, [41821636425, 16973067, 9185]⟩⟩)) (.sx (.sy (.leaf ⟨355, 16, 10, 773, 16, 413, ⟨[[],
    [(343597383680, 0)]], 3, 4⟩, ⟨[[(0, 412436439733), (0, 2580399807022), (0, 23088292125), (0, 416278158), (0,
    8053854)], [(0, 178954111458), (0, 3027282233), (0, 65628002), (0, 1488971), (0, 26434)], [(1391281, 0), (0,
    1364577), (0, 43230), (14, 0), (160, 0)], [(10182, 0), (2070, 0), (180, 0), (20, 0), (2, 0)]], 3, 4⟩,
    1099511627776, 0, 1166019068, ⟨[[(51791745129548, 0), (60313720638, 0), (301630930, 0), (620381, 0), (0, 1446)],
    [(31349915264, 0), (86416450, 0), (0, 104163), (307, 0), (0, 2)], [(0, 37074029), (0, 68000), (0, 100), (0, 1)],
    [(58918, 0), (130, 0)]], 3, 4⟩, 68719476736, 21314654,
    3381403208397217698568330877082684880903856761979347980768197000898483267411907720480940192600, ⟨0, 5,
    255750620896934, [63070605584, 27759950, 16291]⟩⟩) (.leaf ⟨355, 16, 10, 668, 16, 364, ⟨[[], [(343597383680, 0)]],
    3, 4⟩, ⟨[[(0, 220619064275), (0, 2565086181462), (0, 28786593981), (0, 588213332), (0, 11479339)], [(0,
    176123161192), (0, 3520581064), (0, 85137225), (0, 1588732), (10031, 0)], [(0, 7071932), (0, 1446968), (23905,
    0), (8964, 0), (646, 0)], [(31712, 0), (7211, 0), (895, 0), (68, 0), (2, 0)]], 3, 4⟩, 1099511627776, 0,
    4030018542, ⟨[[(50948764821389, 0), (58615269026, 0), (349704046, 0), (1028933, 0), (0, 2223)], [(30022179547,
    0), (101883656, 0), (0, 155566), (617, 0), (0, 2)], [(0, 36069330), (0, 74260), (0, 84), (0, 1)], [(56988, 0),
    (143, 0)]], 3, 4⟩, 68719476736, 22743473,
    3062606890571856557302821071077565715954053064068456921077123799330464384926640763357838293712, ⟨0, 5,
    225407326892213, [55587652379, 24466396, 14358]⟩⟩)) (.sy (.leaf ⟨385, 16, 10, 717, 16, 391, ⟨[[], [(343597383680,
    0)]], 3, 4⟩, ⟨[[(0, 330817998318), (0, 2727502815800), (0, 27947406220), (0, 503746597), (0, 6982971)], [(0,
    168682721206), (0, 3026449207), (0, 60784221), (0, 510994), (57891, 0)], [(7699239, 0), (0, 148731), (84507, 0),
    (11368, 0), (735, 0)], [(37432, 0), (6805, 0), (781, 0), (59, 0), (2, 0)]], 3, 4⟩, 1099511627776, 0, 2532181898,
    ⟨[[(51787006233361, 0), (57026367296, 0), (297574508, 0), (847767, 0), (0, 1710)], [(27951690572, 0), (91166857,
    0), (0, 139464), (428, 0), (0, 1)], [(0, 31404247), (0, 59301), (0, 56), (0, 1)], [(46378, 0), (87, 0)]], 3, 4⟩,
    68719476736, 19213097,
    2133194882075447204405636822448987763762933369764990875957131043094573803745404067710813270512, ⟨0, 5,
    247629976351687, [55058113946, 22345014, 12091]⟩⟩) (.leaf ⟨385, 16, 10, 613, 16, 342, ⟨[[], [(343597383680, 0)]],
    3, 4⟩, ⟨[[(0, 32714046972), (0, 2731495034107), (0, 33558348666), (0, 565707739), (0, 5269107)], [(0,
    165346259967), (0, 3269597914), (0, 44204781), (1514655, 0), (40206, 0)], [(11602297, 0), (2360513, 0), (364441,
    0), (14176, 0), (0, 1838)], [(103685, 0), (18636, 0), (941, 0), (0, 147), (0, 33)]], 3, 4⟩, 1099511627776, 0,
    11288768023, ⟨[[(50938876703228, 0), (54985422792, 0), (331809022, 0), (1423271, 0), (0, 2607)], [(26438945156,
    0), (109786053, 0), (0, 210923), (689, 0)], [(0, 30453754), (0, 67074), (30, 0), (0, 3)], [(45022, 0), (92, 0)]],
    3, 4⟩, 68719476736, 21633139,
    2665781383244159546680049303844544329132468061199124684850971034715953828106772704025425055368, ⟨0, 5,
    216597063714263, [48158248004, 19544744, 10576]⟩⟩))))
theorem c32 : checkC job ⟨6, 8, 7, 8, 9, 13⟩ 1 25 lims t32 272 48 8 27 3 128 = true := by decide +kernel

def t33 : CTree :=
  .sx (.sy (.leaf ⟨295, 16, 10, 708, 16, 375, ⟨[[], [(343597383680, 0)]], 3, 4⟩, ⟨[[(0, 293960302289), (0,
    2240758878677), (0, 21047360711), (0, 417915711), (0, 9633653)], [(0, 196788989721), (0, 3616376507), (0,
    90954836), (0, 2580615), (0, 77277)], [(0, 24453336), (0, 3954866), (0, 182824), (0, 7195), (0, 195)], [(0,
    33288), (0, 2190), (0, 152), (0, 0), (1, 0)]], 3, 4⟩, 1099511627776, 0, 1809165263, ⟨[[(50147062488170, 0),
    (65063557966, 0), (387267830, 0), (754849, 0), (0, 1928)], [(37189188237, 0), (104907831, 0), (0, 102186), (377,
    0), (0, 5)], [(0, 51226022), (0, 115868), (0, 157)], [(96029, 0), (313, 0)]], 3, 4⟩, 68719476736, 30311298,
    4511966537314239744395340152683409555773550475150067359503185389043475526985577716791869233632, ⟨0, 5,
    220174483064670, [68915125935, 36501656, 25778]⟩⟩) (.leaf ⟨295, 16, 10, 602, 16, 325, ⟨[[], [(343597383680, 0)]],
    3, 4⟩, ⟨[[(99955246816, 0), (0, 2208875169916), (0, 27142087276), (0, 665938930), (0, 18178544)], [(0,
    192778117955), (0, 4392061846), (0, 137806273), (0, 4571062), (0, 129477)], [(0, 49023340), (0, 6141498), (0,
    303345), (0, 9168), (15, 0)], [(0, 43695), (0, 2513), (158, 0), (44, 0), (3, 0)]], 3, 4⟩, 1099511627776, 0,
    6723729302, ⟨[[(49343718705661, 0), (63600769862, 0), (472522315, 0), (1314545, 0), (0, 3261)], [(35765673034,
    0), (124490064, 0), (0, 162877), (950, 0), (0, 7)], [(0, 49701911), (0, 129226), (0, 172), (0, 1)], [(91856, 0),
    (358, 0)]], 3, 4⟩, 68719476736, 31628577,
    4048436773503047031365298764431379870302283309699370840628617437225486830050931102937692659155, ⟨0, 5,
    190817885322714, [59726442477, 31634768, 22341]⟩⟩)) (.sy (.leaf ⟨325, 16, 10, 630, 16, 342, ⟨[[], [(343597383680,
    0)]], 3, 4⟩, ⟨[[(0, 466208327720), (0, 2394503013136), (0, 28709731585), (0, 656750480), (0, 15988690)], [(0,
    184344204787), (0, 4012363214), (0, 113741477), (0, 3129678), (0, 59969)], [(0, 26724865), (0, 3532774), (0,
    112627), (1824, 0), (425, 0)], [(6727, 0), (4471, 0), (732, 0), (68, 0), (3, 0)]], 3, 4⟩, 1099511627776, 0,
    5633183330, ⟨[[(50156468825353, 0), (60982684345, 0), (409908150, 0), (1190489, 0), (0, 2774)], [(32620691764,
    0), (112860105, 0), (0, 164048), (806, 0), (0, 5)], [(0, 42024295), (0, 96510), (0, 125), (0, 2)], [(71485, 0),
    (229, 0)]], 3, 4⟩, 68719476736, 26606774,
    3689845312065358020270580974730871150284756931376740906808070092512527939433198104465899653861, ⟨0, 5,
    206545321856059, [57049001482, 27427405, 17582]⟩⟩) (.sx (.leaf ⟨635, 16, 20, 754, 16, 416, ⟨[[], [(343597383680,
    0)]], 3, 4⟩, ⟨[[(229181124014, 0), (0, 3272750499056), (0, 49211231404), (0, 1303791663), (0, 33681027)], [(0,
    128154214157), (0, 3362296947), (0, 109773896), (0, 3084664), (0, 58575)], [(0, 16648561), (0, 1681993), (0,
    34486), (2157, 0), (13, 0)], [(4696, 0), (2108, 0), (267, 0), (9, 0), (0, 2)]], 3, 4⟩, 1099511627776, 0,
    1221957839, ⟨[[(49341485323176, 0), (42898622070, 0), (252437609, 0), (718262, 0), (0, 1192)], [(16044026502, 0),
    (48465539, 0), (0, 64210), (277, 0), (0, 1)], [(0, 10664820), (0, 20521), (0, 12)], [(9148, 0), (26, 0)]], 3, 4⟩,
    68719476736, 2673894,
    4344437642162309426622605750757232067902847164583082894037310959692728992751034520296021317064, ⟨0, 5,
    249551467032388, [35516070361, 8739191, 2867]⟩⟩) (.leaf ⟨665, 16, 20, 691, 16, 387, ⟨[[], [(343597383680, 0)]],
    3, 4⟩, ⟨[[(108150731850, 0), (0, 3357085391350), (0, 55654769762), (0, 1471448485), (0, 39700548)], [(0,
    121953257399), (0, 3354387112), (0, 101444641), (0, 2680041), (0, 178355)], [(0, 12295857), (0, 703654), (31315,
    0), (0, 3802), (0, 1905)], [(18494, 0), (3769, 0), (64, 0), (0, 74), (0, 15)]], 3, 4⟩, 1099511627776, 0,
    3179408327, ⟨[[(49346516109312, 0), (41916862405, 0), (260160901, 0), (968075, 0), (0, 1538)], [(14888715974, 0),
    (52517302, 0), (0, 85560), (352, 0), (0, 1)], [(0, 9679946), (0, 19706), (2, 0), (0, 1)], [(7952, 0), (22, 0)]],
    3, 4⟩, 68719476736, 3766069,
    4461513708178602033766227858208102217468955826065169241586218862625655108996884529507544693927, ⟨0, 5,
    235254062128491, [31549655548, 7412983, 2322]⟩⟩)))
theorem c33 : checkC job ⟨6, 8, 7, 8, 9, 13⟩ 1 25 lims t33 496 48 16 63 3 256 = true := by decide +kernel

def t34 : CTree :=
  .sx (.sy (.sx (.leaf ⟨575, 16, 20, 740, 16, 405, ⟨[[], [(343597383680, 0)]], 3, 4⟩, ⟨[[(43102469187, 0), (0,
    3080232857044), (0, 47862799064), (0, 1375660009), (0, 39633489)], [(0, 137463857816), (0, 3829383199), (0,
    142820281), (0, 5026200), (0, 138861)], [(0, 29368561), (0, 3373822), (0, 164299), (0, 4328), (0, 162)], [(0,
    12349), (0, 348), (108, 0), (6, 0), (0, 2)]], 3, 4⟩, 1099511627776, 0, 1347310811, ⟨[[(48591448943297, 0),
    (44284325116, 0), (283604223, 0), (728876, 0), (0, 1287)], [(17740987427, 0), (51888061, 0), (0, 60196), (310,
    0), (0, 1)], [(0, 12680193), (0, 27109), (0, 21)], [(11830, 0), (39, 0)]], 3, 4⟩, 68719476736, 2882279,
    4401649269800390617586171589766493697627585267399449910824117582020073273252696429782096858588, ⟨0, 5,
    235979062341083, [38184972388, 10376351, 3760]⟩⟩) (.leaf ⟨605, 16, 20, 659, 16, 367, ⟨[[], [(343597383680, 0)]],
    3, 4⟩, ⟨[[(546948162691, 0), (0, 3152305465263), (0, 57058149418), (0, 1722234573), (0, 52542423)], [(0,
    129882815267), (0, 4044711649), (0, 154526292), (0, 5515426), (0, 281744)], [(0, 28126319), (0, 2816034), (0,
    115299), (0, 9769), (0, 2176)], [(2182, 0), (1946, 0), (16, 0), (0, 76), (0, 17)]], 3, 4⟩, 1099511627776, 0,
    3661614510, ⟨[[(48572033540968, 0), (43032672375, 0), (307182911, 0), (1080545, 0), (0, 1874)], [(16357290685,
    0), (57475281, 0), (0, 89839), (467, 0), (0, 1)], [(0, 11376205), (0, 25983), (0, 9), (0, 1)], [(10055, 0), (35,
    0)]], 3, 4⟩, 68719476736, 3883092,
    4417140296881400099398882766554869057344322778762039578582667493618552624751502765790017085525, ⟨0, 5,
    217075871717998, [32886374036, 8493382, 2925]⟩⟩)) (.sx (.sy (.leaf ⟨575, 16, 20, 900, 16, 502, ⟨[[],
    [(343597383680, 0)]], 3, 4⟩, ⟨[[(442615595436, 0), (0, 2238268778997), (0, 22458909537), (0, 373173515), (0,
    6918698)], [(0, 195989283897), (0, 3402935285), (0, 73916870), (0, 1693036), (0, 62550)], [(0, 60113681), (0,
    3334475), (0, 110325), (0, 6582), (0, 543)], [(0, 16272), (0, 754), (0, 268), (0, 43), (0, 4)]], 3, 4⟩,
    1099511627776, 0, 1887464660, ⟨[[(48028525463277, 0), (29716731697, 0), (163846465, 0), (419493, 0), (0, 521)],
    [(17006997128, 0), (43368407, 0), (0, 48532), (198, 0)], [(0, 12306614), (0, 21533), (0, 5)], [(11288, 0), (31,
    0)]], 3, 4⟩, 68719476736, 2137250,
    3121609211022790625103716072031238998995729908352618804865471276886115351515681484128630671641, ⟨0, 5,
    292497504432651, [47330508984, 12861551, 4660]⟩⟩) (.sx (.leaf ⟨1163, 16, 41, 1152, 16, 648, ⟨[[(412316860416,
    0)], [(352187318272, 0)]], 3, 4⟩, ⟨[[(0, 464418963714), (0, 3162373737848), (0, 36748435145), (0, 723021945), (0,
    20070470)], [(0, 139069709785), (0, 2765581061), (0, 72186551), (0, 2587270), (0, 142946)], [(0, 26950093), (0,
    1740304), (0, 103555), (0, 8826), (0, 660)], [(0, 6459), (0, 1329), (0, 252), (0, 28), (0, 2)]], 3, 4⟩,
    1099511627776, 0, 580995099, ⟨[[(47684323861783, 0), (20895894179, 0), (92764183, 0), (201520, 0), (0, 183)],
    [(8226853558, 0), (16805980, 0), (0, 15561), (48, 0)], [(0, 2951303), (0, 4098)], [(1323, 0), (3, 0)]], 3, 4⟩,
    68719476736, 312496,
    3029836280863470334552956527714497212148496823729349306308219778614861516560855539685011323030, ⟨0, 5,
    376090549983551, [30951695680, 4260971, 782]⟩⟩) (.sy (.leaf ⟨1194, 16, 41, 1613, 16, 914, ⟨[[(137438953472, 0)],
    [(352187318272, 0)]], 3, 4⟩, ⟨[[(378864365405, 0), (0, 2339645101714), (0, 14298507768), (0, 153829717), (0,
    2576573)], [(0, 197365466435), (0, 2030232880), (0, 28911653), (0, 642573), (0, 19925)], [(0, 36714205), (0,
    1307723), (0, 51587), (0, 2447), (0, 90)], [(0, 8435), (0, 1482), (0, 143), (0, 8)]], 3, 4⟩, 1099511627776, 0,
    270641855, ⟨[[(47762504798492, 0), (14109291603, 0), (43765133, 0), (74538, 0), (0, 46)], [(7906894639, 0),
    (11933785, 0), (0, 8429), (17, 0)], [(0, 2799531), (0, 2726)], [(1223, 0), (2, 0)]], 3, 4⟩, 68719476736, 169712,
    2965739737815163999514459672285129121231883862905349462804759349852487181384252527629486804322, ⟨0, 5,
    534610056299231, [42532956580, 5704527, 1020]⟩⟩) (.leaf ⟨1194, 16, 41, 1483, 16, 847, ⟨[[(137438953472, 0)],
    [(352187318272, 0)]], 3, 4⟩, ⟨[[(0, 238461535884), (0, 2345038296379), (0, 16483856417), (0, 227069472), (0,
    5000459)], [(0, 195307910627), (0, 2287148468), (0, 42879495), (0, 1285521), (0, 42064)], [(0, 43633548), (0,
    2120025), (0, 112694), (0, 5343), (0, 185)], [(0, 22686), (0, 3967), (0, 326), (0, 16), (0, 1)]], 3, 4⟩,
    1099511627776, 0, 671049110, ⟨[[(47590343376815, 0), (14065952875, 0), (47607140, 0), (96554, 0), (0, 61)],
    [(7754053379, 0), (13117847, 0), (0, 10603), (23, 0)], [(0, 2764843), (0, 2959), (1, 0)], [(1199, 0), (2, 0)]],
    3, 4⟩, 68719476736, 139642,
    4190493299565789360979352999148303834270963142298894039677444448523575878108485499305864253148, ⟨0, 5,
    495420916504867, [39415114030, 5286362, 945]⟩⟩)))) (.sy (.sx (.leaf ⟨1225, 16, 41, 1158, 16, 655, ⟨[[(0,
    137438953472)], [(352187318272, 0)]], 3, 4⟩, ⟨[[(0, 322170504660), (0, 3263336967723), (0, 37216798456), (0,
    721712548), (0, 21093352)], [(0, 133626042566), (0, 2550084697), (0, 64088257), (0, 2466681), (0, 150649)], [(0,
    20301233), (0, 1262662), (0, 88114), (0, 8777), (0, 685)], [(0, 1102), (0, 973), (0, 242), (0, 28), (0, 2)]], 3,
    4⟩, 1099511627776, 0, 611811715, ⟨[[(48047257915900, 0), (20555302060, 0), (85976781, 0), (202512, 0), (0, 176)],
    [(7770799588, 0), (16356709, 0), (0, 16079), (45, 0)], [(0, 2696475), (0, 3571), (1, 0)], [(1158, 0), (2, 0)]],
    3, 4⟩, 68719476736, 279500,
    4153121231586861482031440666738406945360094811064132108465179663937023397977281770389454786124, ⟨0, 5,
    386006787632683, [29715202698, 3885356, 677]⟩⟩) (.sy (.leaf ⟨1256, 16, 41, 1656, 16, 943, ⟨[[(0, 412316860416)],
    [(352187318272, 0)]], 3, 4⟩, ⟨[[(538620941478, 0), (0, 2443379526755), (0, 14457680300), (0, 153087582), (0,
    2701061)], [(0, 192207103481), (0, 1867535718), (0, 25668759), (0, 620249), (0, 20767)], [(0, 26803378), (0,
    951786), (0, 45815), (0, 2427), (0, 92)], [(0, 1149), (0, 1237), (0, 137), (0, 7)]], 3, 4⟩, 1099511627776, 0,
    253709577, ⟨[[(48127306173659, 0), (13732185081, 0), (38920578, 0), (70149, 0), (0, 41)], [(7480711761, 0),
    (11390238, 0), (0, 8226), (15, 0)], [(0, 2565640), (0, 2348), (1, 0)], [(1077, 0), (1, 0)]], 3, 4⟩, 68719476736,
    166894, 3517332271637615202781056472001319954493118447838844892349091260385688737528246074278512269988, ⟨0, 5,
    559788163187474, [41733125025, 5323103, 905]⟩⟩) (.skip))) (.sx (.sy (.leaf ⟨1225, 16, 41, 1502, 16, 860, ⟨[[(0,
    137438953472)], [(352187318272, 0)]], 3, 4⟩, ⟨[[(0, 533021273090), (0, 2397777641772), (0, 16663978912), (0,
    231769678), (0, 5271634)], [(0, 192621615790), (0, 2202636336), (0, 41653156), (0, 1307450), (0, 43888)], [(0,
    37992543), (0, 1930461), (0, 111003), (0, 5424), (0, 189)], [(0, 18329), (0, 3830), (0, 324), (0, 16), (0, 1)]],
    3, 4⟩, 1099511627776, 0, 656085821, ⟨[[(47775135529905, 0), (13910033723, 0), (44807654, 0), (93764, 0), (0,
    57)], [(7537941588, 0), (12822127, 0), (0, 10458), (21, 0)], [(0, 2646136), (0, 2749), (1, 0)], [(1126, 0), (2,
    0)]], 3, 4⟩, 68719476736, 151860,
    5136629826459192096229571965823462735111933165797008654757924703941358133996145390409422880562, ⟨0, 5,
    506818072311615, [39015380641, 5101383, 889]⟩⟩) (.skip)) (.skip))))) (.sy (.sx (.sy (.leaf ⟨635, 16, 20, 948, 16,
    533, ⟨[[], [(343597383680, 0)]], 3, 4⟩, ⟨[[(0, 164760185729), (0, 2440221818586), (0, 23027024431), (0,
    348432139), (0, 6229255)], [(0, 186837375797), (0, 2930623242), (0, 53668223), (0, 1138570), (0, 54804)], [(0,
    31858962), (0, 1314783), (0, 35845), (0, 4993), (0, 522)], [(23651, 0), (1860, 0), (0, 197), (0, 40), (0, 3)]],
    3, 4⟩, 1099511627776, 0, 1646217187, ⟨[[(48784830212665, 0), (28271235852, 0), (134421530, 0), (372524, 0), (0,
    417)], [(15347212132, 0), (39375381, 0), (0, 46784), (150, 0)], [(0, 10376988), (0, 15913), (2, 0)], [(8791, 0),
    (20, 0)]], 3, 4⟩, 68719476736, 1595135,
    4110985298719457031797707111339355892391058463297678110831769069335670077289056382750926577580, ⟨0, 5,
    319737817135247, [45504965150, 11197088, 3674]⟩⟩) (.sx (.leaf ⟨1286, 16, 41, 1181, 16, 671, ⟨[[(412316860416,
    0)], [(352187318272, 0)]], 3, 4⟩, ⟨[[(110228261736, 0), (0, 3364418109499), (0, 36741429171), (0, 685482807), (0,
    20636476)], [(0, 128794458553), (0, 2295630562), (0, 53830841), (0, 2206305), (0, 147490)], [(0, 13944823), (0,
    809253), (0, 71008), (0, 8250), (0, 663)], [(2832, 0), (0, 700), (0, 225), (0, 26), (0, 2)]], 3, 4⟩,
    1099511627776, 0, 612420808, ⟨[[(48402566027852, 0), (20186324018, 0), (77939935, 0), (194227, 0), (0, 160)],
    [(7371561971, 0), (15729789, 0), (0, 15842), (39, 0)], [(0, 2479518), (0, 3115), (1, 0)], [(1026, 0), (2, 0)]],
    3, 4⟩, 68719476736, 243212,
    4873661709446783116323664389621492755962662165181180244861906991290904515108992411072040473006, ⟨0, 5,
    401138651648656, [28985720273, 3608780, 599]⟩⟩) (.sy (.leaf ⟨1317, 16, 41, 1719, 16, 982, ⟨[[(137438953472, 0)],
    [(352187318272, 0)]], 3, 4⟩, ⟨[[(0, 55119073758), (0, 2539873356750), (0, 14203835563), (0, 144444900), (0,
    2634133)], [(0, 187090292321), (0, 1671631694), (0, 21539421), (0, 563592), (0, 20167)], [(0, 17400633), (0,
    618065), (0, 39072), (0, 2281), (0, 88)], [(3934, 0), (0, 1045), (0, 128), (0, 7)]], 3, 4⟩, 1099511627776, 0,
    239930215, ⟨[[(48499393678439, 0), (13462771531, 0), (34388920, 0), (63645, 0), (0, 34)], [(7120483026, 0),
    (10760865, 0), (0, 7692), (12, 0)], [(0, 2367656), (0, 2031), (1, 0)], [(961, 0), (1, 0)]], 3, 4⟩, 68719476736,
    107912, 3654039018074452768560192839742780737853270034879601437494919632663031029968056369288264913075, ⟨0, 5,
    591085766315529, [41429878770, 5037680, 817]⟩⟩) (.skip)))) (.sy (.sx (.leaf ⟨1348, 16, 41, 1218, 16, 694, ⟨[[(0,
    137438953472)], [(352187318272, 0)]], 3, 4⟩, ⟨[[(52193963220, 0), (0, 3460344893818), (0, 35437869352), (0,
    622659303), (0, 19027807)], [(0, 124335188752), (0, 2022213080), (0, 42875063), (0, 1882058), (0, 136732)], [(0,
    8257128), (0, 424531), (0, 55859), (0, 7509), (0, 611)], [(5247, 0), (0, 545), (0, 208), (0, 24), (0, 2)]], 3,
    4⟩, 1099511627776, 0, 588660476, ⟨[[(48779983307689, 0), (19954620332, 0), (70080951, 0), (179589, 0), (0, 140)],
    [(7023626879, 0), (14957575, 0), (0, 14976), (32, 0)], [(0, 2289153), (0, 2720), (2, 0)], [(917, 0), (1, 0)]], 3,
    4⟩, 68719476736, 256595,
    5044730880917208295945617975332470885265573340501906047734425005819714485747736794810556007245, ⟨0, 5,
    420511220383191, [28611394135, 3399643, 539]⟩⟩) (.sy (.leaf ⟨1379, 16, 41, 1802, 16, 1032, ⟨[[(0, 412316860416)],
    [(352187318272, 0)]], 3, 4⟩, ⟨[[(373264741834, 0), (0, 2634914959764), (0, 13654883307), (0, 130788446), (0,
    2438311)], [(0, 182489602176), (0, 1466554326), (0, 17273617), (0, 494325), (0, 18686)], [(0, 9163012), (0,
    344432), (0, 33167), (0, 2088), (0, 80)], [(6765, 0), (0, 938), (0, 119), (0, 6)]], 3, 4⟩, 1099511627776, 0,
    231046234, ⟨[[(48871795423065, 0), (13163643009, 0), (29952845, 0), (55952, 0), (0, 28)], [(6792152394, 0),
    (10074097, 0), (0, 6976), (9, 0)], [(0, 2189970), (0, 1760), (1, 0)], [(862, 0), (1, 0)]], 3, 4⟩, 68719476736,
    86800, 3450638103847869422432520073923556845847104031882791118754875443638107780958787290971244139130, ⟨0, 5,
    629352042183135, [41597067539, 4832373, 749]⟩⟩) (.skip))) (.skip))) (.skip))
theorem c34 : checkC job ⟨6, 8, 7, 8, 9, 13⟩ 1 25 lims t34 496 48 16 69 3 256 = true := by decide +kernel

def t35 : CTree :=
  .sy (.sx (.sy (.sx (.leaf ⟨695, 16, 20, 789, 16, 437, ⟨[[], [(343597383680, 0)]], 3, 4⟩, ⟨[[(0, 130166792523), (0,
    3448630572260), (0, 47401839240), (0, 1078259342), (0, 22291311)], [(0, 119968823781), (0, 2803239631), (0,
    71795501), (0, 1069635), (8404, 0)], [(0, 5856570), (0, 372556), (54339, 0), (5442, 0), (0, 1)], [(12730, 0),
    (2956, 0), (275, 0), (3, 0), (0, 2)]], 3, 4⟩, 1099511627776, 0, 957026705, ⟨[[(50136357460176, 0), (42178151224,
    0), (219358965, 0), (645293, 0), (0, 997)], [(14720718126, 0), (44392441, 0), (0, 61259), (211, 0)], [(0,
    9138981), (0, 15892), (0, 5)], [(7303, 0), (16, 0)]], 3, 4⟩, 68719476736, 2648172,
    2944151856006149626533057250898945451135770987405675534097114793810654204348428255842023143381, ⟨0, 5,
    268993823986089, [34088032460, 7663676, 2297]⟩⟩) (.leaf ⟨725, 16, 20, 741, 16, 416, ⟨[[], [(343597383680, 0)]],
    3, 4⟩, ⟨[[(0, 37596413055), (0, 3539551370828), (0, 50996466336), (0, 1084482611), (0, 23987448)], [(0,
    114841622392), (0, 2646411041), (0, 52250061), (0, 425820), (0, 123308)], [(0, 548283), (629949, 0), (102981, 0),
    (0, 2727), (0, 1866)], [(22856, 0), (3680, 0), (0, 25), (0, 77), (0, 13)]], 3, 4⟩, 1099511627776, 0, 2606642395,
    ⟨[[(50132784412394, 0), (41085790106, 0), (216454355, 0), (803103, 0), (0, 1155)], [(13723684776, 0), (47113031,
    0), (0, 74811), (231, 0)], [(0, 8360052), (0, 15364), (8, 0)], [(6454, 0), (13, 0)]], 3, 4⟩, 68719476736,
    2923866, 2718629519142828453336883038831936184436830943196260270094405226446049588325973175674713245740, ⟨0, 5,
    259117180914478, [31107178868, 6704133, 1926]⟩⟩)) (.sx (.sy (.leaf ⟨695, 16, 20, 1029, 16, 581, ⟨[[],
    [(343597383680, 0)]], 3, 4⟩, ⟨[[(0, 245856600002), (0, 2625898867487), (0, 21709755236), (0, 276492518), (0,
    4586121)], [(0, 178343227334), (0, 2342964508), (0, 30870067), (0, 572313), (0, 43198)], [(0, 8089379), (173477,
    0), (9361, 0), (0, 4031), (0, 456)], [(39687, 0), (2315, 0), (0, 205), (0, 37), (0, 3)]], 3, 4⟩, 1099511627776,
    0, 1258817896, ⟨[[(49549510723189, 0), (27101905425, 0), (106884415, 0), (299163, 0), (0, 296)], [(14038641961,
    0), (34886475, 0), (0, 40271), (96, 0)], [(0, 8900100), (0, 12008), (6, 0)], [(7066, 0), (12, 0)]], 3, 4⟩,
    68719476736, 1152214,
    3250322464250902277048879384050626308339306539384836351195476414551263029112802088749053469831, ⟨0, 5,
    357632521134823, [45320702195, 10189007, 3054]⟩⟩) (.sy (.leaf ⟨695, 16, 20, 1270, 16, 725, ⟨[[], [(343597383680,
    0)]], 3, 4⟩, ⟨[[(0, 202029558407), (0, 1772093766623), (0, 8183513798), (0, 65215054), (0, 1015545)], [(0,
    236578279790), (0, 1672086220), (0, 14972474), (0, 373878), (0, 14906)], [(0, 9656322), (0, 142764), (0, 42539),
    (0, 3302), (0, 132)], [(51330, 0), (0, 1968), (0, 380), (0, 20), (0, 1)]], 3, 4⟩, 1099511627776, 0, 2263323857,
    ⟨[[(49257753976257, 0), (19884298120, 0), (62016919, 0), (160656, 0), (0, 116)], [(13640997057, 0), (28712599,
    0), (0, 27949), (49, 0)], [(0, 8763947), (0, 9798), (8, 0)], [(6936, 0), (9, 0)]], 3, 4⟩, 68719476736, 838840,
    4380242773192153444409830390892785803487164549786201732450405078524724482914168370466694004992, ⟨0, 5,
    446271218283558, [56553371931, 12714337, 3811]⟩⟩) (.sx (.leaf ⟨1409, 16, 41, 1850, 16, 1060, ⟨[[(412316860416,
    0)], [(352187318272, 0)]], 3, 4⟩, ⟨[[(0, 122914179478), (0, 2680221711455), (0, 13291863752), (0, 122933839), (0,
    2316829)], [(0, 180260632382), (0, 1364697899), (0, 15252147), (0, 460728), (0, 17807)], [(0, 5572299), (0,
    234611), (0, 30819), (0, 1992), (0, 76)], [(7463, 0), (0, 912), (0, 114), (0, 6)]], 3, 4⟩, 1099511627776, 0,
    226617822, ⟨[[(49061948389553, 0), (13058499187, 0), (28055020, 0), (51971, 0), (0, 25)], [(6654385686, 0),
    (9719061, 0), (0, 6571), (8, 0)], [(0, 2112768), (0, 1644), (1, 0)], [(821, 0), (1, 0)]], 3, 4⟩, 68719476736,
    87025, 3255078554180311113810133624531058549913206193709996651621240151710046590050247086049876581924, ⟨0, 5,
    650484075074521, [41793473707, 4749258, 720]⟩⟩) (.skip)))) (.sy (.sy (.leaf ⟨725, 16, 20, 1351, 16, 772, ⟨[[],
    [(343597383680, 0)]], 3, 4⟩, ⟨[[(374973955454, 0), (0, 1844264017461), (0, 7734150847), (0, 56219712), (0,
    909283)], [(0, 233041394782), (0, 1450006366), (0, 10893753), (0, 322698), (0, 13756)], [(4599499, 0), (233124,
    0), (0, 37143), (0, 3100), (0, 119)], [(52561, 0), (0, 2058), (0, 364), (0, 19), (0, 1)]], 3, 4⟩, 1099511627776,
    0, 2075333879, ⟨[[(49633453038601, 0), (19331660569, 0), (53426067, 0), (134687, 0), (0, 90)], [(13098064750, 0),
    (26498477, 0), (0, 24323), (35, 0)], [(0, 8157816), (0, 8535), (8, 0)], [(6286, 0), (7, 0)]], 3, 4⟩, 68719476736,
    745106, 3375972660627077270663438055979224915155236586150179486097989275226606096946820320562068812956, ⟨0, 5,
    480861691504752, [57727745400, 12441324, 3575]⟩⟩) (.sx (.leaf ⟨1471, 16, 41, 1955, 16, 1121, ⟨[[(0,
    137438953472)], [(352187318272, 0)]], 3, 4⟩, ⟨[[(0, 81717434734), (0, 2766585493278), (0, 12448771571), (0,
    106708319), (0, 2075643)], [(0, 175958783403), (0, 1169869170), (0, 11618518), (0, 402916), (0, 16121)],
    [(499685, 0), (0, 65638), (0, 27343), (0, 1823), (0, 67)], [(7869, 0), (0, 890), (0, 106), (0, 5)]], 3, 4⟩,
    1099511627776, 0, 215825400, ⟨[[(49447761788309, 0), (12839868741, 0), (24529745, 0), (44445, 0), (0, 20)],
    [(6388381715, 0), (9022015, 0), (0, 5773), (6, 0)], [(0, 1965304), (0, 1438), (1, 0)], [(743, 0), (1, 0)]], 3,
    4⟩, 68719476736, 110133,
    2720108253027590689478716187972984921577465526460232482799397166156809166204861127481743465589, ⟨0, 5,
    696223782079765, [42350546009, 4611340, 669]⟩⟩) (.sy (.leaf ⟨1502, 16, 41, 2601, 16, 1500, ⟨[[(0, 412316860416)],
    [(352187318272, 0)]], 3, 4⟩, ⟨[[(0, 501188422204), (0, 1900013035073), (0, 4426801704), (0, 24038242), (0,
    299147)], [(0, 232732401533), (0, 779194445), (0, 5679700), (0, 124498), (0, 2349)], [(2963307, 0), (0, 239894),
    (0, 19181), (0, 533), (0, 9)], [(1591, 0), (0, 1404), (0, 62), (0, 1)]], 3, 4⟩, 1099511627776, 0, 374861969,
    ⟨[[(49500179126463, 0), (9409109296, 0), (12756256, 0), (18986, 0), (0, 6)], [(6167980335, 0), (6773843, 0), (0,
    3283), (2, 0)], [(0, 1882121), (0, 1059), (1, 0)], [(703, 0)]], 3, 4⟩, 68719476736, 78602,
    3846729382136983705577610873971823661802113518628233639337276168117800872317655457568793845793, ⟨0, 5,
    936994896826266, [55508429081, 5920268, 842]⟩⟩) (.skip)))) (.sy (.sx (.sy (.leaf ⟨1471, 16, 41, 2514, 16, 1450,
    ⟨[[(0, 137438953472)], [(352187318272, 0)]], 3, 4⟩, ⟨[[(0, 310417854728), (0, 1866501872880), (0, 4592984525),
    (0, 25648392), (0, 314071)], [(0, 234771631250), (0, 844570464), (0, 6311428), (0, 131048), (0, 2474)], [(0,
    706946), (0, 291634), (0, 20029), (0, 559), (0, 10)], [(1509, 0), (0, 1440), (0, 64), (0, 1)]], 3, 4⟩,
    1099511627776, 0, 389889096, ⟨[[(49304288480753, 0), (9507016238, 0), (13742030, 0), (20950, 0), (0, 7)],
    [(6284607767, 0), (7078606, 0), (0, 3567), (3, 0)], [(0, 1948731), (0, 1133), (1, 0)], [(737, 0)]], 3, 4⟩,
    68719476736, 109358,
    4427362817869393265934275712764329937469352532169623495768063817358949169736251583626891916211, ⟨0, 5,
    900557077623246, [54779921243, 5964713, 866]⟩⟩) (.skip)) (.skip)) (.skip))))) (.sy (.sx (.sy (.leaf ⟨755, 16, 20,
    1132, 16, 640, ⟨[[], [(343597383680, 0)]], 3, 4⟩, ⟨[[(352421017740, 0), (0, 2789797505113), (0, 19369785800), (0,
    188175541), (0, 2968641)], [(0, 170245998192), (0, 1796119033), (0, 12230169), (0, 180716), (0, 38002)],
    [(7836727, 0), (974565, 0), (27292, 0), (0, 3807), (0, 416)], [(39703, 0), (1867, 0), (0, 220), (0, 33), (0,
    2)]], 3, 4⟩, 1099511627776, 0, 882497546, ⟨[[(50321893160315, 0), (26210691897, 0), (85092724, 0), (228820, 0),
    (0, 199)], [(12996549138, 0), (30558339, 0), (0, 32702), (55, 0)], [(0, 7731966), (0, 9393), (8, 0)], [(5802, 0),
    (7, 0)]], 3, 4⟩, 68719476736, 942918,
    1272604608077605120463142297305749048455681377414375691109063346941223369633753016067418856950, ⟨0, 5,
    403143596940570, [45955587732, 9510676, 2624]⟩⟩) (.sy (.leaf ⟨755, 16, 20, 1437, 16, 821, ⟨[[], [(343597383680,
    0)]], 3, 4⟩, ⟨[[(471085847960, 0), (0, 1909506793430), (0, 7207513188), (0, 46955322), (0, 816883)], [(0,
    229129154514), (0, 1243375764), (0, 7329817), (0, 281108), (0, 12873)], [(15657974, 0), (498841, 0), (0, 32963),
    (0, 2920), (0, 108)], [(50611, 0), (0, 2069), (0, 343), (0, 17), (0, 1)]], 3, 4⟩, 1099511627776, 0, 1828107409,
    ⟨[[(50023951230923, 0), (18941652420, 0), (46685381, 0), (112718, 0), (0, 69)], [(12631157977, 0), (24440808, 0),
    (0, 21021), (24, 0)], [(0, 7619771), (0, 7512), (8, 0)], [(5725, 0), (5, 0)]], 3, 4⟩, 68719476736, 641908,
    2121660656797165877784029568497913520263244008840535986187276620043797229313033190680170420003, ⟨0, 5,
    517157645450325, [58952402387, 12200414, 3367]⟩⟩) (.leaf ⟨755, 16, 20, 1371, 16, 789, ⟨[[], [(343597383680, 0)]],
    3, 4⟩, ⟨[[(166325727111, 0), (0, 1923921278557), (0, 7967788703), (0, 74637748), (0, 1814579)], [(0,
    227699058726), (0, 1322038135), (0, 15528093), (0, 736602), (0, 28546)], [(16019783, 0), (0, 313278), (0,
    111447), (0, 6509), (0, 218)], [(20645, 0), (0, 8183), (0, 753), (0, 33), (0, 1)]], 3, 4⟩, 1099511627776, 0,
    3856617856, ⟨[[(49831962102991, 0), (18738231299, 0), (46694817, 0), (130183, 0), (0, 78)], [(12374786303, 0),
    (25894948, 0), (0, 23563), (26, 0)], [(0, 7540726), (0, 8017), (11, 0)], [(5674, 0), (5, 0)]], 3, 4⟩,
    68719476736, 693617,
    5174364753195268390401379475513663997280033520250777760129436204732649381397826461130353059547, ⟨0, 5,
    497000465603297, [56654623001, 11724881, 3235]⟩⟩))) (.sy (.leaf ⟨785, 16, 20, 1093, 16, 626, ⟨[[],
    [(343597383680, 0)]], 3, 4⟩, ⟨[[(118244936206, 0), (0, 2888013473535), (0, 20205682337), (0, 277866083), (0,
    12922839)], [(0, 163978553953), (0, 1568944192), (0, 20249662), (0, 2399313), (0, 209369)], [(18355205, 0),
    (640486, 0), (0, 166199), (0, 23591), (0, 1610)], [(28014, 0), (0, 5957), (0, 1345), (0, 121), (0, 7)]], 3, 4⟩,
    1099511627776, 0, 2869481272, ⟨[[(50327343451699, 0), (25374155010, 0), (77155219, 0), (257925, 0), (0, 199)],
    [(12104011637, 0), (31670315, 0), (0, 35659), (43, 0)], [(0, 7102187), (0, 9413), (16, 0)], [(5213, 0), (5, 0)]],
    3, 4⟩, 68719476736, 1030096,
    3433193819814778955483453224599909890463941115938412337608179853932388985326353374750629100174, ⟨0, 5,
    398556532880811, [43232463037, 8605188, 2284]⟩⟩) (.sy (.sx (.leaf ⟨1594, 16, 41, 2088, 16, 1205, ⟨[[(0,
    137438953472)], [(352187318272, 0)]], 3, 4⟩, ⟨[[(0, 161703843495), (0, 2932393061942), (0, 11860397359), (0,
    132626327), (0, 3730327)], [(0, 166065182944), (0, 913779700), (0, 14771352), (0, 781625), (0, 28693)],
    [(7953462, 0), (0, 328593), (0, 61726), (0, 3243), (0, 102)], [(0, 1664), (0, 2298), (0, 183), (0, 8)]], 3, 4⟩,
    1099511627776, 0, 380137371, ⟨[[(50033931955399, 0), (12420990420, 0), (19146001, 0), (37023, 0), (0, 14)],
    [(5826672073, 0), (8214401, 0), (0, 4868), (3, 0)], [(0, 1698925), (0, 1215), (1, 0)], [(614, 0)]], 3, 4⟩,
    68719476736, 109149,
    4129317268936082722957017485121437321111504636001761751270081703018518517067279697820269037466, ⟨0, 5,
    765182633042121, [42010897135, 4221352, 566]⟩⟩) (.skip)) (.skip)))) (.sx (.sy (.sy (.sx (.sy (.leaf ⟨1532, 16,
    41, 2691, 16, 1552, ⟨[[(412316860416, 0)], [(352187318272, 0)]], 3, 4⟩, ⟨[[(428140978345, 0), (0, 1932935837783),
    (0, 4254609128), (0, 22468213), (0, 285556)], [(0, 230770627714), (0, 717107025), (0, 5095198), (0, 118614), (0,
    2236)], [(6184255, 0), (0, 194751), (0, 18389), (0, 509), (0, 8)], [(1613, 0), (0, 1361), (0, 59), (0, 1)]], 3,
    4⟩, 1099511627776, 0, 356973954, ⟨[[(49681983123654, 0), (9285379269, 0), (11815769, 0), (17199, 0), (0, 5)],
    [(6055833630, 0), (6487447, 0), (0, 3023), (2, 0)], [(0, 1820071), (0, 993), (1, 0)], [(672, 0)]], 3, 4⟩,
    68719476736, 96261,
    3184397368239920191105646325949809680264786761644321172622026836258441429699334524097210457298, ⟨0, 5,
    974935234224662, [56280225210, 5882131, 820]⟩⟩) (.skip)) (.skip)) (.skip)) (.skip)) (.skip)))) (.skip)
theorem c35 : checkC job ⟨6, 8, 7, 8, 9, 13⟩ 1 25 lims t35 592 48 16 33 3 128 = true := by decide +kernel

def t36 : CTree :=
  .sx (.leaf ⟨415, 16, 10, 521, 16, 281, ⟨[[], [(343597383680, 0)]], 3, 4⟩, ⟨[[(0, 250980821428), (0, 3641311537484),
    (0, 61185780643), (0, 1969371075), (0, 58393439)], [(0, 102973021743), (0, 3099276103), (0, 106549474), (0,
    2937092), (174731, 0)], [(11133726, 0), (249592, 0), (80251, 0), (18936, 0), (3745, 0)], [(14703, 0), (3726, 0),
    (616, 0), (124, 0), (17, 0)]], 3, 4⟩, 1099511627776, 0, 6858222419, ⟨[[(53092158061370, 0), (89796181027, 0),
    (606350012, 0), (2162048, 0), (0, 6920)], [(26874174041, 0), (119129428, 0), (0, 259884), (872, 0), (0, 5)], [(0,
    28035874), (0, 74888), (0, 128), (0, 3)], [(38698, 0), (82, 0)]], 3, 4⟩, 68719476736, 36033801,
    3769130129636687579436842614163809017616225607800541493801439375437281446185420271997839331701, ⟨0, 5,
    181622109760923, [36708236880, 13820872, 6938]⟩⟩) (.sy (.leaf ⟨445, 16, 10, 830, 16, 451, ⟨[[], [(343597383680,
    0)]], 3, 4⟩, ⟨[[(0, 42161095227), (0, 2997936510222), (0, 24622490014), (0, 367274165), (0, 3698198)], [(0,
    154278337463), (0, 2168592247), (0, 30421795), (0, 39562), (51597, 0)], [(23596036, 0), (799167, 0), (64807, 0),
    (6118, 0), (521, 0)], [(26173, 0), (3147, 0), (285, 0), (28, 0), (2, 0)]], 3, 4⟩, 1099511627776, 0, 762046172,
    ⟨[[(53522754281030, 0), (55317495827, 0), (222252681, 0), (554313, 0), (0, 1008)], [(24842972578, 0), (72848644,
    0), (0, 106757), (178, 0)], [(0, 24594454), (0, 42504), (0, 23), (0, 1)], [(31960, 0), (32, 0)]], 3, 4⟩,
    68719476736, 15291090,
    3108765010003044357882372327111816613064146867826121023829958099883961624969141677730275691427, ⟨0, 5,
    296961112350525, [54944197334, 19292204, 9032]⟩⟩) (.sy (.leaf ⟨445, 16, 10, 1064, 16, 587, ⟨[[], [(343597383680,
    0)]], 3, 4⟩, ⟨[[(0, 398569284760), (0, 2110269854051), (0, 9691787031), (0, 60390990), (416825, 0)], [(0,
    214269188658), (0, 1571656333), (0, 6395613), (335271, 0), (15396, 0)], [(38163510, 0), (1297342, 0), (75326, 0),
    (3167, 0), (60, 0)], [(64217, 0), (5191, 0), (267, 0), (6, 0)]], 3, 4⟩, 1099511627776, 0, 1547806256,
    ⟨[[(52864181415936, 0), (38433253025, 0), (118371961, 0), (273131, 0), (0, 316)], [(23914242096, 0), (58087420,
    0), (0, 66902), (76, 0)], [(0, 24064520), (0, 32526), (7, 0)], [(31579, 0), (22, 0)]], 3, 4⟩, 68719476736,
    13483851, 2703340123522155734915198153619036798198746662349397314877430363786882337453925004868607230776, ⟨0, 5,
    386510361307668, [71512735776, 25109809, 11756]⟩⟩) (.leaf ⟨445, 16, 10, 1000, 16, 558, ⟨[[], [(343597383680,
    0)]], 3, 4⟩, ⟨[[(0, 186052937231), (0, 2122263096835), (0, 10105867818), (0, 38878022), (1100894, 0)], [(0,
    212777342526), (0, 1518955119), (3071552, 0), (692089, 0), (12351, 0)], [(46957839, 0), (2446816, 0), (130332,
    0), (2751, 0), (0, 143)], [(100377, 0), (8102, 0), (202, 0), (0, 19), (0, 2)]], 3, 4⟩, 1099511627776, 0,
    3217509999, ⟨[[(52418525608563, 0), (37561948303, 0), (119793322, 0), (334919, 0), (0, 355)], [(23205719577, 0),
    (62832569, 0), (0, 76856), (75, 0)], [(0, 23671379), (0, 34631), (29, 0), (0, 1)], [(31329, 0), (21, 0)]], 3, 4⟩,
    68719476736, 13501778,
    3744327247426345433767358411178282499928953291771743465211971579082775977946676933003973580602, ⟨0, 5,
    367415300868277, [67979738608, 23869290, 11175]⟩⟩)))
theorem c36 : checkC job ⟨6, 8, 7, 8, 9, 13⟩ 1 25 lims t36 688 48 16 51 3 256 = true := by decide +kernel

def t37 : CTree :=
  .sx (.sy (.leaf ⟨415, 16, 10, 672, 16, 374, ⟨[[], [(343597383680, 0)]], 3, 4⟩, ⟨[[(0, 495459023014), (0,
    2880614886492), (0, 30757120638), (0, 382076919), (4334741, 0)], [(0, 158560819003), (0, 2667920984), (0,
    16191032), (2873186, 0), (124724, 0)], [(23942838, 0), (2903454, 0), (368461, 0), (18244, 0), (0, 1106)],
    [(82653, 0), (14411, 0), (895, 0), (0, 83), (0, 24)]], 3, 4⟩, 1099511627776, 0, 6449736172, ⟨[[(51794023838534,
    0), (54142874592, 0), (277598646, 0), (1090076, 0), (0, 1833)], [(24884770734, 0), (96338439, 0), (0, 172353),
    (394, 0), (1, 0)], [(0, 26849800), (0, 55176), (33, 0), (0, 2)], [(37473, 0), (53, 0)]], 3, 4⟩, 68719476736,
    18667272, 4507938275371570182483385952421969250627527125261053205831254386762202144914876263917843085560, ⟨0, 5,
    241731918329485, [48857226310, 18395040, 9234]⟩⟩) (.sx (.leaf ⟨815, 16, 20, 771, 16, 438, ⟨[[], [(343597383680,
    0)]], 3, 4⟩, ⟨[[(315575788305, 0), (0, 3775396339112), (0, 44672604606), (0, 664062374), (0, 43432046)], [(0,
    103586021859), (0, 1705373706), (0, 985144), (0, 2364772), (0, 848043)], [(12670189, 0), (1732195, 0), (0,
    22274), (0, 44764), (0, 7380)], [(22294, 0), (0, 226), (0, 1239), (0, 269), (0, 33)]], 3, 4⟩, 1099511627776, 0,
    7147457622, ⟨[[(50925504292490, 0), (39641995809, 0), (169433183, 0), (735431, 0), (0, 857)], [(11966736034, 0),
    (43601110, 0), (0, 68914), (109, 0), (1, 0)], [(0, 6732545), (0, 12513), (25, 0)], [(4807, 0), (6, 0)]], 3, 4⟩,
    68719476736, 3232541,
    4368045673424956392368912468578426859830216422849801385796757633864679716466647935336117403826, ⟨0, 5,
    281712020146168, [29135454960, 5585785, 1428]⟩⟩) (.sy (.leaf ⟨845, 16, 20, 1225, 16, 699, ⟨[[], [(343597383680,
    0)]], 3, 4⟩, ⟨[[(56972147365, 0), (0, 3027351089907), (0, 16627000923), (0, 143354502), (0, 9013715)], [(0,
    157208923623), (0, 1106094722), (0, 1091823), (0, 1459658), (0, 163066)], [(25400596, 0), (1196028, 0), (0,
    91084), (0, 16962), (0, 1201)], [(26930, 0), (0, 3233), (0, 888), (0, 83), (0, 5)]], 3, 4⟩, 1099511627776, 0,
    1744565206, ⟨[[(51141150899010, 0), (24954911676, 0), (62741106, 0), (184399, 0), (0, 125)], [(11428718969, 0),
    (27148243, 0), (0, 26751), (17, 0)], [(0, 6277038), (0, 7684), (12, 0)], [(4389, 0), (3, 0)]], 3, 4⟩,
    68719476736, 852593,
    2989609540746019248438637969005847696351420947153300464581154367316379028111602413304598218919, ⟨0, 5,
    453965030738990, [44846212366, 8292569, 2045]⟩⟩) (.sy (.leaf ⟨845, 16, 20, 1613, 16, 930, ⟨[[], [(343597383680,
    0)]], 3, 4⟩, ⟨[[(0, 18531750628), (0, 2122519891245), (0, 6796419085), (0, 82632869), (0, 2904406)], [(0,
    216106170890), (0, 856106460), (0, 17085227), (0, 1166853), (0, 42493)], [(35630964, 0), (0, 817722), (0,
    176357), (0, 9000), (0, 269)], [(0, 20630), (0, 12280), (0, 933), (0, 37), (0, 1)]], 3, 4⟩, 1099511627776, 0,
    3860201855, ⟨[[(50835172666834, 0), (17630776191, 0), (31425145, 0), (80871, 0), (0, 37)], [(11081026097, 0),
    (20919046, 0), (0, 15411), (4, 0)], [(0, 6177597), (0, 6059), (10, 0)], [(4356, 0), (2, 0)]], 3, 4⟩, 68719476736,
    522471, 3327899778875370028547084152091877630687511294145526800117784038976123626134034197135087007596, ⟨0, 5,
    603987809137711, [59666634478, 11033032, 2720]⟩⟩) (.sx (.leaf ⟨1717, 16, 41, 2259, 16, 1308, ⟨[[(0,
    137438953472)], [(352187318272, 0)]], 3, 4⟩, ⟨[[(0, 230838482993), (0, 3078147507927), (0, 11436129672), (0,
    189217088), (0, 6376760)], [(0, 157122221996), (0, 755986045), (0, 23254813), (0, 1328328), (0, 44779)],
    [(10408576, 0), (0, 853560), (0, 103261), (0, 4790), (0, 138)], [(0, 13357), (0, 3620), (0, 250), (0, 10)]], 3,
    4⟩, 1099511627776, 0, 492624755, ⟨[[(50634484731093, 0), (12126492323, 0), (15102188, 0), (29412, 0), (0, 9)],
    [(5380213120, 0), (7360754, 0), (0, 3860), (1, 0)], [(0, 1483329), (0, 1057), (1, 0)], [(515, 0)]], 3, 4⟩,
    68719476736, 99268,
    5258809528487950379231850837280761149515096327155803536035741927241763843405586787822844437410, ⟨0, 5,
    847456599433289, [42334870437, 3949148, 491]⟩⟩) (.skip)))))) (.sy (.sy (.sx (.leaf ⟨875, 16, 20, 1377, 16, 774,
    ⟨[[], [(343597383680, 0)]], 3, 4⟩, ⟨[[(94739556978, 0), (0, 3066658372328), (0, 15093204546), (0, 44406047),
    (1025077, 0)], [(0, 155747277875), (0, 1100329545), (6473844, 0), (481262, 0), (0, 9807)], [(19456787, 0),
    (1217938, 0), (50096, 0), (0, 738), (0, 207)], [(24540, 0), (1563, 0), (0, 47), (0, 14), (0, 1)]], 3, 4⟩,
    1099511627776, 0, 300745540, ⟨[[(51979414184499, 0), (25513756625, 0), (58709463, 0), (129060, 0), (0, 91)],
    [(11550428604, 0), (23247718, 0), (0, 20533), (14, 0)], [(0, 6033586), (0, 6423), (6, 0)], [(4069, 0), (2, 0)]],
    3, 4⟩, 68719476736, 620293,
    3163723101073399913359291222308847668912697687723947907769678058191616365017572537685127750983, ⟨0, 5,
    507358223379416, [47955476434, 8563478, 2039]⟩⟩) (.leaf ⟨905, 16, 20, 1360, 16, 772, ⟨[[], [(343597383680, 0)]],
    3, 4⟩, ⟨[[(161930131064, 0), (0, 3151775059907), (0, 14071032901), (0, 22133677), (0, 3036648)], [(0,
    150922768719), (0, 833028563), (12287008, 0), (0, 261012), (0, 91002)], [(26651796, 0), (1445286, 0), (0, 6163),
    (0, 8449), (0, 720)], [(24176, 0), (0, 461), (0, 405), (0, 45), (0, 3)]], 3, 4⟩, 1099511627776, 0, 819960752,
    ⟨[[(51977673997521, 0), (24774882880, 0), (53046188, 0), (135051, 0), (0, 82)], [(10887231772, 0), (23476132, 0),
    (0, 20576), (5, 0)], [(0, 5596884), (0, 6491), (9, 0)], [(3717, 0), (1, 0)]], 3, 4⟩, 68719476736, 671550,
    3928045352346009787258593997075031646269597090518514754618577294117603202802464549825751568069, ⟨0, 6,
    510562087156371, [46245983884, 7984459, 1838]⟩⟩)) (.sx (.leaf ⟨875, 16, 20, 1293, 16, 736, ⟨[[], [(343597383680,
    0)]], 3, 4⟩, ⟨[[(95043566426, 0), (0, 3092772622183), (0, 15182447647), (0, 77270643), (0, 6161509)], [(0,
    154087461109), (0, 946362107), (6777388, 0), (0, 853343), (0, 129211)], [(26635950, 0), (1376439, 0), (0, 46144),
    (0, 12716), (0, 965)], [(26081, 0), (0, 1713), (0, 635), (0, 63), (0, 4)]], 3, 4⟩, 1099511627776, 0, 1241083085,
    ⟨[[(51556293677375, 0), (24824959632, 0), (57371481, 0), (157056, 0), (0, 101)], [(11143426576, 0), (25203995,
    0), (0, 23352), (10, 0)], [(0, 5920774), (0, 7032), (11, 0)], [(4036, 0), (2, 0)]], 3, 4⟩, 68719476736, 734931,
    3675552026953409095973515774119252457108122814706246511245047670631649762430504018549897386135, ⟨0, 5,
    482449163316861, [45601073198, 8143049, 1939]⟩⟩) (.sy (.leaf ⟨905, 16, 20, 1834, 16, 1051, ⟨[[], [(343597383680,
    0)]], 3, 4⟩, ⟨[[(0, 237578861932), (0, 2234024929162), (0, 5193287951), (0, 35157075), (0, 1784741)], [(0,
    210332255733), (0, 535723389), (0, 3272619), (0, 627774), (0, 28049)], [(43412457, 0), (357394, 0), (0, 84866),
    (0, 5356), (0, 173)], [(11521, 0), (0, 5514), (0, 502), (0, 21), (0, 1)]], 3, 4⟩, 1099511627776, 0, 1788654449,
    ⟨[[(51667638554467, 0), (17245917702, 0), (25767786, 0), (55126, 0), (0, 22)], [(10582006467, 0), (17633877, 0),
    (0, 11148)], [(0, 5511717), (0, 4975), (7, 0)], [(3700, 0), (1, 0)]], 3, 4⟩, 68719476736, 395121,
    3030894841225938287834244785270985524695225387257945717168996476629284078256095315399279614862, ⟨0, 6,
    695078696374801, [62959234536, 10870034, 2502]⟩⟩) (.leaf ⟨905, 16, 20, 1776, 16, 1025, ⟨[[], [(343597383680,
    0)]], 3, 4⟩, ⟨[[(389951703622, 0), (0, 2245166162738), (0, 6204360854), (0, 102066433), (0, 4192743)], [(0,
    208552453599), (0, 655685072), (0, 21899529), (0, 1582476), (0, 56552)], [(40071082, 0), (0, 1381872), (0,
    222600), (0, 10913), (0, 320)], [(0, 44013), (0, 14091), (0, 1019), (0, 40), (0, 1)]], 3, 4⟩, 1099511627776, 0,
    3650484775, ⟨[[(51448500868298, 0), (17027677277, 0), (24817391, 0), (60601, 0), (0, 22)], [(10351775344, 0),
    (18376805, 0), (0, 11674), (0, 2)], [(0, 5446061), (0, 5302), (9, 0)], [(3688, 0), (1, 0)]], 3, 4⟩, 68719476736,
    432934, 3774427940135917515814089089958340063240922758075512043044811440305617607284885181092209694534, ⟨0, 6,
    677883600175234, [61401727307, 10601127, 2440]⟩⟩)))) (.sy (.sx (.sy (.leaf ⟨875, 16, 20, 1724, 16, 991, ⟨[[],
    [(343597383680, 0)]], 3, 4⟩, ⟨[[(0, 367647442017), (0, 2179764592944), (0, 5937243792), (0, 59316444), (0,
    2401192)], [(0, 213221799802), (0, 675756463), (0, 9957253), (0, 909906), (0, 35735)], [(40720713, 0), (0,
    185913), (0, 130568), (0, 7211), (0, 221)], [(0, 2804), (0, 8744), (0, 711), (0, 29), (0, 1)]], 3, 4⟩,
    1099511627776, 0, 2726644775, ⟨[[(51251997347777, 0), (17418545518, 0), (28315691, 0), (66328, 0), (0, 28)],
    [(10821809206, 0), (19158906, 0), (0, 13025), (2, 0)], [(0, 5830162), (0, 5462), (8, 0)], [(4013, 0), (1, 0)]],
    3, 4⟩, 68719476736, 463165,
    2471219631803740494884283731433288095230858108269136908814839494213039521842439445375185547287, ⟨0, 5,
    649602066368219, [61400358069, 10964350, 2611]⟩⟩) (.sx (.leaf ⟨1778, 16, 41, 2407, 16, 1390, ⟨[[(412316860416,
    0)], [(352187318272, 0)]], 3, 4⟩, ⟨[[(409813219114, 0), (0, 3140458239259), (0, 9816050767), (0, 146840353), (0,
    5448320)], [(0, 154004925268), (0, 583139107), (0, 16259078), (0, 1081665), (0, 38090)], [(13226297, 0), (0,
    508333), (0, 80247), (0, 3906), (0, 114)], [(0, 7782), (0, 2696), (0, 195), (0, 8)]], 3, 4⟩, 1099511627776, 0,
    366239996, ⟨[[(51033299113986, 0), (12001009243, 0), (13636640, 0), (24350, 0), (0, 7)], [(5248136938, 0),
    (6765020, 0), (0, 3270)], [(0, 1399063), (0, 955), (1, 0)], [(475, 0)]], 3, 4⟩, 68719476736, 61133,
    1885263176681512979336178075216205113033561102902095927023831008148525524978933562982515892346, ⟨0, 5,
    909071369649018, [43433079562, 3911481, 470]⟩⟩) (.sy (.leaf ⟨1809, 16, 41, 3377, 16, 1957, ⟨[[(137438953472, 0)],
    [(352187318272, 0)]], 3, 4⟩, ⟨[[(0, 325133202706), (0, 2230741604144), (0, 3914389342), (0, 41802366), (0,
    755589)], [(0, 212229824034), (0, 473697390), (0, 10422305), (0, 300890), (0, 4937)], [(15084630, 0), (0,
    825713), (0, 44298), (0, 991), (0, 14)], [(0, 26498), (0, 2892), (0, 96), (0, 2)]], 3, 4⟩, 1099511627776, 0,
    510333629, ⟨[[(51092854119137, 0), (8514138123, 0), (6517286, 0), (8806, 0), (0, 2)], [(5106083220, 0), (4801383,
    0), (0, 1612)], [(0, 1347791), (0, 686), (1, 0)], [(454, 0)]], 3, 4⟩, 68719476736, 78967,
    3101889985649210822484847695500403289201016184950944289509395107805568111463774153738960184190, ⟨0, 5,
    1285714234822040, [60110649185, 5321410, 628]⟩⟩) (.skip)))) (.sy (.sx (.leaf ⟨1840, 16, 41, 2455, 16, 1423,
    ⟨[[(0, 137438953472)], [(352187318272, 0)]], 3, 4⟩, ⟨[[(293583789140, 0), (0, 3207444702856), (0, 10997780070),
    (0, 251572633), (0, 9280252)], [(0, 149221641773), (0, 646378264), (0, 31171839), (0, 1811936), (0, 59347)],
    [(10842520, 0), (0, 1237598), (0, 130509), (0, 5821), (0, 163)], [(0, 19691), (0, 4154), (0, 275), (0, 10)]], 3,
    4⟩, 1099511627776, 0, 508464404, ⟨[[(51243557783300, 0), (11900045358, 0), (12196720, 0), (22907, 0), (0, 6)],
    [(5020346857, 0), (6548093, 0), (0, 2974), (0, 1)], [(0, 1305893), (0, 936), (1, 0)], [(436, 0)]], 3, 4⟩,
    68719476736, 94427,
    4921552446319405948096443418844794553700899896736546538806078494864907243703128255246615993881, ⟨0, 6,
    939046471959917, [42977955269, 3741117, 434]⟩⟩) (.skip)) (.skip))) (.skip)))
theorem c37 : checkC job ⟨6, 8, 7, 8, 9, 13⟩ 1 25 lims t37 688 48 16 57 3 256 = true := by decide +kernel

def t38 : CTree :=
  .sx (.sy (.leaf ⟨475, 16, 10, 1169, 16, 642, ⟨[[], [(343597383680, 0)]], 3, 4⟩, ⟨[[(0, 305471072172), (0,
    2219010940322), (0, 8992663913), (0, 55886838), (211744, 0)], [(0, 207953376582), (0, 1335520542), (0, 5139498),
    (197313, 0), (11727, 0)], [(42749480, 0), (1089389, 0), (45076, 0), (2048, 0), (66, 0)], [(42935, 0), (2762, 0),
    (147, 0), (6, 0)]], 3, 4⟩, 1099511627776, 0, 639914205, ⟨[[(53758333349124, 0), (37757911212, 0), (100597462, 0),
    (205508, 0), (0, 224)], [(22821992088, 0), (50788910, 0), (0, 54772), (39, 0)], [(0, 21603462), (0, 28181), (7,
    0)], [(26693, 0), (14, 0)]], 3, 4⟩, 68719476736, 12446582,
    3238568876363295341207058362418940794209793444738214639331200056107992211310819878869371858572, ⟨0, 6,
    429991337591557, [73273463584, 24103113, 10572]⟩⟩) (.leaf ⟨475, 16, 10, 1106, 16, 614, ⟨[[], [(343597383680,
    0)]], 3, 4⟩, ⟨[[(0, 134964212583), (0, 2230857960108), (0, 9457936224), (0, 37931745), (1166983, 0)], [(0,
    206666622611), (0, 1304170943), (1566668, 0), (564340, 0), (19022, 0)], [(49194417, 0), (1825470, 0), (91601, 0),
    (3263, 0), (17, 0)], [(63180, 0), (4903, 0), (221, 0), (0, 0), (0, 1)]], 3, 4⟩, 1099511627776, 0, 1351555857,
    ⟨[[(53299426635825, 0), (36940353862, 0), (101288123, 0), (247228, 0), (0, 244)], [(22175185714, 0), (54562010,
    0), (0, 61304), (33, 0)], [(0, 21247548), (0, 29838), (23, 0)], [(26532, 0), (12, 0)]], 3, 4⟩, 68719476736,
    12643090, 3346515538944111111287173108828329778541217675455975970207748577420091867022319064337164582497, ⟨0, 6,
    411237821310305, [70077736200, 23051887, 10110]⟩⟩)) (.sy (.leaf ⟨505, 16, 10, 1158, 16, 646, ⟨[[],
    [(343597383680, 0)]], 3, 4⟩, ⟨[[(144969972907, 0), (0, 2348976766891), (0, 8980927467), (0, 13578712), (1867592,
    0)], [(0, 199683560957), (0, 1043811627), (8187230, 0), (718820, 0), (19407, 0)], [(57203662, 0), (2090651, 0),
    (94180, 0), (2798, 0), (0, 46)], [(55128, 0), (3996, 0), (145, 0), (0, 7), (0, 1)]], 3, 4⟩, 1099511627776, 0,
    1126123714, ⟨[[(53742351626699, 0), (35647536540, 0), (86224957, 0), (216943, 0), (0, 180)], [(20683365886, 0),
    (50793650, 0), (0, 53907), (0, 3)], [(0, 18888325), (0, 27847), (35, 0)], [(22520, 0), (7, 0)]], 3, 4⟩,
    68719476736, 11774398,
    3315310870006124490841221541444987712888841954830871750458994458379011080442199100831736886366, ⟨0, 6,
    439533959563200, [69349996301, 21457301, 8852]⟩⟩) (.sx (.leaf ⟨995, 16, 20, 1564, 16, 879, ⟨[[], [(343597383680,
    0)]], 3, 4⟩, ⟨[[(175911163478, 0), (0, 3311827728479), (0, 12600021739), (24467341, 0), (3070130, 0)], [(0,
    142101298655), (0, 688018579), (12377790, 0), (629556, 0), (0, 1534)], [(23053459, 0), (1049975, 0), (41128, 0),
    (0, 177), (0, 152)], [(13629, 0), (834, 0), (0, 22), (0, 8), (0, 1)]], 3, 4⟩, 1099511627776, 0, 143017570,
    ⟨[[(53289966975481, 0), (24860704508, 0), (43734015, 0), (88500, 0), (0, 49)], [(10263679042, 0), (19161619, 0),
    (0, 14672), (0, 2)], [(0, 4790558), (0, 5270), (6, 0)], [(2921, 0), (1, 0)]], 3, 4⟩, 68719476736, 444557,
    3789907416694952752986178337607738246227673278383219885022527613929043693484547395580034840871, ⟨0, 6,
    595783854861900, [47892895761, 7520869, 1575]⟩⟩) (.leaf ⟨1025, 16, 20, 1561, 16, 884, ⟨[[], [(343597383680, 0)]],
    3, 4⟩, ⟨[[(0, 236250567253), (0, 3386734519357), (0, 11141827301), (73743308, 0), (726572, 0)], [(0,
    138078300977), (0, 471288573), (18603862, 0), (253028, 0), (0, 58069)], [(27109027, 0), (1202722, 0), (14994, 0),
    (0, 4535), (0, 482)], [(12971, 0), (0, 4), (0, 186), (0, 24), (0, 2)]], 3, 4⟩, 1099511627776, 0, 433470230,
    ⟨[[(53298728862378, 0), (24305589475, 0), (39671474, 0), (88987, 0), (0, 41)], [(9758992604, 0), (19074419, 0),
    (0, 13921), (0, 8)], [(0, 4475054), (0, 5358), (8, 0)], [(2694, 0)]], 3, 4⟩, 68719476736, 486733,
    4459341985850583587647771166785396603647672713223027409860435414015248231955771894763585712486, ⟨0, 6,
    603728376231774, [46755607262, 7127379, 1449]⟩⟩)))
theorem c38 : checkC job ⟨6, 8, 7, 8, 9, 13⟩ 1 25 lims t38 784 48 16 99 3 512 = true := by decide +kernel

def t39 : CTree :=
  .sx (.sy (.sx (.leaf ⟨935, 16, 20, 1509, 16, 844, ⟨[[], [(343597383680, 0)]], 3, 4⟩, ⟨[[(481010762782, 0), (0,
    3184143123775), (0, 13892577859), (0, 27308661), (2303012, 0)], [(0, 149280129051), (0, 929750079), (6106654, 0),
    (572140, 0), (8457, 0)], [(19656089, 0), (944282, 0), (45535, 0), (790, 0), (0, 69)], [(15905, 0), (1204, 0),
    (21, 0), (0, 4)]], 3, 4⟩, 1099511627776, 0, 131056042, ⟨[[(52838357661894, 0), (25394590820, 0), (50574842, 0),
    (98094, 0), (0, 64)], [(11021017714, 0), (20381519, 0), (0, 16538), (6, 0)], [(0, 5401926), (0, 5562), (4, 0)],
    [(3444, 0), (1, 0)]], 3, 4⟩, 68719476736, 546536,
    2889552903391551121046168689091481891176023810433510825013668105368181795641831471386626772283, ⟨0, 6,
    562954235580713, [48936864329, 8177952, 1822]⟩⟩) (.leaf ⟨965, 16, 20, 1495, 16, 843, ⟨[[], [(343597383680, 0)]],
    3, 4⟩, ⟨[[(0, 210643957443), (0, 3259802828447), (0, 12870092865), (29068769, 0), (1942819, 0)], [(0,
    144874337474), (0, 716262233), (14636602, 0), (516695, 0), (0, 23099)], [(24496982, 0), (1249079, 0), (37876, 0),
    (0, 1942), (0, 296)], [(17467, 0), (768, 0), (0, 97), (0, 17), (0, 1)]], 3, 4⟩, 1099511627776, 0, 270318001,
    ⟨[[(52853619698505, 0), (24850314331, 0), (46535849, 0), (101516, 0), (0, 58)], [(10458367233, 0), (20473026, 0),
    (0, 16333), (0, 1)], [(0, 5036655), (0, 5624), (7, 0)], [(3162, 0), (1, 0)]], 3, 4⟩, 68719476736, 531520,
    4422812583375296639371272919265360780463736044311207299217177003156526196954403399296524655954, ⟨0, 6,
    566905894642762, [47359331518, 7668286, 1656]⟩⟩)) (.sx (.leaf ⟨935, 16, 20, 1428, 16, 808, ⟨[[], [(343597383680,
    0)]], 3, 4⟩, ⟨[[(0, 20603113008), (0, 3208884721639), (0, 13328603286), (14370424, 0), (0, 175357)], [(0,
    147921524856), (0, 760613412), (14871425, 0), (216928, 0), (0, 53959)], [(25825841, 0), (1395991, 0), (22629, 0),
    (0, 4736), (0, 490)], [(21188, 0), (368, 0), (0, 223), (0, 29), (0, 2)]], 3, 4⟩, 1099511627776, 0, 495054619,
    ⟨[[(52411845075154, 0), (24784308466, 0), (49479919, 0), (116623, 0), (0, 68)], [(10661845850, 0), (21894017, 0),
    (0, 18249), (2, 0)], [(0, 5303643), (0, 6023), (8, 0)], [(3426, 0), (1, 0)]], 3, 4⟩, 68719476736, 575452,
    4211800129175196982025451479839978819424716251499415232845195786608643475744911664328662072210, ⟨0, 6,
    538941969608076, [46849509926, 7829129, 1744]⟩⟩) (.sy (.leaf ⟨965, 16, 20, 2051, 16, 1167, ⟨[[], [(343597383680,
    0)]], 3, 4⟩, ⟨[[(0, 514414169048), (0, 2335086100295), (0, 4306781905), (1853393, 0), (0, 524015)], [(0,
    204564223735), (0, 393957640), (5255734, 0), (0, 138313), (0, 12694)], [(42287238, 0), (912530, 0), (0, 15850),
    (0, 2164), (0, 86)], [(23304, 0), (0, 1173), (0, 185), (0, 9)]], 3, 4⟩, 1099511627776, 0, 596522324,
    ⟨[[(52528042087746, 0), (17088191710, 0), (22117287, 0), (39375, 0), (0, 14)], [(10180486955, 0), (15105136, 0),
    (0, 8468), (0, 2)], [(0, 4959757), (0, 4218), (5, 0)], [(3153, 0)]], 3, 4⟩, 68719476736, 350290,
    3823324971670777063443028757994995064825897444406556808273742296178056270890636348919732879406, ⟨0, 6,
    784791434220763, [65561494522, 10615527, 2292]⟩⟩) (.leaf ⟨965, 16, 20, 2006, 16, 1149, ⟨[[], [(343597383680,
    0)]], 3, 4⟩, ⟨[[(240926544185, 0), (0, 2350430622142), (0, 4398647528), (0, 24883428), (0, 1895842)], [(0,
    203599045558), (0, 354232511), (0, 994113), (0, 616633), (0, 29462)], [(45876495, 0), (392972, 0), (0, 77420),
    (0, 5078), (0, 170)], [(6997, 0), (0, 4648), (0, 428), (0, 19), (0, 1)]], 3, 4⟩, 1099511627776, 0, 1337129575,
    ⟨[[(52300056397188, 0), (16768275099, 0), (21145867, 0), (42027, 0), (0, 14)], [(9973888552, 0), (15574019, 0),
    (0, 8633), (0, 3)], [(0, 4901563), (0, 4429), (6, 0)], [(3147, 0)]], 3, 4⟩, 68719476736, 355218,
    4006392084806277702683422092189757623423469860468319885542475325856151643585479265093247987424, ⟨0, 6,
    772686682021985, [64550263244, 10451791, 2256]⟩⟩)))) (.sy (.sx (.leaf ⟨995, 16, 20, 1493, 16, 849, ⟨[[],
    [(343597383680, 0)]], 3, 4⟩, ⟨[[(0, 77926115796), (0, 3340271170633), (0, 11334476539), (41603368, 0), (0,
    4400904)], [(0, 140695468980), (0, 471611257), (17031933, 0), (0, 527680), (0, 126917)], [(29445747, 0),
    (1249811, 0), (0, 29740), (0, 10315), (0, 858)], [(14263, 0), (0, 1211), (0, 423), (0, 45), (0, 3)]], 3, 4⟩,
    1099511627776, 0, 838466174, ⟨[[(52850426482733, 0), (24179714842, 0), (41587448, 0), (101901, 0), (0, 48)],
    [(9909233761, 0), (20389283, 0), (0, 15469), (0, 8)], [(0, 4692138), (0, 5731), (9, 0)], [(2912, 0)]], 3, 4⟩,
    68719476736, 544303,
    5067809010396215669753768266407894506771658610260716147202091469307142591203132723880085785274, ⟨0, 6,
    575449934900743, [46258325939, 7264184, 1521]⟩⟩) (.sy (.leaf ⟨1025, 16, 20, 2184, 16, 1248, ⟨[[], [(343597383680,
    0)]], 3, 4⟩, ⟨[[(0, 427457273351), (0, 2458724957919), (0, 3709155119), (0, 5135425), (0, 1416238)], [(0,
    197413569075), (0, 227989487), (3047378, 0), (0, 416223), (0, 23941)], [(45393958, 0), (576942, 0), (0, 48454),
    (0, 3728), (0, 135)], [(8649, 0), (0, 2790), (0, 285), (0, 14)]], 3, 4⟩, 1099511627776, 0, 802401831,
    ⟨[[(52965980490951, 0), (16467015775, 0), (18006056, 0), (32395, 0), (0, 9)], [(9489246184, 0), (13783357, 0),
    (0, 6778), (0, 4)], [(0, 4398379), (0, 3969), (5, 0)], [(2689, 0)]], 3, 4⟩, 68719476736, 287957,
    4212211432897584737467418392214071116234080688073314674856741909478965430639535458765478982983, ⟨0, 6,
    852322413503682, [66007916135, 10062182, 2045]⟩⟩) (.leaf ⟨1025, 16, 20, 2142, 16, 1232, ⟨[[], [(343597383680,
    0)]], 3, 4⟩, ⟨[[(272709511520, 0), (0, 2473356078243), (0, 4214454986), (0, 67191991), (0, 4129207)], [(0,
    196250070245), (0, 258854281), (0, 11253117), (0, 1289829), (0, 52856)], [(45512001, 0), (0, 540536), (0,
    150936), (0, 8298), (0, 265)], [(0, 21583), (0, 7976), (0, 629), (0, 27), (0, 1)]], 3, 4⟩, 1099511627776, 0,
    1738862856, ⟨[[(52735976958726, 0), (16183424914, 0), (17051701, 0), (34178, 0), (0, 8)], [(9292423034, 0),
    (14154236, 0), (0, 6742), (0, 6)], [(0, 4341060), (0, 4171), (6, 0)], [(2685, 0)]], 3, 4⟩, 68719476736, 330670,
    3447905235315223543748568547530660875104959130041303916531606301418999273252068092503631398414, ⟨0, 6,
    841395203074147, [65161660800, 9933180, 2019]⟩⟩))) (.sx (.sy (.leaf ⟨995, 16, 20, 2073, 16, 1190, ⟨[[],
    [(343597383680, 0)]], 3, 4⟩, ⟨[[(119826684647, 0), (0, 2412999594318), (0, 4252067139), (0, 42873989), (0,
    2905640)], [(0, 199863619645), (0, 293226053), (0, 5526979), (0, 933002), (0, 40561)], [(46368436, 0), (0,
    46228), (0, 113584), (0, 6673), (0, 217)], [(0, 7418), (0, 6377), (0, 533), (0, 23), (0, 1)]], 3, 4⟩,
    1099511627776, 0, 1562794870, ⟨[[(52519140304352, 0), (16461775704, 0), (18957631, 0), (37926, 0), (0, 11)],
    [(9620199267, 0), (14852299, 0), (0, 7653), (0, 5)], [(0, 4609792), (0, 4296), (6, 0)], [(2905, 0)]], 3, 4⟩,
    68719476736, 319413,
    3783779814563828194533816574817386577660570338084611532524375069104994248571212484560131762012, ⟨0, 6,
    806578825125895, [64837936240, 10181837, 2132]⟩⟩) (.sx (.leaf ⟨2024, 16, 41, 2836, 16, 1635, ⟨[[(412316860416,
    0)], [(352187318272, 0)]], 3, 4⟩, ⟨[[(151253763673, 0), (0, 3381240052116), (0, 7208013157), (0, 147880480), (0,
    7298253)], [(0, 140226779003), (0, 285363644), (0, 14766866), (0, 1219568), (0, 45570)], [(15220735, 0), (0,
    462128), (0, 75691), (0, 3821), (0, 116)], [(0, 7467), (0, 2096), (0, 154), (0, 6)]], 3, 4⟩, 1099511627776, 0,
    266193669, ⟨[[(52301300700476, 0), (11658920749, 0), (9535560, 0), (14783, 0), (0, 3)], [(4662684433, 0),
    (5345013, 0), (0, 1968), (0, 1)], [(0, 1103807), (0, 764), (1, 0)], [(344, 0)]], 3, 4⟩, 68719476736, 41586,
    2839476331481471391741485423708513072874505434968276810644664801259746330079457099033148530994, ⟨0, 6,
    1106052521980682, [44880321508, 3550658, 375]⟩⟩) (.leaf ⟨2055, 16, 41, 2819, 16, 1632, ⟨[[(137438953472, 0)],
    [(352187318272, 0)]], 3, 4⟩, ⟨[[(0, 184490297010), (0, 3408756822995), (0, 9458515164), (0, 305688997), (0,
    12876163)], [(0, 137344824585), (0, 442911559), (0, 34190711), (0, 2145644), (0, 72837)], [(11642536, 0), (0,
    1252471), (0, 130990), (0, 5995), (0, 173)], [(0, 18000), (0, 3495), (0, 236), (0, 9)]], 3, 4⟩, 1099511627776, 0,
    408543733, ⟨[[(52306357459381, 0), (11627456184, 0), (8983044, 0), (14960, 0), (0, 3)], [(4532352143, 0),
    (5352351, 0), (0, 1881), (0, 1)], [(0, 1063347), (0, 783), (1, 0)], [(330, 0)]], 3, 4⟩, 68719476736, 78276,
    4234257311720714828212546847463483700586819792546955652305916704930964865538045817871121694562, ⟨0, 6,
    1108291337366593, [44127678444, 3438878, 357]⟩⟩))) (.sy (.sx (.leaf ⟨2086, 16, 41, 2905, 16, 1678, ⟨[[(0,
    137438953472)], [(352187318272, 0)]], 3, 4⟩, ⟨[[(112348924281, 0), (0, 3436880467772), (0, 7722460046), (0,
    218042078), (0, 10187787)], [(0, 136461594395), (0, 306729052), (0, 22839630), (0, 1644314), (0, 59085)],
    [(13828686, 0), (0, 780969), (0, 97768), (0, 4727), (0, 141)], [(0, 11551), (0, 2560), (0, 181), (0, 7)]], 3, 4⟩,
    1099511627776, 0, 312968244, ⟨[[(52521256226638, 0), (11581591208, 0), (8711716, 0), (13664, 0), (0, 2)],
    [(4501040847, 0), (5135697, 0), (0, 1753), (0, 1)], [(0, 1038181), (0, 749), (1, 0)], [(317, 0)]], 3, 4⟩,
    68719476736, 73251,
    3801178025856334799980408164946597569244082748727180330567788884080747471460309518294319804019, ⟨0, 6,
    1143853338122486, [44702606374, 3432325, 351]⟩⟩) (.sy (.leaf ⟨2117, 16, 41, 4233, 16, 2451, ⟨[[(0,
    412316860416)], [(352187318272, 0)]], 3, 4⟩, ⟨[[(36626297751, 0), (0, 2516558583037), (0, 3394139001), (0,
    60608997), (0, 1300843)], [(0, 195014578884), (0, 303661640), (0, 13165124), (0, 414451), (0, 7093)], [(16312182,
    0), (0, 939424), (0, 48286), (0, 1111), (0, 16)], [(0, 25992), (0, 2451), (0, 83), (0, 2)]], 3, 4⟩,
    1099511627776, 0, 327693196, ⟨[[(52577925395132, 0), (7955751080, 0), (3923507, 0), (4391, 0)], [(4401818594, 0),
    (3500470, 0), (0, 785)], [(0, 1003955), (0, 519)], [(305, 0)]], 3, 4⟩, 68719476736, 100280,
    2909680992305186632310343290567290457027503593514605435083347927923107808938110692759324989469, ⟨0, 6,
    1677011977985572, [64347037588, 4868874, 491]⟩⟩) (.leaf ⟨2117, 16, 41, 4145, 16, 2408, ⟨[[(0, 412316860416)],
    [(352187318272, 0)]], 3, 4⟩, ⟨[[(170647204713, 0), (0, 2520076731605), (0, 4722498246), (0, 97083579), (0,
    1883388)], [(0, 193946543121), (0, 504092384), (0, 21955539), (0, 606411), (0, 9776)], [(8522725, 0), (0,
    1625018), (0, 70915), (0, 1540), (0, 22)], [(0, 43298), (0, 3580), (0, 115), (0, 2)]], 3, 4⟩, 1099511627776, 0,
    464034586, ⟨[[(52467441972936, 0), (7988767250, 0), (3873501, 0), (4657, 0)], [(4352722381, 0), (3585033, 0), (0,
    792), (0, 1)], [(0, 996623), (0, 539)], [(305, 0)]], 3, 4⟩, 68719476736, 102746,
    5148714188395370743530367399236165384826019816360454086317595053883744401979574157356856443560, ⟨0, 6,
    1647590715213896, [63218142191, 4783455, 483]⟩⟩))) (.sx (.sy (.leaf ⟨2086, 16, 41, 4090, 16, 2374, ⟨[[(0,
    137438953472)], [(352187318272, 0)]], 3, 4⟩, ⟨[[(0, 59894213930), (0, 2492833165794), (0, 4314649067), (0,
    83106627), (0, 1635019)], [(0, 195920395803), (0, 450502767), (0, 18974144), (0, 537330), (0, 8739)], [(11091946,
    0), (0, 1419104), (0, 64284), (0, 1409), (0, 20)], [(0, 38885), (0, 3331), (0, 108), (0, 2)]], 3, 4⟩,
    1099511627776, 0, 445225566, ⟨[[(52359761190719, 0), (8018391675, 0), (4062474, 0), (4869, 0), (0, 1)],
    [(4428333757, 0), (3664399, 0), (0, 848), (0, 1)], [(0, 1027468), (0, 546)], [(317, 0)]], 3, 4⟩, 68719476736,
    108761, 4391977014692254683190357261483667730441204761888884075306704645139305186186912352417699107195, ⟨0, 6,
    1618300253100585, [63244331068, 4855984, 497]⟩⟩) (.skip)) (.skip)))))
theorem c39 : checkC job ⟨6, 8, 7, 8, 9, 13⟩ 1 25 lims t39 784 48 16 105 3 512 = true := by decide +kernel

end PyX.Kron.S2c
