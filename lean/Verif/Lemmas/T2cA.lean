import Verif.Lemmas.T2cJob

/-!
# Temperature from pressure and enthalpy in subregion 2c, part A of the certificate
-/

namespace PyX.Kron.T2c

set_option Elab.async false

def t0 : CTree :=
  .sx (.sy (.sy (.out ⟨80, 50, 8, 684, 16, 336, ⟨[[], [(1099511627776, 0)]], 1, 1⟩, ⟨[[(0, 103921951605), (0,
    3646462161578)], [(0, 112559216515), (0, 2342135061)]], 1, 1⟩, 1099511627776, 0, 420609403681, ⟨[], 0, 0⟩, 0, 0,
    0, lc0⟩ 0 1 25235974043384) (.out ⟨80, 50, 8, 675, 16, 341, ⟨[[], [(1099511627776, 0)]], 1, 1⟩, ⟨[[(0,
    205784542618), (0, 3370697874155)], [(0, 129185235195), (0, 2610874956)]], 1, 1⟩, 1099511627776, 0, 401084517055,
    ⟨[], 0, 0⟩, 0, 0, 0, lc0⟩ 0 1 21309678251415)) (.sx (.sy (.out ⟨56, 26, 8, 868, 16, 448, ⟨[[], [(549755813888,
    0)]], 1, 1⟩, ⟨[[(0, 466723088379), (0, 3970249018399)], [(0, 94426686511), (0, 1818175983)]], 1, 1⟩,
    1099511627776, 0, 382055611096, ⟨[], 0, 0⟩, 0, 0, 0, lc0⟩ 0 1 18890787837362) (.out ⟨56, 26, 8, 868, 16, 459,
    ⟨[[], [(549755813888, 0)]], 1, 1⟩, ⟨[[(0, 430134899312), (0, 3735604296901)], [(0, 108429634006), (0,
    2034780604)]], 1, 1⟩, 1099511627776, 0, 359200409209, ⟨[], 0, 0⟩, 0, 0, 0, lc0⟩ 0 1 16093280513058)) (.out ⟨104,
    26, 8, 479, 16, 253, ⟨[[], [(549755813888, 0)]], 1, 1⟩, ⟨[[(0, 44747456139), (0, 4509157209994)], [(0,
    58082624278), (0, 2331962171)]], 1, 1⟩, 1099511627776, 0, 877434122916, ⟨[], 0, 0⟩, 0, 0, 0, lc0⟩ 0 1
    15621603092375))) (.sy (.sy (.out ⟨176, 50, 8, 642, 16, 320, ⟨[[], [(1099511627776, 0)]], 1, 1⟩, ⟨[[(0,
    149498374621), (0, 3697042806384)], [(0, 109508253709), (0, 2436264077)]], 1, 1⟩, 1099511627776, 0, 349270211582,
    ⟨[], 0, 0⟩, 0, 0, 0, lc0⟩ 0 1 21938630949635) (.out ⟨176, 50, 8, 624, 16, 321, ⟨[[], [(1099511627776, 0)]], 1,
    1⟩, ⟨[[(479165525729, 0), (0, 3423120809806)], [(0, 125405009230), (0, 2750041723)]], 1, 1⟩, 1099511627776, 0,
    324274415547, ⟨[], 0, 0⟩, 0, 0, 0, lc0⟩ 0 1 17795302382607)) (.sy (.out ⟨176, 50, 8, 599, 16, 317, ⟨[[],
    [(1099511627776, 0)]], 1, 1⟩, ⟨[[(0, 151408254978), (0, 3148168167539)], [(0, 141191273768), (0, 3078631094)]],
    1, 1⟩, 1099511627776, 0, 314820531548, ⟨[], 0, 0⟩, 0, 0, 0, lc0⟩ 0 1 14507881860442) (.out ⟨176, 50, 8, 568, 16,
    309, ⟨[[], [(1099511627776, 0)]], 1, 1⟩, ⟨[[(0, 523347858584), (0, 2884463630096)], [(0, 156883765851), (0,
    3432746512)]], 1, 1⟩, 1099511627776, 0, 323475433560, ⟨[], 0, 0⟩, 0, 0, 0, lc0⟩ 0 1 11676397598336)))
theorem c0 : checkC job ⟨6, 8, 8, 10, 9, 13⟩ 1 25 lims t0 64 48 4 3 3 64 = true := by decide +kernel

def t1 : CTree :=
  .sx (.sx (.sy (.sy (.out ⟨56, 26, 8, 859, 16, 465, ⟨[[], [(549755813888, 0)]], 1, 1⟩, ⟨[[(121023927667, 0), (0,
    3494069066128)], [(0, 122785090592), (0, 2255007500)]], 1, 1⟩, 1099511627776, 0, 346528028283, ⟨[], 0, 0⟩, 0, 0,
    0, lc0⟩ 0 1 13659234663643) (.out ⟨56, 26, 8, 843, 16, 466, ⟨[[], [(549755813888, 0)]], 1, 1⟩, ⟨[[(0,
    491718240447), (0, 3249926886456)], [(0, 137252947069), (0, 2479691199)]], 1, 1⟩, 1099511627776, 0, 345599856371,
    ⟨[], 0, 0⟩, 0, 0, 0, lc0⟩ 0 1 11689752412122)) (.out ⟨56, 26, 8, 521, 16, 297, ⟨[[], [(549755813888, 0)]], 1, 1⟩,
    ⟨[[(0, 121680158410), (0, 3740886250813)], [(0, 102795654260), (0, 3668090141)]], 1, 1⟩, 1099511627776, 0,
    745411485704, ⟨[], 0, 0⟩, 0, 0, 0, lc0⟩ 0 1 9132937950434)) (.sy (.out ⟨104, 26, 8, 483, 16, 268, ⟨[[],
    [(549755813888, 0)]], 1, 1⟩, ⟨[[(86251421455, 0), (0, 4156584647879)], [(0, 78125582002), (0, 3100108208)]], 1,
    1⟩, 1099511627776, 0, 715337981296, ⟨[], 0, 0⟩, 0, 0, 0, lc0⟩ 0 1 10757046980919) (.out ⟨104, 26, 8, 465, 16,
    270, ⟨[[], [(549755813888, 0)]], 1, 1⟩, ⟨[[(100753063951, 0), (0, 3755166325805)], [(0, 100084691848), (0,
    4072048327)]], 1, 1⟩, 1099511627776, 0, 618409431109, ⟨[], 0, 0⟩, 0, 0, 0, lc0⟩ 0 1 7182886147716))) (.sy (.out
    ⟨176, 50, 8, 342, 16, 194, ⟨[[], [(1099511627776, 0)]], 1, 1⟩, ⟨[[(53245363602, 0), (0, 3364481444442)], [(0,
    120183849883), (0, 5393791554)]], 1, 1⟩, 1099511627776, 0, 658903615510, ⟨[], 0, 0⟩, 0, 0, 0, lc0⟩ 0 1
    8017282799897) (.sx (.out ⟨152, 26, 8, 414, 16, 245, ⟨[[], [(549755813888, 0)]], 1, 1⟩, ⟨[[(0, 196461084800), (0,
    3798736306418)], [(0, 97172527902), (0, 4470699808)]], 1, 1⟩, 1099511627776, 0, 454874177352, ⟨[], 0, 0⟩, 0, 0,
    0, lc0⟩ 0 1 5321288073866) (.out ⟨200, 26, 8, 364, 16, 220, ⟨[[], [(549755813888, 0)]], 1, 1⟩, ⟨[[(0,
    296345613110), (0, 3832659991296)], [(0, 92828133101), (0, 4777284246)]], 1, 1⟩, 1099511627776, 0, 370935825313,
    ⟨[], 0, 0⟩, 0, 0, 0, lc0⟩ 0 1 3472042011127)))
theorem c1 : checkC job ⟨6, 8, 8, 10, 9, 13⟩ 1 25 lims t1 64 48 4 9 3 64 = true := by decide +kernel

def t2 : CTree :=
  .sx (.sy (.sy (.out ⟨272, 50, 8, 605, 16, 306, ⟨[[], [(1099511627776, 0)]], 1, 1⟩, ⟨[[(0, 429975527371), (0,
    3766659425488)], [(0, 105122196353), (0, 2478982019)]], 1, 1⟩, 1099511627776, 0, 289284510540, ⟨[], 0, 0⟩, 0, 0,
    0, lc0⟩ 0 1 18752814387776) (.out ⟨272, 50, 8, 581, 16, 304, ⟨[[], [(1099511627776, 0)]], 1, 1⟩, ⟨[[(0,
    92863066090), (0, 3503019819299)], [(0, 120241963534), (0, 2819880471)]], 1, 1⟩, 1099511627776, 0, 237012728515,
    ⟨[], 0, 0⟩, 0, 0, 0, lc0⟩ 0 1 14578165378369)) (.out ⟨272, 50, 8, 333, 16, 183, ⟨[[], [(1099511627776, 0)]], 1,
    1⟩, ⟨[[(127237653854, 0), (0, 3908139389420)], [(0, 89494802508), (0, 4262378785)]], 1, 1⟩, 1099511627776, 0,
    501851401974, ⟨[], 0, 0⟩, 0, 0, 0, lc0⟩ 0 1 9522798034610)) (.sy (.sy (.out ⟨368, 50, 8, 572, 16, 294, ⟨[[],
    [(1099511627776, 0)]], 1, 1⟩, ⟨[[(136184257123, 0), (0, 3851312559769)], [(0, 99734682487), (0, 2442954274)]], 1,
    1⟩, 1099511627776, 0, 268725957894, ⟨[], 0, 0⟩, 0, 0, 0, lc0⟩ 0 1 15500054610935) (.out ⟨368, 50, 8, 544, 16,
    290, ⟨[[], [(1099511627776, 0)]], 1, 1⟩, ⟨[[(184473304048, 0), (0, 3604926016260)], [(0, 113859317838), (0,
    2768674828)]], 1, 1⟩, 1099511627776, 0, 207965673174, ⟨[], 0, 0⟩, 0, 0, 0, lc0⟩ 0 1 11325186993838)) (.out ⟨368,
    50, 8, 302, 16, 170, ⟨[[], [(1099511627776, 0)]], 1, 1⟩, ⟨[[(187601822270, 0), (0, 4022033042051)], [(0,
    83243914844), (0, 4146169218)]], 1, 1⟩, 1099511627776, 0, 303942041207, ⟨[], 0, 0⟩, 0, 0, 0, lc0⟩ 0 1
    6234416664316))
theorem c2 : checkC job ⟨6, 8, 8, 10, 9, 13⟩ 1 25 lims t2 160 48 4 3 3 64 = true := by decide +kernel

def t3 : CTree :=
  .sx (.out ⟨248, 26, 8, 375, 16, 218, ⟨[[], [(549755813888, 0)]], 1, 1⟩, ⟨[[(328500707078, 0), (0, 4252010079136)],
    [(0, 70720130564), (0, 3500423926)]], 1, 1⟩, 1099511627776, 0, 304880331287, ⟨[], 0, 0⟩, 0, 0, 0, lc0⟩ 0 1
    5300391624428) (.out ⟨296, 26, 8, 345, 16, 204, ⟨[[], [(549755813888, 0)]], 1, 1⟩, ⟨[[(392849112295, 0), (0,
    4304865214822)], [(0, 67479983863), (0, 3502524740)]], 1, 1⟩, 1099511627776, 0, 213353203260, ⟨[], 0, 0⟩, 0, 0,
    0, lc0⟩ 0 1 3572804712834)
theorem c3 : checkC job ⟨6, 8, 8, 10, 9, 13⟩ 1 25 lims t3 272 48 8 15 3 128 = true := by decide +kernel

def t4 : CTree :=
  .sy (.out ⟨248, 26, 8, 544, 16, 331, ⟨[[], [(549755813888, 0)]], 1, 1⟩, ⟨[[(0, 497584095001), (0, 3220599987995)],
    [(0, 135458493867), (0, 3682423655)]], 1, 1⟩, 1099511627776, 0, 212486041800, ⟨[], 0, 0⟩, 0, 0, 0, lc0⟩ 0 1
    2506947926249) (.sx (.sy (.out ⟨295, 16, 10, 1040, 16, 645, ⟨[[], [(343597383680, 0)]], 1, 1⟩, ⟨[[(0,
    250365489343), (0, 3097029493988)], [(0, 147839592962), (0, 2108044829)]], 1, 1⟩, 1099511627776, 0, 115516526021,
    ⟨[], 0, 0⟩, 0, 0, 0, lc0⟩ 0 1 1695660351004) (.out ⟨295, 16, 10, 972, 16, 613, ⟨[[], [(343597383680, 0)]], 1, 1⟩,
    ⟨[[(0, 17158135812), (0, 2999018817426)], [(0, 153424438900), (0, 2315523350)]], 1, 1⟩, 1099511627776, 0,
    151824931718, ⟨[], 0, 0⟩, 0, 0, 0, lc0⟩ 0 1 947924535547)) (.sy (.sx (.out ⟨635, 16, 20, 1270, 16, 795, ⟨[[],
    [(343597383680, 0)]], 1, 1⟩, ⟨[[(0, 519358033775), (0, 4009997148420)], [(0, 92917111702), (0, 1377398876)]], 1,
    1⟩, 1099511627776, 0, 101251350459, ⟨[], 0, 0⟩, 0, 0, 0, lc0⟩ 0 1 1044724166015) (.sy (.out ⟨665, 16, 20, 1979,
    16, 1242, ⟨[[], [(343597383680, 0)]], 1, 1⟩, ⟨[[(431466474684, 0), (0, 3218220601896)], [(0, 143637612903), (0,
    1074448303)]], 1, 1⟩, 1099511627776, 0, 54945701540, ⟨[], 0, 0⟩, 0, 0, 0, lc0⟩ 0 1 782031966746) (.sx (.out
    ⟨1315, 16, 40, 2454, 16, 1551, ⟨[[], [(343597383680, 0)]], 1, 1⟩, ⟨[[(0, 135592196686), (0, 4035054243338)], [(0,
    93580234047), (0, 717267545)]], 1, 1⟩, 1099511627776, 0, 53405175746, ⟨[], 0, 0⟩, 0, 0, 0, lc0⟩ 0 1 519638285545)
    (.sy (.out ⟨1345, 16, 40, 3844, 16, 2432, ⟨[[], [(343597383680, 0)]], 1, 1⟩, ⟨[[(0, 392357056454), (0,
    3206786869212)], [(0, 145928483366), (0, 561520239)]], 1, 1⟩, 1099511627776, 0, 28829550520, ⟨[], 0, 0⟩, 0, 0, 0,
    lc0⟩ 0 1 402480433417) (.out ⟨1345, 16, 40, 3773, 16, 2398, ⟨[[], [(343597383680, 0)]], 1, 1⟩, ⟨[[(0,
    448047282342), (0, 3184595872029)], [(0, 147275964101), (0, 575753877)]], 1, 1⟩, 1099511627776, 0, 30870919099,
    ⟨[], 0, 0⟩, 0, 0, 0, lc0⟩ 0 1 217601769445))))) (.sx (.sy (.out ⟨635, 16, 20, 1901, 16, 1206, ⟨[[],
    [(343597383680, 0)]], 1, 1⟩, ⟨[[(0, 290270263899), (0, 3097361279051)], [(0, 150906762567), (0, 1170945813)]], 1,
    1⟩, 1099511627776, 0, 67919062476, ⟨[], 0, 0⟩, 0, 0, 0, lc0⟩ 0 1 478715900374) (.sx (.sy (.out ⟨1255, 16, 40,
    3745, 16, 2388, ⟨[[], [(343597383680, 0)]], 1, 1⟩, ⟨[[(168054836650, 0), (0, 3071329497668)], [(0, 154186972833),
    (0, 608760550)]], 1, 1⟩, 1099511627776, 0, 34284643894, ⟨[], 0, 0⟩, 0, 0, 0, lc0⟩ 0 1 313910066836) (.leaf ⟨2311,
    16, 41, 572, 16, 2394, ⟨[[(412316860416, 0)], [(352187318272, 0)]], 3, 4⟩, ⟨[[(0, 544499957566), (3103337415638,
    0), (2114821692, 0), (10257782, 0), (24821, 0)], [(158311506790, 0), (635685741, 0), (2183630, 0), (7667, 0),
    (24, 0)], [(6675254, 0), (75766, 0), (453, 0), (2, 0)], [(0, 501), (0, 4)]], 3, 4⟩, 1099511627776, 0, 1331071,
    ⟨[[(54083755644502, 0), (0, 13684311731), (7102617, 0), (237, 0)], [(6120104423, 0), (2937126, 0), (0, 3431)],
    [(0, 1711609), (0, 2529), (2, 0)], [(484, 0), (2, 0)]], 3, 4⟩, 68719476736, 104284,
    5248225004171545959400758462037226989248382868489161777266139405672557054864413209864420318637, lc0⟩)) (.leaf
    ⟨2342, 16, 41, 367, 16, 1524, ⟨[[(137438953472, 0)], [(352187318272, 0)]], 3, 4⟩, ⟨[[(180469065759, 0),
    (4012283992853, 0), (5680774027, 0), (54442652, 0), (264880, 0)], [(100357671900, 0), (810643801, 0), (5597875,
    0), (39169, 0), (243, 0)], [(4010751, 0), (91414, 0), (1071, 0), (8, 0)], [(0, 360), (0, 7)]], 3, 4⟩,
    1099511627776, 0, 1610671, ⟨[[(54210703074525, 0), (0, 21257811046), (17275508, 0), (884, 0), (0, 1)],
    [(6027847892, 0), (4327193, 0), (0, 8234), (0, 1)], [(0, 1678191), (0, 3731), (4, 0)], [(472, 0), (2, 0)]], 3,
    4⟩, 68719476736, 80648,
    4523670335349019330640710903551573112649511372572834874872710219052582878903560068065684906196, lc0⟩))) (.sy (.sx
    (.sy (.out ⟨1315, 16, 40, 3762, 16, 2394, ⟨[[], [(343597383680, 0)]], 1, 1⟩, ⟨[[(0, 15287325164), (0,
    3147148002842)], [(0, 149573541792), (0, 587077268)]], 1, 1⟩, 1099511627776, 0, 32009833616, ⟨[], 0, 0⟩, 0, 0, 0,
    lc0⟩ 0 1 243027818860) (.leaf ⟨2373, 16, 41, 566, 16, 2401, ⟨[[(0, 137438953472)], [(352187318272, 0)]], 3, 4⟩,
    ⟨[[(115012791826, 0), (3181111470359, 0), (2156328084, 0), (10516605, 0), (24967, 0)], [(153615500040, 0),
    (612991501, 0), (2079477, 0), (7164, 0), (21, 0)], [(5543676, 0), (63305, 0), (365, 0), (1, 0)], [(0, 590), (0,
    6)]], 3, 4⟩, 1099511627776, 0, 1231236, ⟨[[(54560504826943, 0), (0, 13577341149), (6850568, 0), (225, 0)],
    [(5892913304, 0), (2682466, 0), (0, 3218)], [(0, 1607641), (0, 2273), (1, 0)], [(437, 0), (1, 0)]], 3, 4⟩,
    68719476736, 93643,
    3920747373403219899990329682781417353106803406006617776709879171098072386884382110011305659574, lc0⟩)) (.leaf
    ⟨2404, 16, 41, 361, 16, 1517, ⟨[[(0, 412316860416)], [(352187318272, 0)]], 3, 4⟩, ⟨[[(0, 434134296767),
    (4077363508565, 0), (5711047308, 0), (55080888, 0), (261882, 0)], [(96546618371, 0), (773701817, 0), (5262229,
    0), (35993, 0), (207, 0)], [(3274299, 0), (74988, 0), (840, 0), (5, 0)], [(0, 405), (0, 9)]], 3, 4⟩,
    1099511627776, 0, 1442523, ⟨[[(54669437069593, 0), (0, 21246328367), (16923156, 0), (856, 0), (0, 1)],
    [(5808050996, 0), (3975464, 0), (0, 7852), (0, 1)], [(0, 1579224), (0, 3380), (3, 0)], [(428, 0), (2, 0)]], 3,
    4⟩, 68719476736, 69482,
    3417423213193255226449941058849858225841287164876564966700154533461277475183987489362457014864, lc0⟩)) (.leaf
    ⟨1165, 16, 20, 288, 16, 1155, ⟨[[], [(343597383680, 0)]], 3, 4⟩, ⟨[[(309920962865, 0), (3130693475090, 0),
    (4932627601, 0), (45650997, 0), (228382, 0)], [(153831424812, 0), (1267875278, 0), (8933843, 0), (62501, 0),
    (400, 0)], [(11636056, 0), (265721, 0), (2970, 0), (20, 0)], [(0, 2669), (0, 64), (0, 2)]], 3, 4⟩, 1099511627776,
    0, 13036312, ⟨[[(54214740664675, 0), (0, 27214553527), (29483200, 0), (1807, 0), (0, 4)], [(12148791338, 0),
    (10252331, 0), (0, 28323), (0, 4)], [(0, 6970329), (0, 18518), (25, 0)], [(4063, 0), (23, 0)]], 3, 4⟩,
    68719476736, 429212,
    2325912241422404178565567517868657269615142762149875870545505768927350227697385283154019363092, lc0⟩)))))
theorem c4 : checkC job ⟨6, 8, 8, 10, 9, 13⟩ 1 25 lims t4 496 48 16 21 3 128 = true := by decide +kernel

def t5 : CTree :=
  .sx (.sy (.out ⟨355, 16, 10, 1054, 16, 647, ⟨[[], [(343597383680, 0)]], 1, 1⟩, ⟨[[(188048715957, 0), (0,
    3391665216128)], [(0, 130265560943), (0, 1828347325)]], 1, 1⟩, 1099511627776, 0, 81015420235, ⟨[], 0, 0⟩, 0, 0,
    0, lc0⟩ 0 1 1598079524151) (.sx (.out ⟨695, 16, 20, 1262, 16, 786, ⟨[[], [(343597383680, 0)]], 1, 1⟩, ⟨[[(0,
    290188756816), (0, 4132885486625)], [(0, 85892536516), (0, 1257274325)]], 1, 1⟩, 1099511627776, 0, 93698980419,
    ⟨[], 0, 0⟩, 0, 0, 0, lc0⟩ 0 1 973543008820) (.sy (.out ⟨725, 16, 20, 2004, 16, 1250, ⟨[[], [(343597383680, 0)]],
    1, 1⟩, ⟨[[(0, 213113287589), (0, 3364620898832)], [(0, 134716262343), (0, 990067584)]], 1, 1⟩, 1099511627776, 0,
    46224228117, ⟨[], 0, 0⟩, 0, 0, 0, lc0⟩ 0 1 755214369368) (.sx (.out ⟨1435, 16, 40, 2445, 16, 1537, ⟨[[],
    [(343597383680, 0)]], 1, 1⟩, ⟨[[(0, 53506641524), (0, 4155007695442)], [(0, 86430372701), (0, 650573337)]], 1,
    1⟩, 1099511627776, 0, 49409929128, ⟨[], 0, 0⟩, 0, 0, 0, lc0⟩ 0 1 447734107028) (.leaf ⟨2527, 16, 41, 331, 16,
    1544, ⟨[[(0, 412316860416)], [(352187318272, 0)]], 3, 4⟩, ⟨[[(0, 318753560984), (4237080632942, 0), (4745660590,
    0), (50665404, 0), (222667, 0)], [(87182557618, 0), (662011111, 0), (4142929, 0), (27092, 0), (124, 0)],
    [(1812474, 0), (43004, 0), (466, 0), (1, 0)], [(0, 390), (0, 8)]], 3, 4⟩, 1099511627776, 0, 1008341,
    ⟨[[(56125741110606, 0), (0, 21563821238), (15368440, 0), (785, 0)], [(5313525680, 0), (3666197, 0), (0, 6756),
    (0, 1)], [(0, 1330990), (0, 2881), (3, 0)], [(313, 0), (2, 0)]], 3, 4⟩, 68719476736, 97179,
    5314761845163938819771653746055654598195559618910036440527719130197377562916299368157946973613, lc0⟩))))) (.sy
    (.sx (.out ⟨755, 16, 20, 1259, 16, 779, ⟨[[], [(343597383680, 0)]], 1, 1⟩, ⟨[[(0, 86749624000), (0,
    4244712676217)], [(0, 79156388365), (0, 1135815450)]], 1, 1⟩, 1099511627776, 0, 83267536132, ⟨[], 0, 0⟩, 0, 0, 0,
    lc0⟩ 0 1 981948747181) (.sy (.out ⟨785, 16, 20, 2036, 16, 1261, ⟨[[], [(343597383680, 0)]], 1, 1⟩,
    ⟨[[(268052344797, 0), (0, 3506930382800)], [(0, 126026752629), (0, 904361678)]], 1, 1⟩, 1099511627776, 0,
    37628667617, ⟨[], 0, 0⟩, 0, 0, 0, lc0⟩ 0 1 785060620837) (.sx (.out ⟨1555, 16, 40, 2448, 16, 1528, ⟨[[],
    [(343597383680, 0)]], 1, 1⟩, ⟨[[(0, 480786699125), (0, 4266668364696)], [(0, 79659209664), (0, 584641785)]], 1,
    1⟩, 1099511627776, 0, 44065411600, ⟨[], 0, 0⟩, 0, 0, 0, lc0⟩ 0 1 461404889438) (.leaf ⟨2650, 16, 41, 312, 16,
    1538, ⟨[[(0, 412316860416)], [(352187318272, 0)]], 3, 4⟩, ⟨[[(0, 188520587647), (4351327846619, 0), (4390266643,
    0), (49489418, 0), (211669, 0)], [(80375721613, 0), (593466879, 0), (3511418, 0), (22230, 0), (85, 0)], [(963956,
    0), (24914, 0), (251, 0), (0, 1)], [(0, 371), (0, 8)]], 3, 4⟩, 1099511627776, 0, 758406, ⟨[[(57140511848371, 0),
    (0, 21755956288), (14652866, 0), (709, 0)], [(4944051126, 0), (3255098, 0), (0, 6149), (0, 1)], [(0, 1179324),
    (0, 2446), (2, 0)], [(256, 0), (1, 0)]], 3, 4⟩, 68719476736, 70769,
    4053220520663978210142524121868294866365691371154047024592271446660639531025115981316690381029, lc0⟩)))) (.sx
    (.sy (.sx (.out ⟨1495, 16, 40, 2445, 16, 1532, ⟨[[], [(343597383680, 0)]], 1, 1⟩, ⟨[[(25917711953, 0), (0,
    4211818889155)], [(0, 82995717967), (0, 617309431)]], 1, 1⟩, 1099511627776, 0, 46886354304, ⟨[], 0, 0⟩, 0, 0, 0,
    lc0⟩ 0 1 439796519268) (.leaf ⟨2588, 16, 41, 322, 16, 1540, ⟨[[(137438953472, 0)], [(352187318272, 0)]], 3, 4⟩,
    ⟨[[(0, 544278712903), (4293704346515, 0), (4589857365, 0), (50211573, 0), (217357, 0)], [(83700088460, 0),
    (627137144, 0), (3823158, 0), (24583, 0), (103, 0)], [(1356977, 0), (33247, 0), (347, 0)], [(0, 384), (0, 8)]],
    3, 4⟩, 1099511627776, 0, 909339, ⟨[[(56620278787617, 0), (0, 21650849884), (15025794, 0), (750, 0)],
    [(5126945265, 0), (3445804, 0), (0, 6452), (0, 1)], [(0, 1253885), (0, 2652), (3, 0)], [(284, 0), (1, 0)]], 3,
    4⟩, 68719476736, 104960,
    4575503120572920423181283921583945961367643567395924127734371875786372195105481484872348279618, lc0⟩)) (.leaf
    ⟨1255, 16, 20, 269, 16, 1213, ⟨[[], [(343597383680, 0)]], 3, 4⟩, ⟨[[(0, 209649507171), (3404315776350, 0),
    (4204115699, 0), (42880644, 0), (188316, 0)], [(137765847982, 0), (1058769054, 0), (6700897, 0), (42771, 0),
    (176, 0)], [(5140267, 0), (122595, 0), (1181, 0), (0, 1)], [(0, 2695), (0, 64), (0, 1)]], 3, 4⟩, 1099511627776,
    0, 6786166, ⟨[[(56123971867512, 0), (0, 26804350282), (24449795, 0), (1520, 0), (0, 1)], [(10725076874, 0),
    (8515776, 0), (0, 21721), (0, 3)], [(0, 5543292), (0, 13973), (17, 0)], [(2725, 0), (16, 0)]], 3, 4⟩,
    68719476736, 244717,
    3124532212375053972178691484041192953887685011024530389712748448774729548518461266478864526011, lc0⟩)) (.leaf
    ⟨1285, 16, 20, 166, 16, 741, ⟨[[], [(343597383680, 0)]], 3, 4⟩, ⟨[[(0, 261768349717), (4250678252776, 0),
    (10861779548, 0), (217848487, 0), (1878359, 0)], [(82771355016, 0), (1270859252, 0), (15919061, 0), (195878, 0),
    (1331, 0)], [(2453181, 0), (118689, 0), (1880, 0), (0, 35), (0, 2)], [(0, 1722), (0, 87), (0, 4)]], 3, 4⟩,
    1099511627776, 0, 8841892, ⟨[[(56368257029893, 0), (0, 43266280160), (63843606, 0), (6180, 0), (0, 10)],
    [(10420667231, 0), (12448754, 0), (0, 55610), (0, 15)], [(0, 5339910), (0, 20546), (42, 0)], [(2601, 0), (23,
    0)]], 3, 4⟩, 68719476736, 556875,
    2601041412152314576427493509622746150229950495045285781769022928191441120306534922310795801631, lc0⟩)))
theorem c5 : checkC job ⟨6, 8, 8, 10, 9, 13⟩ 1 25 lims t5 592 48 16 39 3 256 = true := by decide +kernel

def t6 : CTree :=
  .sx (.sy (.sx (.sy (.sx (.out ⟨1375, 16, 40, 2447, 16, 1543, ⟨[[], [(343597383680, 0)]], 1, 1⟩, ⟨[[(403619934944,
    0), (0, 4095465790726)], [(0, 89945749242), (0, 683938201)]], 1, 1⟩, 1099511627776, 0, 51587185342, ⟨[], 0, 0⟩,
    0, 0, 0, lc0⟩ 0 1 466467313078) (.sy (.out ⟨1405, 16, 40, 3868, 16, 2441, ⟨[[], [(343597383680, 0)]], 1, 1⟩,
    ⟨[[(224535765857, 0), (0, 3280624824203)], [(0, 141382857702), (0, 538967227)]], 1, 1⟩, 1099511627776, 0,
    26638130895, ⟨[], 0, 0⟩, 0, 0, 0, lc0⟩ 0 1 357635487508) (.leaf ⟨2465, 16, 41, 546, 16, 2452, ⟨[[(137438953472,
    0)], [(352187318272, 0)]], 3, 4⟩, ⟨[[(9998770344, 0), (3318438533524, 0), (2010420467, 0), (10321490, 0), (23248,
    0)], [(145331299621, 0), (562589273, 0), (1819515, 0), (6054, 0), (15, 0)], [(3825885, 0), (44405, 0), (246, 0),
    (1, 0)], [(0, 630), (0, 7)]], 3, 4⟩, 1099511627776, 0, 1065349, ⟨[[(55514396841544, 0), (0, 13473742146),
    (6276674, 0), (204, 0)], [(5532879606, 0), (2430835, 0), (0, 2831)], [(0, 1431588), (0, 1968), (1, 0)], [(356,
    0), (1, 0)]], 3, 4⟩, 68719476736, 50377,
    4231432042838820215029795677422946180892167078730345814732884593652138099170256654081648614597, lc0⟩))) (.leaf
    ⟨1195, 16, 20, 277, 16, 1198, ⟨[[], [(343597383680, 0)]], 3, 4⟩, ⟨[[(0, 99057225988), (3252646610699, 0),
    (4310986863, 0), (42557699, 0), (196314, 0)], [(146705320053, 0), (1157159537, 0), (7680831, 0), (51459, 0),
    (270, 0)], [(8489309, 0), (195765, 0), (2133, 0), (9, 0)], [(0, 2601), (0, 59), (0, 1)]], 3, 4⟩, 1099511627776,
    0, 9158653, ⟨[[(55149424062125, 0), (0, 27111614617), (26529750, 0), (1720, 0), (0, 2)], [(11536843317, 0),
    (9949362, 0), (0, 24731), (0, 3)], [(0, 6260916), (0, 16939), (21, 0)], [(3328, 0), (20, 0)]], 3, 4⟩,
    68719476736, 341681,
    4719703991557174853967515428887981652253984335670283079011094391801907562627311071964384779500, lc0⟩)) (.leaf
    ⟨1225, 16, 20, 174, 16, 742, ⟨[[], [(343597383680, 0)]], 3, 4⟩, ⟨[[(0, 195461635721), (4132830783359, 0),
    (11520886908, 0), (222955559, 0), (2039845, 0)], [(89653865860, 0), (1419609778, 0), (18797608, 0), (245417, 0),
    (2374, 0)], [(4432903, 0), (205108, 0), (4041, 0), (12, 0), (0, 1)], [(0, 1781), (0, 90), (0, 4)]], 3, 4⟩,
    1099511627776, 0, 13261501, ⟨[[(55384878462929, 0), (0, 42987215334), (67321401, 0), (6670, 0), (0, 14)],
    [(11204941096, 0), (14208330, 0), (0, 61376), (0, 15)], [(0, 6031170), (0, 24355), (51, 0)], [(3175, 0), (28,
    0)]], 3, 4⟩, 68719476736, 615819,
    3813676774303585731980625111603227056384541166274745679593264399678336175176462814838850492055, lc0⟩)) (.leaf
    ⟨605, 16, 10, 144, 16, 554, ⟨[[], [(343597383680, 0)]], 3, 4⟩, ⟨[[(0, 306393495143), (3148782260397, 0),
    (11119429958, 0), (198362954, 0), (2016427, 0)], [(146832481058, 0), (2461695984, 0), (34902774, 0), (474971, 0),
    (6222, 0)], [(18377065, 0), (822853, 0), (15515, 0), (140, 0), (8, 0)], [(0, 13449), (0, 790), (0, 35), (0, 1)]],
    3, 4⟩, 1099511627776, 0, 134646154, ⟨[[(54424633732568, 0), (0, 54409282295), (123060857, 0), (12318, 0), (0,
    110)], [(23295498781, 0), (33661757, 0), (0, 229208), (0, 91)], [(0, 26567691), (0, 126761), (382, 0)], [(30703,
    0), (301, 0), (0, 1)]], 3, 4⟩, 68719476736, 7736682,
    2798581793182366557133159467612736143661788822462348129129318323429196629292903240595351121944, lc0⟩)) (.leaf
    ⟨635, 16, 10, 90, 16, 337, ⟨[[], [(343597383680, 0)]], 3, 4⟩, ⟨[[(0, 274338473648), (4027857419492, 0),
    (30441365995, 0), (1051002334, 0), (20757957, 0)], [(86666678537, 0), (2901069794, 0), (79769591, 0), (1982080,
    0), (49474, 0)], [(7355884, 0), (603474, 0), (9763, 0), (0, 644), (53, 0)], [(0, 9881), (0, 1282), (0, 108), (0,
    3)]], 3, 4⟩, 1099511627776, 0, 410322781, ⟨[[(54890722716103, 0), (0, 86444531396), (315129935, 0), (32902, 0),
    (0, 1090)], [(21882860466, 0), (41344825, 0), (0, 566132), (0, 449), (0, 4)], [(0, 24409943), (0, 165099), (854,
    0)], [(27250, 0), (374, 0), (0, 2)]], 3, 4⟩, 68719476736, 32521057,
    4745174968243762205565763157323120078046991134553053256697593457594253323803784284402018730177, lc0⟩)
theorem c6 : checkC job ⟨6, 8, 8, 10, 9, 13⟩ 1 25 lims t6 592 48 16 45 3 256 = true := by decide +kernel

def t7 : CTree :=
  .sx (.out ⟨344, 26, 8, 566, 16, 334, ⟨[[], [(549755813888, 0)]], 1, 1⟩, ⟨[[(103008720180, 0), (0, 3787164084326)],
    [(0, 102951402307), (0, 2681315857)]], 1, 1⟩, 1099511627776, 0, 61820593166, ⟨[], 0, 0⟩, 0, 0, 0, lc0⟩ 0 1
    3101806449980) (.sy (.out ⟨392, 26, 8, 857, 16, 509, ⟨[[], [(549755813888, 0)]], 1, 1⟩, ⟨[[(457235786632, 0), (0,
    3072527783837)], [(0, 150168139556), (0, 1951977039)]], 1, 1⟩, 1099511627776, 0, 50205178518, ⟨[], 0, 0⟩, 0, 0,
    0, lc0⟩ 0 1 2095910704804) (.sx (.out ⟨475, 16, 10, 1068, 16, 644, ⟨[[], [(343597383680, 0)]], 1, 1⟩,
    ⟨[[(29606664293, 0), (0, 3854220432714)], [(0, 103024797656), (0, 1371536398)]], 1, 1⟩, 1099511627776, 0,
    48591559259, ⟨[], 0, 0⟩, 0, 0, 0, lc0⟩ 0 1 1351936113825) (.sy (.out ⟨505, 16, 10, 1635, 16, 989, ⟨[[],
    [(343597383680, 0)]], 1, 1⟩, ⟨[[(0, 286526915829), (0, 3050908259312)], [(0, 154291932706), (0, 1019278308)]], 1,
    1⟩, 1099511627776, 0, 31542364390, ⟨[], 0, 0⟩, 0, 0, 0, lc0⟩ 0 1 876381796765) (.sx (.out ⟨995, 16, 20, 2071, 16,
    1263, ⟨[[], [(343597383680, 0)]], 1, 1⟩, ⟨[[(0, 229856953116), (0, 3889106817099)], [(0, 102696884149), (0,
    688346096)]], 1, 1⟩, 1099511627776, 0, 28872324779, ⟨[], 0, 0⟩, 0, 0, 0, lc0⟩ 0 1 510533590603) (.leaf ⟨1525, 16,
    20, 213, 16, 1273, ⟨[[], [(343597383680, 0)]], 3, 4⟩, ⟨[[(259269550959, 0), (3986322941180, 0), (2640466763, 0),
    (36438584, 0), (150687, 0)], [(103150567899, 0), (689715618, 0), (3116328, 0), (16342, 0), (42, 0)], [(0,
    2101956), (0, 26164), (0, 371), (0, 7)], [(0, 1606), (0, 35), (0, 1)]], 3, 4⟩, 1099511627776, 0, 1278363,
    ⟨[[(60417595917455, 0), (0, 26546404551), (17660299, 0), (496, 0), (1, 0)], [(7941516522, 0), (5154881, 0), (0,
    13133), (0, 3)], [(0, 3385083), (0, 6877), (8, 0)], [(1240, 0), (6, 0)]], 3, 4⟩, 68719476736, 130124,
    3722238227669576829775598558027660514576938555348048312594084093286325422128639995580182183465, lc0⟩)))))
theorem c7 : checkC job ⟨6, 8, 8, 10, 9, 13⟩ 1 25 lims t7 368 48 8 27 3 256 = true := by decide +kernel

def t8 : CTree :=
  .sx (.sy (.sx (.out ⟨415, 16, 10, 1085, 16, 655, ⟨[[], [(343597383680, 0)]], 1, 1⟩, ⟨[[(0, 428317622566), (0,
    3675594638929)], [(0, 113631287163), (0, 1536530218)]], 1, 1⟩, 1099511627776, 0, 47237186436, ⟨[], 0, 0⟩, 0, 0,
    0, lc0⟩ 0 1 1887587663085) (.out ⟨445, 16, 10, 1045, 16, 637, ⟨[[], [(343597383680, 0)]], 1, 1⟩,
    ⟨[[(158963446538, 0), (0, 3719096193830)], [(0, 110702104387), (0, 1514101104)]], 1, 1⟩, 1099511627776, 0,
    55530559315, ⟨[], 0, 0⟩, 0, 0, 0, lc0⟩ 0 1 1059833987432)) (.sx (.sy (.out ⟨415, 16, 10, 1554, 16, 952, ⟨[[],
    [(343597383680, 0)]], 1, 1⟩, ⟨[[(500364357113, 0), (0, 2695360938074)], [(0, 175667148494), (0, 1222197301)]], 1,
    1⟩, 1099511627776, 0, 31542558013, ⟨[], 0, 0⟩, 0, 0, 0, lc0⟩ 0 1 1100874334161) (.sx (.out ⟨815, 16, 20, 2054,
    16, 1267, ⟨[[], [(343597383680, 0)]], 1, 1⟩, ⟨[[(507711652310, 0), (0, 3576061663512)], [(0, 121767967924), (0,
    862217197)]], 1, 1⟩, 1099511627776, 0, 33410853413, ⟨[], 0, 0⟩, 0, 0, 0, lc0⟩ 0 1 831062810123) (.sx (.out ⟨1675,
    16, 40, 2458, 16, 1522, ⟨[[], [(343597383680, 0)]], 1, 1⟩, ⟨[[(395905103884, 0), (0, 4370686742511)], [(0,
    73281311167), (0, 522230982)]], 1, 1⟩, 1099511627776, 0, 37703006245, ⟨[], 0, 0⟩, 0, 0, 0, lc0⟩ 0 1 534049985062)
    (.leaf ⟨2773, 16, 41, 290, 16, 1535, ⟨[[(0, 412316860416)], [(352187318272, 0)]], 3, 4⟩, ⟨[[(108238836114, 0),
    (4458702969163, 0), (3871099590, 0), (47223642, 0), (199502, 0)], [(73981764882, 0), (529172260, 0), (2917715,
    0), (17976, 0), (63, 0)], [(341077, 0), (11929, 0), (110, 0), (0, 1)], [(0, 330), (0, 7)]], 3, 4⟩, 1099511627776,
    0, 565559, ⟨[[(58196108824551, 0), (0, 22029538889), (13944449, 0), (611, 0)], [(4604555322, 0), (2953860, 0),
    (0, 5601), (0, 1)], [(0, 1045327), (0, 2107), (2, 0)], [(209, 0), (1, 0)]], 3, 4⟩, 68719476736, 47527,
    3661979865040937945233035819552332295529449449349710900423309461165705501090308978402895660420, lc0⟩)))) (.sy
    (.sx (.out ⟨875, 16, 20, 2034, 16, 1255, ⟨[[], [(343597383680, 0)]], 1, 1⟩, ⟨[[(20747039709, 0), (0,
    3670006386576)], [(0, 116046019650), (0, 815476014)]], 1, 1⟩, 1099511627776, 0, 31435630128, ⟨[], 0, 0⟩, 0, 0, 0,
    lc0⟩ 0 1 517924701605) (.leaf ⟨1405, 16, 20, 236, 16, 1260, ⟨[[], [(343597383680, 0)]], 3, 4⟩, ⟨[[(57570206666,
    0), (3763428192990, 0), (3241602816, 0), (39449595, 0), (164369, 0)], [(116543898558, 0), (822545026, 0),
    (4357233, 0), (25576, 0), (66, 0)], [(0, 110694), (13489, 0), (27, 0), (0, 7)], [(0, 2086), (0, 46), (0, 1)]], 3,
    4⟩, 1099511627776, 0, 2174477, ⟨[[(58732426233614, 0), (0, 26560771104), (19830099, 0), (948, 0)], [(8981075806,
    0), (6399098, 0), (0, 15832), (0, 3)], [(0, 4101956), (0, 9240), (11, 0)], [(1651, 0), (9, 0)]], 3, 4⟩,
    68719476736, 157279,
    2856375111870970265130508183691145582137024096156003418955878833546793659105715959961229732998, lc0⟩)) (.leaf
    ⟨695, 16, 10, 184, 16, 922, ⟨[[], [(343597383680, 0)]], 3, 4⟩, ⟨[[(0, 48428983046), (2754761498516, 0),
    (2748431152, 0), (30892819, 0), (126600, 0)], [(178001833601, 0), (1282043185, 0), (7077328, 0), (40662, 0), (68,
    0)], [(906994, 0), (61362, 0), (16, 0), (0, 32), (0, 1)], [(0, 13651), (0, 322), (0, 7)]], 3, 4⟩, 1099511627776,
    0, 28429239, ⟨[[(58189608937962, 0), (0, 35583183978), (37569164, 0), (2576, 0)], [(18409313547, 0), (16894313,
    0), (0, 60858), (0, 15)], [(0, 17295159), (0, 50981), (82, 0)], [(14675, 0), (103, 0)]], 3, 4⟩, 68719476736,
    1647510, 3552413093181799218846174991099557460876421925146706829864115944372838716742683873356165276178, lc0⟩))))
    (.sy (.sx (.sy (.sx (.out ⟨935, 16, 20, 2080, 16, 1270, ⟨[[], [(343597383680, 0)]], 1, 1⟩, ⟨[[(0, 362959227870),
    (0, 3801519807522)], [(0, 108013240986), (0, 735457162)]], 1, 1⟩, 1099511627776, 0, 26684242869, ⟨[], 0, 0⟩, 0,
    0, 0, lc0⟩ 0 1 748057696428) (.leaf ⟨1465, 16, 20, 217, 16, 1278, ⟨[[], [(343597383680, 0)]], 3, 4⟩,
    ⟨[[(123563121894, 0), (3896498793711, 0), (2669146955, 0), (36731766, 0), (153822, 0)], [(108502446407, 0),
    (739421763, 0), (3562121, 0), (20235, 0), (69, 0)], [(0, 1246146), (0, 8703), (0, 158), (0, 6)], [(0, 1755), (0,
    37), (0, 1)]], 3, 4⟩, 1099511627776, 0, 1578238, ⟨[[(59844124373526, 0), (0, 26660693689), (18339555, 0), (683,
    0), (1, 0)], [(8380359195, 0), (5939988, 0), (0, 14047), (0, 3)], [(0, 3641552), (0, 8039), (9, 0)], [(1351, 0),
    (8, 0)]], 3, 4⟩, 68719476736, 124633,
    3380585668956790666462984991150598135411319404276475147469536975864799881827271306852797098944, lc0⟩)) (.leaf
    ⟨725, 16, 10, 174, 16, 954, ⟨[[], [(343597383680, 0)]], 3, 4⟩, ⟨[[(358788514544, 0), (2907504409118, 0),
    (2369931838, 0), (29501069, 0), (121900, 0)], [(168977781025, 0), (1172244623, 0), (5914302, 0), (33270, 0), (66,
    0)], [(0, 3044616), (0, 14700), (0, 553), (0, 26), (0, 1)], [(0, 11752), (0, 261), (0, 5)]], 3, 4⟩,
    1099511627776, 0, 15449740, ⟨[[(59291853901852, 0), (0, 35036327976), (33358509, 0), (1841, 0), (2, 0)],
    [(17172734341, 0), (15333836, 0), (0, 51905), (0, 14)], [(0, 15342065), (0, 43380), (66, 0)], [(12009, 0), (84,
    0)]], 3, 4⟩, 68719476736, 1254012,
    4715475467310256743944066363131564106753261320738842032115584813757311289804644173715521193734, lc0⟩)) (.leaf
    ⟨755, 16, 10, 117, 16, 616, ⟨[[], [(343597383680, 0)]], 3, 4⟩, ⟨[[(0, 262039419909), (3878029700000, 0),
    (6827203832, 0), (159735225, 0), (1247177, 0)], [(106299313138, 0), (1457307935, 0), (14026388, 0), (136935, 0),
    (0, 455)], [(0, 4049570), (0, 110460), (0, 4294), (0, 221), (0, 10)], [(0, 7533), (0, 355), (0, 13)]], 3, 4⟩,
    1099511627776, 0, 13246540, ⟨[[(59546049308514, 0), (0, 52894921599), (76483178, 0), (5361, 0), (7, 0)],
    [(16374429431, 0), (18962472, 0), (0, 116515), (0, 55)], [(0, 14564189), (0, 55457), (134, 0)], [(11561, 0),
    (102, 0)]], 3, 4⟩, 68719476736, 1720823,
    4741371397467424743036352435276636106048118993710676654950461033692853733120420522209228297903, lc0⟩)) (.sx
    (.leaf ⟨725, 16, 10, 126, 16, 604, ⟨[[], [(343597383680, 0)]], 3, 4⟩, ⟨[[(0, 482276828600), (3745172844272, 0),
    (8172826638, 0), (172401769, 0), (1300377, 0)], [(113982248756, 0), (1629516929, 0), (17280531, 0), (168107, 0),
    (0, 824)], [(0, 2055047), (0, 42251), (0, 4241), (0, 304), (0, 12)], [(0, 9218), (0, 471), (0, 20), (0, 1)]], 3,
    4⟩, 1099511627776, 0, 22033689, ⟨[[(58436382122158, 0), (0, 52697428603), (83573995, 0), (7455, 0), (0, 7)],
    [(17523584871, 0), (20075747, 0), (0, 132155), (0, 56)], [(0, 16386237), (0, 63361), (162, 0)], [(14027, 0),
    (123, 0)]], 3, 4⟩, 68719476736, 2426819,
    4253279592669029106602579215000897061647574914290593943658533407416674097384415158667070846277, lc0⟩) (.leaf
    ⟨755, 16, 10, 132, 16, 588, ⟨[[], [(343597383680, 0)]], 3, 4⟩, ⟨[[(0, 110592866907), (3797446929887, 0),
    (9515128311, 0), (180175389, 0), (1069774, 0)], [(110322918819, 0), (1564901403, 0), (15452399, 0), (86590, 0),
    (0, 3394)], [(0, 4704981), (0, 186837), (0, 10367), (0, 509), (0, 15)], [(0, 9798), (0, 552), (0, 24), (0, 1)]],
    3, 4⟩, 1099511627776, 0, 22785283, ⟨[[(58454848594601, 0), (0, 51994973464), (84314624, 0), (5548, 0), (0, 33)],
    [(16724743194, 0), (14591907, 0), (0, 131636), (0, 60)], [(0, 15683930), (0, 52127), (147, 0)], [(13638, 0), (97,
    0)]], 3, 4⟩, 68719476736, 2995606,
    2865819783484291257473831175743225553372299884189655244113595145818298267151582592180651346824, lc0⟩)))
theorem c8 : checkC job ⟨6, 8, 8, 10, 9, 13⟩ 1 25 lims t8 368 48 8 33 3 256 = true := by decide +kernel

def t9 : CTree :=
  .sx (.sx (.sy (.sy (.sx (.sx (.out ⟨1615, 16, 40, 2451, 16, 1524, ⟨[[], [(343597383680, 0)]], 1, 1⟩, ⟨[[(0,
    62743136857), (0, 4317496243124)], [(0, 76383897360), (0, 552601245)]], 1, 1⟩, 1099511627776, 0, 40969451689,
    ⟨[], 0, 0⟩, 0, 0, 0, lc0⟩ 0 1 487809287524) (.leaf ⟨2711, 16, 41, 301, 16, 1536, ⟨[[(137438953472, 0)],
    [(352187318272, 0)]], 3, 4⟩, ⟨[[(314262196674, 0), (4405137223078, 0), (4147511299, 0), (48471385, 0), (205640,
    0)], [(77115318518, 0), (560583445, 0), (3207649, 0), (20023, 0), (72, 0)], [(626844, 0), (17847, 0), (172, 0),
    (0, 1)], [(0, 352), (0, 8)]], 3, 4⟩, 1099511627776, 0, 734173, ⟨[[(57668150867947, 0), (0, 21897559157),
    (14302225, 0), (663, 0)], [(4770810653, 0), (3099132, 0), (0, 5871), (0, 1)], [(0, 1109831), (0, 2270), (2, 0)],
    [(231, 0), (1, 0)]], 3, 4⟩, 68719476736, 56254,
    3740337275466237752504824385710199836538594894764027586320446367059920006679886130094382539752, lc0⟩)) (.leaf
    ⟨1345, 16, 20, 252, 16, 1241, ⟨[[], [(343597383680, 0)]], 3, 4⟩, ⟨[[(0, 450435187282), (3624598922797, 0),
    (3726651137, 0), (41468023, 0), (173461, 0)], [(124865193338, 0), (913346034, 0), (5247393, 0), (31589, 0), (85,
    0)], [(1520692, 0), (46359, 0), (328, 0), (0, 8)], [(0, 2402), (0, 56), (0, 1)]], 3, 4⟩, 1099511627776, 0,
    3523361, ⟨[[(57650874249249, 0), (0, 26552231839), (21532414, 0), (1194, 0)], [(9636069609, 0), (7034349, 0), (0,
    17918), (0, 3)], [(0, 4627559), (0, 10768), (13, 0)], [(2021, 0), (11, 0)]], 3, 4⟩, 68719476736, 150245,
    2092111023928751282555191127661797312924830230986278678854113543512732600468036568788402169607, lc0⟩)) (.leaf
    ⟨665, 16, 10, 191, 16, 890, ⟨[[], [(343597383680, 0)]], 3, 4⟩, ⟨[[(0, 411410844699), (2601181970178, 0),
    (3035101194, 0), (31679493, 0), (132143, 0)], [(186962399934, 0), (1397868990, 0), (8331637, 0), (49416, 0),
    (119, 0)], [(6313920, 0), (169801, 0), (1011, 0), (0, 30), (0, 1)], [(0, 15303), (0, 380), (0, 8)]], 3, 4⟩,
    1099511627776, 0, 47279095, ⟨[[(57127804423559, 0), (0, 36302281223), (42496788, 0), (3309, 0), (0, 2)],
    [(19756050618, 0), (19071323, 0), (0, 71707), (0, 17)], [(0, 19514792), (0, 60842), (103, 0)], [(17934, 0), (129,
    0)]], 3, 4⟩, 68719476736, 2390018,
    2760452513432158362408199294278142369906545303333013647702508929347866747724795527978896754323, lc0⟩)) (.leaf
    ⟨665, 16, 10, 138, 16, 578, ⟨[[], [(343597383680, 0)]], 3, 4⟩, ⟨[[(0, 234404546909), (3460089934349, 0),
    (10280773164, 0), (191025933, 0), (1577021, 0)], [(130053134699, 0), (2026455814, 0), (25241992, 0), (275547, 0),
    (983, 0)], [(5128409, 0), (231554, 0), (0, 538), (0, 314), (0, 8)], [(0, 12676), (0, 743), (0, 34), (0, 1)]], 3,
    4⟩, 1099511627776, 0, 62324781, ⟨[[(56367279784919, 0), (0, 53078543791), (101232758, 0), (10176, 0), (0, 58)],
    [(20132630676, 0), (24583465, 0), (0, 172681), (0, 68)], [(0, 20774641), (0, 86850), (244, 0)], [(20621, 0),
    (186, 0)]], 3, 4⟩, 68719476736, 4932772,
    3031955065992603660143388267992717666241879589116011747847418923862886913788786476148769815792, lc0⟩)) (.sy
    (.leaf ⟨695, 16, 10, 133, 16, 591, ⟨[[], [(343597383680, 0)]], 3, 4⟩, ⟨[[(0, 535885177551), (3605122174113, 0),
    (9347784209, 0), (182748859, 0), (1400553, 0)], [(121881527071, 0), (1819708910, 0), (21000306, 0), (210897, 0),
    (0, 431)], [(917540, 0), (65658, 0), (0, 3358), (0, 351), (0, 12)], [(0, 11010), (0, 608), (0, 27), (0, 1)]], 3,
    4⟩, 1099511627776, 0, 37762834, ⟨[[(57374556831980, 0), (0, 52752187963), (91868175, 0), (9027, 0), (0, 30)],
    [(18772369035, 0), (21856572, 0), (0, 150756), (0, 60)], [(0, 18447594), (0, 73554), (198, 0)], [(17014, 0),
    (150, 0)]], 3, 4⟩, 68719476736, 3548212,
    3443265792376055115705199858794196902870674048032437337599558537758406974610718411502033497413, lc0⟩) (.leaf
    ⟨695, 16, 10, 144, 16, 557, ⟨[[], [(343597383680, 0)]], 3, 4⟩, ⟨[[(0, 270094750654), (3523213283378, 0),
    (12206149730, 0), (205934693, 0), (1535769, 0)], [(125914506227, 0), (1973425410, 0), (23217723, 0), (180869, 0),
    (0, 568)], [(1036148, 0), (0, 21419), (0, 11469), (0, 575), (0, 7)], [(0, 14940), (0, 982), (0, 42), (0, 1)]], 3,
    4⟩, 1099511627776, 0, 65277455, ⟨[[(56366636533101, 0), (0, 52104479777), (103885482, 0), (4302, 0), (0, 146)],
    [(19145382878, 0), (16780189, 0), (0, 174172), (0, 93), (0, 1)], [(0, 19825692), (0, 69732), (223, 0)], [(19842,
    0), (144, 0)]], 3, 4⟩, 68719476736, 6057956,
    4381641985787545775967850229740942035851403398644338358432399457604049127204589602789878960938, lc0⟩))) (.sy (.sx
    (.leaf ⟨725, 16, 10, 139, 16, 573, ⟨[[], [(343597383680, 0)]], 3, 4⟩, ⟨[[(0, 227826074028), (3664720909421, 0),
    (10962520433, 0), (192875047, 0), (1203877, 0)], [(118030473858, 0), (1758660679, 0), (18931896, 0), (114029, 0),
    (0, 2844)], [(0, 2413141), (0, 130291), (0, 11964), (0, 602), (0, 13)], [(0, 12264), (0, 756), (0, 33), (0, 1)]],
    3, 4⟩, 1099511627776, 0, 36085967, ⟨[[(57390279627441, 0), (0, 51923711967), (93307181, 0), (5546, 0), (0, 85)],
    [(17879409343, 0), (15369752, 0), (0, 150755), (0, 72)], [(0, 17618217), (0, 59783), (180, 0)], [(16431, 0),
    (118, 0)]], 3, 4⟩, 68719476736, 4504949,
    3797919876231213726994054841766295350644874677323635568115699628108441116131893600538552153363, lc0⟩) (.leaf
    ⟨755, 16, 10, 145, 16, 557, ⟨[[], [(343597383680, 0)]], 3, 4⟩, ⟨[[(0, 104070077433), (3724656414842, 0),
    (12286197564, 0), (192023769, 0), (794875, 0)], [(113940748507, 0), (1663544975, 0), (15233386, 0), (0, 23152),
    (0, 4919)], [(0, 5995179), (0, 359230), (0, 21515), (0, 795), (0, 8)], [(0, 13392), (0, 873), (0, 35), (0, 1)]],
    3, 4⟩, 1099511627776, 0, 33292413, ⟨[[(57396786446318, 0), (0, 51132441723), (94155964, 0), (0, 1988), (0, 189)],
    [(16973172949, 0), (9458856, 0), (0, 151390), (0, 94), (0, 1)], [(0, 16716721), (0, 48446), (166, 0)], [(15585,
    0), (92, 0)]], 3, 4⟩, 68719476736, 5627774,
    4316305521550506973595204911911696828404005851484086776476736889758139839951129412853887939060, lc0⟩)) (.sx
    (.leaf ⟨725, 16, 10, 150, 16, 539, ⟨[[], [(343597383680, 0)]], 3, 4⟩, ⟨[[(0, 281997185457), (3591599330160, 0),
    (13828953224, 0), (210308460, 0), (1394520, 0)], [(121613462300, 0), (1877227255, 0), (19162598, 0), (49145, 0),
    (0, 1086)], [(0, 3546752), (0, 327609), (0, 23433), (0, 729), (2, 0)], [(0, 17106), (0, 1169), (0, 43)]], 3, 4⟩,
    1099511627776, 0, 64199195, ⟨[[(56366913429569, 0), (0, 51136570541), (105465836, 0), (0, 8568), (0, 297)],
    [(18130107041, 0), (9670674, 0), (0, 176593), (0, 139), (0, 1)], [(0, 18765954), (0, 55704), (204, 0)], [(18712,
    0), (112, 0)]], 3, 4⟩, 68719476736, 6237664,
    4588813735141370218554178176904763799482515554892660184366809721324666847836768758533994312637, lc0⟩) (.leaf
    ⟨755, 16, 10, 156, 16, 524, ⟨[[], [(343597383680, 0)]], 3, 4⟩, ⟨[[(0, 158037705746), (3662873478993, 0),
    (14986669098, 0), (202449862, 0), (1313411, 0)], [(117085915100, 0), (1731144176, 0), (13151685, 0), (0, 88165),
    (610, 0)], [(0, 8562829), (0, 663893), (0, 33837), (0, 664), (15, 0)], [(0, 18771), (0, 1236), (0, 33), (1, 0)]],
    3, 4⟩, 1099511627776, 0, 61065106, ⟨[[(56372752583357, 0), (0, 50196187968), (105487388, 0), (0, 31632), (0,
    491)], [(17103493781, 0), (3189118, 0), (0, 180428), (0, 218), (0, 2)], [(0, 17653490), (0, 44153), (185, 0)],
    [(17406, 0), (88, 0)]], 3, 4⟩, 68719476736, 6186760,
    4110804718583580259742739697652685646225634822068968627784125421565464053479087207234991228058, lc0⟩)))
theorem c9 : checkC job ⟨6, 8, 8, 10, 9, 13⟩ 1 25 lims t9 368 48 8 39 3 256 = true := by decide +kernel

def t10 : CTree :=
  .sx (.sy (.sx (.leaf ⟨665, 16, 10, 147, 16, 541, ⟨[[], [(343597383680, 0)]], 3, 4⟩, ⟨[[(0, 9366692829),
    (3374737924067, 0), (13189593072, 0), (219690618, 0), (2029142, 0)], [(134016001293, 0), (2209106244, 0),
    (28551381, 0), (298374, 0), (3257, 0)], [(6010264, 0), (173540, 0), (0, 6979), (0, 382), (3, 0)], [(0, 17389),
    (0, 1178), (0, 48), (0, 1)]], 3, 4⟩, 1099511627776, 0, 106062569, ⟨[[(55392754199751, 0), (0, 52577673129),
    (115998709, 0), (2701, 0), (0, 205)], [(20537839057, 0), (19146822, 0), (0, 202332), (0, 118), (0, 1)], [(0,
    22340828), (0, 82861), (277, 0)], [(23997, 0), (180, 0), (0, 1)]], 3, 4⟩, 68719476736, 7028087,
    3986619177240040603005566317799606980359104729526239283712408319448632143291362299636492101994, lc0⟩) (.leaf
    ⟨695, 16, 10, 153, 16, 520, ⟨[[], [(343597383680, 0)]], 3, 4⟩, ⟨[[(0, 476363188838), (3448040168458, 0),
    (15208455894, 0), (234837266, 0), (2303464, 0)], [(129421175067, 0), (2120859490, 0), (24837944, 0), (202566, 0),
    (4470, 0)], [(341825, 0), (0, 208464), (0, 20557), (0, 487), (10, 0)], [(0, 21013), (0, 1457), (0, 48)]], 3, 4⟩,
    1099511627776, 0, 106500694, ⟨[[(55371549001043, 0), (0, 51386834293), (118950314, 0), (0, 16651), (0, 397)],
    [(19409373150, 0), (10413525, 0), (0, 208142), (0, 193), (0, 1)], [(0, 21124603), (0, 65258), (251, 0)], [(22556,
    0), (138, 0)]], 3, 4⟩, 68719476736, 7553533,
    4253053156138518454497265132121107148727299063223150914045853571695441202483112286822931017391, lc0⟩)) (.leaf
    ⟨544, 25, 8, 111, 16, 349, ⟨[[], [(549755813888, 0)]], 3, 4⟩, ⟨[[(218174217799, 0), (2375841166541, 0),
    (12464269482, 0), (197527533, 0), (2677713, 0)], [(192014409766, 0), (3329399199, 0), (43326106, 0), (576303, 0),
    (14964, 0)], [(6951876, 0), (0, 566475), (0, 52219), (0, 713), (0, 29)], [(0, 153243), (0, 10364), (0, 313), (0,
    9), (0, 1)]], 3, 4⟩, 1099511627776, 0, 2537393190, ⟨[[(54455639081551, 0), (0, 72326173127), (269155530, 0), (0,
    115111), (0, 2258)], [(25224516967, 0), (13074921, 0), (0, 622131), (0, 1035), (0, 6)], [(0, 35976718), (0,
    151699), (920, 0), (0, 1)], [(50933, 0), (414, 0), (0, 2)]], 3, 4⟩, 68719476736, 97694471,
    4758123471413189276195851039978516832910831567302579266973949343911179315541660148707973100018, lc0⟩)) (.sy (.sx
    (.leaf ⟨725, 16, 10, 158, 16, 502, ⟨[[], [(343597383680, 0)]], 3, 4⟩, ⟨[[(197971168909, 0), (3522091621518, 0),
    (16760708654, 0), (241074636, 0), (2726085, 0)], [(124408072484, 0), (1967962618, 0), (18924027, 0), (103260, 0),
    (5852, 0)], [(0, 6058662), (0, 634612), (0, 32432), (0, 491)], [(0, 23918), (0, 1570), (0, 39)]], 3, 4⟩,
    1099511627776, 0, 100268190, ⟨[[(55402902795072, 0), (0, 50478226777), (120045432, 0), (0, 47872), (0, 582)],
    [(18250700884, 0), (2720532, 0), (0, 216368), (0, 294), (0, 1)], [(0, 19782452), (0, 51361), (225, 0)], [(20792,
    0), (107, 0)]], 3, 4⟩, 68719476736, 5978186,
    4234967620976596690060938336036028936171903205763071106147690172996849455381363958386857138393, lc0⟩) (.leaf
    ⟨755, 16, 10, 165, 16, 489, ⟨[[], [(343597383680, 0)]], 3, 4⟩, ⟨[[(0, 444240073096), (3607861717580, 0),
    (17773620803, 0), (239617515, 0), (3037515, 0)], [(119385263479, 0), (1756044542, 0), (11403510, 0), (0, 10278),
    (0, 232)], [(0, 12961671), (0, 1055568), (0, 41243), (0, 790), (0, 79)], [(0, 25411), (0, 1470), (0, 30), (0,
    3)]], 3, 4⟩, 1099511627776, 0, 122249866, ⟨[[(55373479213518, 0), (0, 49148240994), (117331948, 0), (0, 90312),
    (0, 563)], [(17089474027, 0), (0, 4989101), (0, 226707), (0, 363), (1, 0)], [(0, 18494008), (0, 39359), (197,
    0)], [(19120, 0), (82, 0)]], 3, 4⟩, 68719476736, 12055825,
    3339287391732148799386581678765299524793468339414635481960354918380876554256159142596262040854, lc0⟩)) (.sx
    (.leaf ⟨725, 16, 10, 165, 16, 464, ⟨[[], [(343597383680, 0)]], 3, 4⟩, ⟨[[(0, 521437050105), (3468043305410, 0),
    (20180700140, 0), (303189732, 0), (3565070, 0)], [(126561314028, 0), (2042896347, 0), (19828097, 0), (60733, 0),
    (0, 23315)], [(0, 10328141), (0, 1024565), (0, 49540), (0, 2856), (0, 295)], [(0, 32470), (0, 2152), (0, 119),
    (0, 13), (0, 1)]], 3, 4⟩, 1099511627776, 0, 306145210, ⟨[[(54417444806385, 0), (0, 49370399938), (135431307, 0),
    (0, 115167), (0, 602)], [(18212768593, 0), (0, 7088710), (0, 275667), (0, 348), (3, 0)], [(0, 20743572), (0,
    45905), (251, 0)], [(22828, 0), (99, 0)]], 3, 4⟩, 68719476736, 12531815,
    3354200956306856634863965100984823777218214571982391910926974137825768949098638878060055280244, lc0⟩) (.leaf
    ⟨755, 16, 10, 171, 16, 453, ⟨[[], [(343597383680, 0)]], 3, 4⟩, ⟨[[(333183979233, 0), (3566130269121, 0),
    (20986750758, 0), (261162136, 0), (0, 2535283)], [(120721996133, 0), (1740495912, 0), (5758089, 0), (0, 973063),
    (0, 115311)], [(0, 19606139), (0, 1669797), (0, 100132), (0, 8641), (0, 675)], [(0, 34147), (0, 2616), (0, 257),
    (0, 27), (0, 1)]], 3, 4⟩, 1099511627776, 0, 727694432, ⟨[[(54454969171671, 0), (0, 48219484910), (129297063, 0),
    (0, 159603), (0, 937)], [(16902302183, 0), (0, 15352531), (0, 282043), (0, 148), (4, 0)], [(0, 19189487), (0,
    34030), (252, 0), (1, 0)], [(20622, 0), (77, 0)]], 3, 4⟩, 68719476736, 66235651,
    2601623210867403214267208021676363611282915299462736270473925394220792088017399295168490590564, lc0⟩)))
theorem c10 : checkC job ⟨6, 8, 8, 10, 9, 13⟩ 1 25 lims t10 368 48 8 45 3 256 = true := by decide +kernel

def t11 : CTree :=
  .sx (.sy (.out ⟨56, 26, 8, 500, 16, 296, ⟨[[], [(549755813888, 0)]], 1, 1⟩, ⟨[[(0, 34087990858), (0,
    3317826775481)], [(0, 126977849717), (0, 4579315701)]], 1, 1⟩, 1099511627776, 0, 758589344377, ⟨[], 0, 0⟩, 0, 0,
    0, lc0⟩ 0 1 6498709166210) (.sx (.out ⟨55, 16, 10, 637, 16, 388, ⟨[[], [(343597383680, 0)]], 1, 1⟩,
    ⟨[[(201369411787, 0), (0, 3790581306303)], [(0, 99955656471), (0, 3521458105)]], 1, 1⟩, 1099511627776, 0,
    590590796658, ⟨[], 0, 0⟩, 0, 0, 0, lc0⟩ 0 1 5000163761804) (.out ⟨85, 16, 10, 573, 16, 354, ⟨[[], [(343597383680,
    0)]], 1, 1⟩, ⟨[[(85199750053, 0), (0, 3801710500851)], [(0, 98415646909), (0, 3965302468)]], 1, 1⟩,
    1099511627776, 0, 483582730452, ⟨[], 0, 0⟩, 0, 0, 0, lc0⟩ 0 1 3980607634242))) (.sy (.sy (.out ⟨104, 26, 8, 655,
    16, 393, ⟨[[], [(549755813888, 0)]], 1, 1⟩, ⟨[[(303892574166, 0), (0, 2578249656980)], [(0, 175648753341), (0,
    3746131818)]], 1, 1⟩, 1099511627776, 0, 402212685150, ⟨[], 0, 0⟩, 0, 0, 0, lc0⟩ 0 1 5087243074320) (.out ⟨104,
    26, 8, 601, 16, 368, ⟨[[], [(549755813888, 0)]], 1, 1⟩, ⟨[[(0, 444966601690), (0, 2354199482734)], [(0,
    187465412908), (0, 4187423744)]], 1, 1⟩, 1099511627776, 0, 483051142560, ⟨[], 0, 0⟩, 0, 0, 0, lc0⟩ 0 1
    3975970148530)) (.sx (.out ⟨115, 16, 10, 508, 16, 319, ⟨[[], [(343597383680, 0)]], 1, 1⟩, ⟨[[(390899214579, 0),
    (0, 3807816945008)], [(0, 96146228819), (0, 4417954472)]], 1, 1⟩, 1099511627776, 0, 398816888565, ⟨[], 0, 0⟩, 0,
    0, 0, lc0⟩ 0 1 2931863316952) (.sy (.out ⟨145, 16, 10, 741, 16, 468, ⟨[[], [(343597383680, 0)]], 1, 1⟩,
    ⟨[[(539648739600, 0), (0, 3122003266427)], [(0, 142178531045), (0, 3587394712)]], 1, 1⟩, 1099511627776, 0,
    269338416976, ⟨[], 0, 0⟩, 0, 0, 0, lc0⟩ 0 1 2386787849879) (.out ⟨145, 16, 10, 664, 16, 429, ⟨[[],
    [(343597383680, 0)]], 1, 1⟩, ⟨[[(0, 30033827590), (0, 2912865103652)], [(0, 152687228486), (0, 4228258067)]], 1,
    1⟩, 1099511627776, 0, 428618025346, ⟨[], 0, 0⟩, 0, 0, 0, lc0⟩ 0 1 1515352784803))))
theorem c11 : checkC job ⟨6, 8, 8, 10, 9, 13⟩ 1 25 lims t11 80 48 8 15 3 64 = true := by decide +kernel

def t12 : CTree :=
  .sy (.out ⟨152, 26, 8, 563, 16, 346, ⟨[[], [(549755813888, 0)]], 1, 1⟩, ⟨[[(0, 292325016736), (0, 2631987829958)],
    [(0, 170290810151), (0, 4285093045)]], 1, 1⟩, 1099511627776, 0, 353840635749, ⟨[], 0, 0⟩, 0, 0, 0, lc0⟩ 0 1
    3189646113667) (.out ⟨152, 26, 8, 499, 16, 315, ⟨[[], [(549755813888, 0)]], 1, 1⟩, ⟨[[(212479427656, 0), (0,
    2422037095307)], [(0, 181461514828), (0, 4980480577)]], 1, 1⟩, 1099511627776, 0, 551635781828, ⟨[], 0, 0⟩, 0, 0,
    0, lc0⟩ 0 1 1957721547194)
theorem c12 : checkC job ⟨6, 8, 8, 10, 9, 13⟩ 1 25 lims t12 304 48 16 27 3 128 = true := by decide +kernel

def t13 : CTree :=
  .sx (.out ⟨235, 16, 10, 672, 16, 422, ⟨[[], [(343597383680, 0)]], 1, 1⟩, ⟨[[(270088733742, 0), (0, 3625605843271)],
    [(0, 111445906965), (0, 3175351697)]], 1, 1⟩, 1099511627776, 0, 253856454704, ⟨[], 0, 0⟩, 0, 0, 0, lc0⟩ 0 1
    1730242751028) (.sy (.out ⟨265, 16, 10, 973, 16, 615, ⟨[[], [(343597383680, 0)]], 1, 1⟩, ⟨[[(0, 9487936292), (0,
    2845258980900)], [(0, 162400741544), (0, 2433460410)]], 1, 1⟩, 1099511627776, 0, 170484075107, ⟨[], 0, 0⟩, 0, 0,
    0, lc0⟩ 0 1 1154747225274) (.sx (.out ⟨515, 16, 20, 1236, 16, 791, ⟨[[], [(343597383680, 0)]], 1, 1⟩,
    ⟨[[(219302438627, 0), (0, 3668447956940)], [(0, 113206675427), (0, 1771920576)]], 1, 1⟩, 1099511627776, 0,
    141931101071, ⟨[], 0, 0⟩, 0, 0, 0, lc0⟩ 0 1 737275835950) (.sy (.out ⟨545, 16, 20, 1823, 16, 1171, ⟨[[],
    [(343597383680, 0)]], 1, 1⟩, ⟨[[(0, 5068991125), (0, 2822755729887)], [(0, 167593980742), (0, 1344768876)]], 1,
    1⟩, 1099511627776, 0, 92004615901, ⟨[], 0, 0⟩, 0, 0, 0, lc0⟩ 0 1 448824336164) (.sx (.sy (.out ⟨1075, 16, 40,
    3596, 16, 2320, ⟨[[], [(343597383680, 0)]], 1, 1⟩, ⟨[[(229348002386, 0), (0, 2797216221877)], [(0, 171150267675),
    (0, 697810217)]], 1, 1⟩, 1099511627776, 0, 46129295607, ⟨[], 0, 0⟩, 0, 0, 0, lc0⟩ 0 1 328356913683) (.sx (.out
    ⟨2162, 16, 81, 4730, 16, 3061, ⟨[[(0, 343597383680)], [(347892350976, 0)]], 1, 1⟩, ⟨[[(0, 391916823874), (0,
    3699675828051)], [(0, 115356843059), (0, 476354427)]], 1, 1⟩, 1099511627776, 0, 35494197985, ⟨[], 0, 0⟩, 0, 0, 0,
    lc0⟩ 0 1 238931714534) (.leaf ⟨4269, 16, 82, 796, 16, 3083, ⟨[[(137438953472, 0)], [(352187318272, 0)]], 3, 4⟩,
    ⟨[[(0, 65171322123), (3772730717517, 0), (2885703412, 0), (13335346, 0), (35827, 0)], [(116936911616, 0),
    (488246526, 0), (1780882, 0), (6730, 0), (26, 0)], [(3913455, 0), (44291, 0), (287, 0), (1, 0)], [(12, 0), (1,
    0)]], 3, 4⟩, 1099511627776, 0, 304066, ⟨[[(52305023064602, 0), (0, 10540040183), (4703502, 0), (118, 0)],
    [(3474474010, 0), (1405824, 0), (0, 1245)], [(0, 540021), (0, 653)], [(90, 0)]], 3, 4⟩, 68719476736, 53376,
    5261787467328015243629460559693824193708038142273110286037886905328371609533037668432590472163, lc0⟩))) (.sy (.sx
    (.out ⟨2222, 16, 81, 4701, 16, 3042, ⟨[[(481036337152, 0)], [(347892350976, 0)]], 1, 1⟩, ⟨[[(0, 428764014063),
    (0, 3734446174184)], [(0, 113246143404), (0, 469159401)]], 1, 1⟩, 1099511627776, 0, 35571635896, ⟨[], 0, 0⟩, 0,
    0, 0, lc0⟩ 0 1 167510834027) (.leaf ⟨4331, 16, 82, 791, 16, 3065, ⟨[[(0, 412316860416)], [(352187318272, 0)]], 3,
    4⟩, ⟨[[(0, 173237367976), (3808440605552, 0), (2965142768, 0), (13667490, 0), (36713, 0)], [(114800464440, 0),
    (480613088, 0), (1756308, 0), (6620, 0), (25, 0)], [(3634662, 0), (41297, 0), (265, 0), (1, 0)], [(0, 11), (1,
    0)]], 3, 4⟩, 1099511627776, 0, 322302, ⟨[[(52522094417787, 0), (0, 10520041620), (4681963, 0), (116, 0)],
    [(3408064413, 0), (1335973, 0), (0, 1219)], [(0, 523421), (0, 617)], [(86, 0)]], 3, 4⟩, 68719476736, 49297,
    4059606600326976812735179174889850379570828667838837762182917175857839565751727832208540637757, lc0⟩)) (.leaf
    ⟨2158, 16, 41, 599, 16, 2276, ⟨[[(0, 412316860416)], [(352187318272, 0)]], 3, 4⟩, ⟨[[(0, 46772833222),
    (2837772683378, 0), (2324080301, 0), (10582881, 0), (29309, 0)], [(174320272900, 0), (739826420, 0), (2752377,
    0), (10574, 0), (42, 0)], [(11563041, 0), (132185, 0), (861, 0), (5, 0)], [(0, 10), (6, 0)]], 3, 4⟩,
    1099511627776, 0, 2021539, ⟨[[(52307054420313, 0), (0, 13995869558), (8533758, 0), (273, 0)], [(6889447596, 0),
    (3544747, 0), (0, 4468)], [(0, 2148148), (0, 3321), (2, 0)], [(722, 0), (2, 0)]], 3, 4⟩, 68719476736, 113943,
    3566125251414229329528863546497267082564938543409301164846571104795988712296419009250493402024, lc0⟩))))))
theorem c13 : checkC job ⟨6, 8, 8, 10, 9, 13⟩ 1 25 lims t13 400 48 16 51 3 256 = true := by decide +kernel

def t14 : CTree :=
  .sy (.sx (.out ⟨455, 16, 20, 1279, 16, 818, ⟨[[], [(343597383680, 0)]], 1, 1⟩, ⟨[[(288220702094, 0), (0,
    3532280659249)], [(0, 121700400026), (0, 1850292529)]], 1, 1⟩, 1099511627776, 0, 138066244731, ⟨[], 0, 0⟩, 0, 0,
    0, lc0⟩ 0 1 1061309265227) (.out ⟨485, 16, 20, 1213, 16, 782, ⟨[[], [(343597383680, 0)]], 1, 1⟩, ⟨[[(0,
    381051960258), (0, 3553626094667)], [(0, 119806229745), (0, 1916252078)]], 1, 1⟩, 1099511627776, 0, 160041667795,
    ⟨[], 0, 0⟩, 0, 0, 0, lc0⟩ 0 1 617303365726)) (.sx (.sy (.out ⟨455, 16, 20, 1787, 16, 1156, ⟨[[], [(343597383680,
    0)]], 1, 1⟩, ⟨[[(254306239780, 0), (0, 2545950363074)], [(0, 184481749688), (0, 1474456149)]], 1, 1⟩,
    1099511627776, 0, 118200935087, ⟨[], 0, 0⟩, 0, 0, 0, lc0⟩ 0 1 646570478915) (.sx (.out ⟨895, 16, 40, 2400, 16,
    1561, ⟨[[], [(343597383680, 0)]], 1, 1⟩, ⟨[[(171339609054, 0), (0, 3442471641251)], [(0, 129621371168), (0,
    1058366588)]], 1, 1⟩, 1099511627776, 0, 80501608698, ⟨[], 0, 0⟩, 0, 0, 0, lc0⟩ 0 1 499341967864) (.out ⟨925, 16,
    40, 2329, 16, 1522, ⟨[[], [(343597383680, 0)]], 1, 1⟩, ⟨[[(61618456036, 0), (0, 3457943255045)], [(0,
    128674155350), (0, 1082603636)]], 1, 1⟩, 1099511627776, 0, 86686971756, ⟨[], 0, 0⟩, 0, 0, 0, lc0⟩ 0 1
    270114947488))) (.sy (.sx (.out ⟨955, 16, 40, 2349, 16, 1530, ⟨[[], [(343597383680, 0)]], 1, 1⟩,
    ⟨[[(290164071254, 0), (0, 3514952624831)], [(0, 125156809393), (0, 1043180480)]], 1, 1⟩, 1099511627776, 0,
    82388852784, ⟨[], 0, 0⟩, 0, 0, 0, lc0⟩ 0 1 302377644472) (.sy (.sx (.out ⟨1979, 16, 81, 4664, 16, 3042,
    ⟨[[(481036337152, 0)], [(347892350976, 0)]], 1, 1⟩, ⟨[[(231504000510, 0), (0, 3553265326868)], [(0,
    124388270343), (0, 524166814)]], 1, 1⟩, 1099511627776, 0, 39583433613, ⟨[], 0, 0⟩, 0, 0, 0, lc0⟩ 0 1
    202089887560) (.leaf ⟨4085, 16, 82, 827, 16, 3058, ⟨[[(0, 412316860416)], [(352187318272, 0)]], 3, 4⟩, ⟨[[(0,
    418694326651), (3623091491546, 0), (2970831214, 0), (13451783, 0), (38706, 0)], [(126061723391, 0), (538465358,
    0), (2033035, 0), (8063, 0), (34, 0)], [(5327696, 0), (60635, 0), (410, 0), (2, 0)], [(132, 0), (4, 0)]], 3, 4⟩,
    1099511627776, 0, 422923, ⟨[[(51245249720146, 0), (0, 10533782655), (5040067, 0), (122, 0)], [(3743960129, 0),
    (1579513, 0), (0, 1409)], [(0, 623075), (0, 771)], [(115, 0)]], 3, 4⟩, 68719476736, 68185,
    5071615595920331753929245202934959442988388951669657555975291678824999536520500910066907202334, lc0⟩)) (.leaf
    ⟨2035, 16, 41, 609, 16, 2216, ⟨[[(0, 412316860416)], [(352187318272, 0)]], 3, 4⟩, ⟨[[(363763415562, 0),
    (2632908901719, 0), (2259314299, 0), (10154577, 0), (30120, 0)], [(186701579886, 0), (807953375, 0), (3105140,
    0), (12576, 0), (54, 0)], [(16476351, 0), (189036, 0), (1298, 0), (8, 0)], [(921, 0), (24, 0)]], 3, 4⟩,
    1099511627776, 0, 1909924, ⟨[[(51048407025067, 0), (0, 14381930302), (9647504, 0), (311, 0)], [(7567899561, 0),
    (4318410, 0), (0, 5428)], [(0, 2554880), (0, 4264), (3, 0)], [(965, 0), (3, 0)]], 3, 4⟩, 68719476736, 119713,
    4763482252209177845957140503077252381796919392921624868716603943975267957470772671188314117844, lc0⟩))) (.sx (.sy
    (.sx (.out ⟨1919, 16, 81, 4619, 16, 3023, ⟨[[(0, 343597383680)], [(347892350976, 0)]], 1, 1⟩, ⟨[[(0,
    342655938225), (0, 3495629635425)], [(0, 127873131038), (0, 544666351)]], 1, 1⟩, 1099511627776, 0, 41674352256,
    ⟨[], 0, 0⟩, 0, 0, 0, lc0⟩ 0 1 166293708175) (.leaf ⟨4023, 16, 82, 838, 16, 3037, ⟨[[(137438953472, 0)],
    [(352187318272, 0)]], 3, 4⟩, ⟨[[(0, 233144126607), (3564969381967, 0), (3036281277, 0), (13649325, 0), (40601,
    0)], [(129605694363, 0), (560167524, 0), (2152270, 0), (8742, 0), (38, 0)], [(5967991, 0), (68306, 0), (471, 0),
    (3, 0)], [(196, 0), (5, 0)]], 3, 4⟩, 1099511627776, 0, 308664, ⟨[[(50833542952889, 0), (0, 10534701922),
    (5206577, 0), (124, 0)], [(3850351113, 0), (1640541, 0), (0, 1486)], [(0, 658856), (0, 817)], [(127, 0)]], 3, 4⟩,
    68719476736, 70463,
    4498754629410627610648647339371263617835298518623801983291266048562898072170649528516421626158, lc0⟩)) (.leaf
    ⟨2004, 16, 41, 612, 16, 2184, ⟨[[(0, 137438953472)], [(352187318272, 0)]], 3, 4⟩, ⟨[[(412506896612, 0),
    (2570828181445, 0), (2287566593, 0), (10228792, 0), (31370, 0)], [(190474351245, 0), (834022239, 0), (3262481,
    0), (13547, 0), (61, 0)], [(18301326, 0), (211293, 0), (1481, 0), (9, 0)], [(1332, 0), (33, 0)]], 3, 4⟩,
    1099511627776, 0, 1810404, ⟨[[(50638963192535, 0), (0, 14494154342), (10120384, 0), (321, 0)], [(7783284468, 0),
    (4522524, 0), (0, 5812), (0, 1)], [(0, 2701412), (0, 4556), (3, 0)], [(1062, 0), (3, 0)]], 3, 4⟩, 68719476736,
    171402, 4277345353810693026119471702771014600637483097902882775474823947335469610230473063527085375663, lc0⟩))
    (.leaf ⟨2035, 16, 41, 417, 16, 1465, ⟨[[(0, 412316860416)], [(352187318272, 0)]], 3, 4⟩, ⟨[[(210711385388, 0),
    (3538392749905, 0), (6740656244, 0), (59980809, 0), (381280, 0)], [(128408452270, 0), (1146442041, 0), (9184864,
    0), (78198, 0), (732, 0)], [(12090687, 0), (283495, 0), (4050, 0), (52, 0), (1, 0)], [(770, 0), (40, 0), (1,
    0)]], 3, 4⟩, 1099511627776, 0, 2229118, ⟨[[(50739945447606, 0), (0, 21118604613), (22117674, 0), (946, 0), (0,
    3)], [(7659317004, 0), (6173678, 0), (0, 12494), (0, 2)], [(0, 2646207), (0, 6244), (7, 0)], [(1033, 0), (5,
    0)]], 3, 4⟩, 68719476736, 147234,
    3105387840107446347841036423981205776886484164849596632133207659279091292671340596309452957559, lc0⟩))))
theorem c14 : checkC job ⟨6, 8, 8, 10, 9, 13⟩ 1 25 lims t14 752 48 32 57 3 256 = true := by decide +kernel

def t15 : CTree :=
  .sy (.sx (.sy (.sx (.out ⟨1015, 16, 40, 2396, 16, 1549, ⟨[[], [(343597383680, 0)]], 1, 1⟩, ⟨[[(306361709504, 0),
    (0, 3629247623939)], [(0, 118327960348), (0, 964549226)]], 1, 1⟩, 1099511627776, 0, 73763706811, ⟨[], 0, 0⟩, 0,
    0, 0, lc0⟩ 0 1 405636553982) (.sy (.out ⟨1045, 16, 40, 3529, 16, 2286, ⟨[[], [(343597383680, 0)]], 1, 1⟩, ⟨[[(0,
    514034380144), (0, 2735400448290)], [(0, 174880243600), (0, 723159088)]], 1, 1⟩, 1099511627776, 0, 50079393005,
    ⟨[], 0, 0⟩, 0, 0, 0, lc0⟩ 0 1 261986113902) (.sx (.out ⟨2101, 16, 81, 4675, 16, 3038, ⟨[[(0, 68719476736)],
    [(347892350976, 0)]], 1, 1⟩, ⟨[[(0, 505469995775), (0, 3644470467714)], [(0, 118729857050), (0, 497287575)]], 1,
    1⟩, 1099511627776, 0, 37692075422, ⟨[], 0, 0⟩, 0, 0, 0, lc0⟩ 0 1 172652337187) (.leaf ⟨4208, 16, 82, 810, 16,
    3058, ⟨[[(0, 412316860416)], [(352187318272, 0)]], 3, 4⟩, ⟨[[(0, 486313558909), (3716978118670, 0), (2994118945,
    0), (13646914, 0), (38100, 0)], [(120360706839, 0), (510188239, 0), (1900722, 0), (7368, 0), (30, 0)], [(4430347,
    0), (50427, 0), (333, 0), (2, 0)], [(48, 0), (2, 0)]], 3, 4⟩, 1099511627776, 0, 238531, ⟨[[(51873908028665, 0),
    (0, 10516226697), (4866672, 0), (119, 0)], [(3571520188, 0), (1446700, 0), (0, 1312)], [(0, 571142), (0, 687)],
    [(100, 0)]], 3, 4⟩, 68719476736, 58200,
    4313755041443997474688029320443906073689556706297345166303326713767996198194837682118975400410, lc0⟩)))) (.sx
    (.sy (.out ⟨1015, 16, 40, 3464, 16, 2253, ⟨[[], [(343597383680, 0)]], 1, 1⟩, ⟨[[(0, 426066191087), (0,
    2673992118883)], [(0, 178627909926), (0, 748550600)]], 1, 1⟩, 1099511627776, 0, 54228481069, ⟨[], 0, 0⟩, 0, 0, 0,
    lc0⟩ 0 1 199981836260) (.sx (.sy (.out ⟨2040, 16, 81, 6881, 16, 4485, ⟨[[(206158430208, 0)], [(347892350976,
    0)]], 1, 1⟩, ⟨[[(0, 28624699209), (0, 2662059205916)], [(0, 180510279919), (0, 381249262)]], 1, 1⟩,
    1099511627776, 0, 27091987699, ⟨[], 0, 0⟩, 0, 0, 0, lc0⟩ 0 1 148528701574) (.leaf ⟨4115, 16, 82, 1218, 16, 4527,
    ⟨[[(412316860416, 0)], [(352187318272, 0)]], 3, 4⟩, ⟨[[(0, 124466893901), (2699966423385, 0), (1103785095, 0),
    (2502163, 0), (3576, 0)], [(184535647869, 0), (393555418, 0), (740937, 0), (1462, 0), (3, 0)], [(7542912, 0),
    (42936, 0), (144, 0)], [(160, 0), (2, 0)]], 3, 4⟩, 1099511627776, 0, 358689, ⟨[[(51401543877661, 0), (0,
    7112663551), (2279971, 0), (37, 0)], [(3700358244, 0), (1044169, 0), (0, 632)], [(0, 609667), (0, 506)], [(111,
    0)]], 3, 4⟩, 68719476736, 33295,
    4257696801457503876788706619676613383578812637109997206967362009436707102498743127312184177320, lc0⟩)) (.leaf
    ⟨4146, 16, 82, 822, 16, 3033, ⟨[[(137438953472, 0)], [(352187318272, 0)]], 3, 4⟩, ⟨[[(0, 221930165751),
    (3659644423656, 0), (3089002530, 0), (13937813, 0), (40409, 0)], [(123805285267, 0), (532352337, 0), (2024143,
    0), (8057, 0), (34, 0)], [(4996541, 0), (57234, 0), (387, 0), (2, 0)], [(94, 0), (3, 0)]], 3, 4⟩, 1099511627776,
    0, 297545, ⟨[[(51452817943542, 0), (0, 10508549506), (5038225, 0), (119, 0)], [(3671847923, 0), (1495950, 0), (0,
    1385)], [(0, 603809), (0, 726)], [(110, 0)]], 3, 4⟩, 68719476736, 64783,
    3531886530354360442385818741701046660194946072743211130144923821248715019727447523294776286310, lc0⟩))) (.leaf
    ⟨2096, 16, 41, 407, 16, 1491, ⟨[[(137438953472, 0)], [(352187318272, 0)]], 3, 4⟩, ⟨[[(8217815208, 0),
    (3655059786450, 0), (6399956715, 0), (57471130, 0), (338310, 0)], [(121543126107, 0), (1054792110, 0), (8105871,
    0), (65098, 0), (556, 0)], [(9561300, 0), (220565, 0), (2992, 0), (35, 0)], [(283, 0), (19, 0)]], 3, 4⟩,
    1099511627776, 0, 2821725, ⟨[[(51558802206038, 0), (0, 21119752195), (20596286, 0), (951, 0), (0, 2)],
    [(7250821111, 0), (5755980, 0), (0, 11185), (0, 1)], [(0, 2372124), (0, 5587), (6, 0)], [(856, 0), (4, 0)]], 3,
    4⟩, 68719476736, 94447,
    3902615841633761556295986432119818122044831533228263700407779651470752501718881708357409124386, lc0⟩))) (.sy
    (.leaf ⟨1045, 16, 20, 299, 16, 1107, ⟨[[], [(343597383680, 0)]], 3, 4⟩, ⟨[[(0, 142149570452), (2767100989099, 0),
    (4825471392, 0), (43405518, 0), (250917, 0)], [(175076072809, 0), (1513277417, 0), (11535223, 0), (91201, 0),
    (761, 0)], [(24930722, 0), (574970, 0), (7660, 0), (86, 0), (1, 0)], [(435, 0), (64, 0), (2, 0)]], 3, 4⟩,
    1099511627776, 0, 17731134, ⟨[[(51978871013737, 0), (0, 28334549490), (36427241, 0), (2247, 0), (0, 6)],
    [(14378737798, 0), (14784505, 0), (0, 39513), (0, 7)], [(0, 9397165), (0, 28983), (43, 0)], [(6690, 0), (41,
    0)]], 3, 4⟩, 68719476736, 746810,
    4767029537871224630363254089980816047481554626863789323632919019766234493067750807587070039142, lc0⟩) (.leaf
    ⟨1045, 16, 20, 302, 16, 1064, ⟨[[], [(343597383680, 0)]], 3, 4⟩, ⟨[[(0, 71183787067), (2719999595148, 0),
    (5445365704, 0), (48243960, 0), (306258, 0)], [(177421526701, 0), (1597695090, 0), (12841435, 0), (108403, 0),
    (1018, 0)], [(27562663, 0), (651016, 0), (9136, 0), (117, 0), (2, 0)], [(858, 0), (87, 0), (3, 0)]], 3, 4⟩,
    1099511627776, 0, 20477684, ⟨[[(51556476485739, 0), (0, 28325615417), (39531435, 0), (2023, 0), (0, 10)],
    [(14594374970, 0), (14126750, 0), (0, 43129), (0, 9)], [(0, 9827949), (0, 28799), (46, 0)], [(7297, 0), (41,
    0)]], 3, 4⟩, 68719476736, 838360,
    4443784234378681128823371688441535446760201113274759926228853471632639785617593703642507859762, lc0⟩))) (.sx (.sy
    (.leaf ⟨1015, 16, 20, 302, 16, 1069, ⟨[[], [(343597383680, 0)]], 3, 4⟩, ⟨[[(302391598570, 0), (2640819000782, 0),
    (5069237113, 0), (45074304, 0), (283582, 0)], [(182289905169, 0), (1627198797, 0), (12989471, 0), (109458, 0),
    (1014, 0)], [(31365897, 0), (736345, 0), (10395, 0), (131, 0), (2, 0)], [(2658, 0), (159, 0), (4, 0)]], 3, 4⟩,
    1099511627776, 0, 17927937, ⟨[[(51150326978900, 0), (0, 28756790061), (40477680, 0), (2311, 0), (0, 9)],
    [(15181829623, 0), (16025668, 0), (0, 45620), (0, 9)], [(0, 10475087), (0, 32776), (52, 0)], [(8068, 0), (48,
    0)]], 3, 4⟩, 68719476736, 897634,
    4792520209584233274002968128191558802344341908131505286799078589698955670019864519759580896173, lc0⟩) (.leaf
    ⟨1015, 16, 20, 304, 16, 1025, ⟨[[], [(343597383680, 0)]], 3, 4⟩, ⟨[[(0, 198921747905), (2595368228834, 0),
    (5702561956, 0), (50656259, 0), (352783, 0)], [(184620594265, 0), (1721933379, 0), (14580357, 0), (132864, 0),
    (1385, 0)], [(34699746, 0), (841041, 0), (12702, 0), (182, 0), (3, 0)], [(3641, 0), (217, 0), (7, 0)]], 3, 4⟩,
    1099511627776, 0, 19174316, ⟨[[(50726719689050, 0), (0, 28719069119), (44126264, 0), (1912, 0), (0, 14)],
    [(15412647760, 0), (15274880, 0), (0, 50091), (0, 12)], [(0, 10956604), (0, 32552), (57, 0)], [(8776, 0), (48,
    0)]], 3, 4⟩, 68719476736, 1038792,
    4731507797448576492657656191652620042934587938555016903656324232796546643730901893678769451898, lc0⟩)) (.leaf
    ⟨1045, 16, 20, 204, 16, 667, ⟨[[], [(343597383680, 0)]], 3, 4⟩, ⟨[[(0, 542092258458), (3549050538442, 0),
    (17348064094, 0), (309904381, 0), (4626494, 0)], [(120942285367, 0), (2330231349, 0), (41036502, 0), (788015, 0),
    (17795, 0)], [(21477398, 0), (1065949, 0), (33635, 0), (1057, 0), (36, 0)], [(1229, 0), (213, 0), (17, 0), (1,
    0)]], 3, 4⟩, 1099511627776, 0, 51554549, ⟨[[(50914761970043, 0), (0, 42226776733), (100858833, 0), (3490, 0), (0,
    96)], [(14901463562, 0), (19287394, 0), (0, 111512), (0, 45)], [(0, 10476889), (0, 42453), (119, 0)], [(8216, 0),
    (60, 0)]], 3, 4⟩, 68719476736, 1791017,
    4759029583828916663433503170107622369946933069587931078478415651878247707511662745312110914278, lc0⟩))
theorem c15 : checkC job ⟨6, 8, 8, 10, 9, 13⟩ 1 25 lims t15 848 48 32 57 3 256 = true := by decide +kernel

end PyX.Kron.T2c
