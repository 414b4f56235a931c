import Verif.Lemmas.T2bJob

/-!
# Temperature from pressure and enthalpy in subregion 2b, part B of the certificate
-/

namespace PyX.Kron.T2b

set_option Elab.async false

def t24 : CTree :=
  .sy (.out ⟨265, 16, 10, 666, 16, 452, ⟨[[], [(343597383680, 0)]], 1, 1⟩, ⟨[[(149745794996, 0), (0, 2479282651842)],
    [(0, 181347100951), (0, 3760917115)]], 1, 1⟩, 1099511627776, 0, 428024513812, ⟨[], 0, 0⟩, 0, 0, 0, lc0⟩ 0 1
    1088415719359) (.sx (.out ⟨515, 16, 20, 850, 16, 585, ⟨[[], [(343597383680, 0)]], 1, 1⟩, ⟨[[(0, 311913436876),
    (0, 3332224373639)], [(0, 130587095018), (0, 2951493987)]], 1, 1⟩, 1099511627776, 0, 388159778182, ⟨[], 0, 0⟩, 0,
    0, 0, lc0⟩ 0 1 1300420320699) (.out ⟨545, 16, 20, 778, 16, 543, ⟨[[], [(343597383680, 0)]], 1, 1⟩, ⟨[[(0,
    161496019497), (0, 3374502256858)], [(0, 127576090769), (0, 3136237198)]], 1, 1⟩, 1099511627776, 0, 452637879499,
    ⟨[], 0, 0⟩, 0, 0, 0, lc0⟩ 0 1 1691813539106))
theorem c24 : checkC job ⟨6, 8, 8, 10, 9, 13⟩ 3 100 lims t24 848 48 32 63 3 256 = true := by decide +kernel

def t25 : CTree :=
  .sx (.sy (.out ⟨235, 16, 10, 600, 16, 413, ⟨[[], [(343597383680, 0)]], 1, 1⟩, ⟨[[(0, 260894277681), (0,
    2236274164847)], [(0, 194315709125), (0, 4396784327)]], 1, 1⟩, 1099511627776, 0, 605877895842, ⟨[], 0, 0⟩, 0, 0,
    0, lc0⟩ 0 1 1078104204693) (.sx (.out ⟨455, 16, 20, 785, 16, 548, ⟨[[], [(343597383680, 0)]], 1, 1⟩,
    ⟨[[(270430070274, 0), (0, 3087723490383)], [(0, 143737954451), (0, 3586685741)]], 1, 1⟩, 1099511627776, 0,
    502629148046, ⟨[], 0, 0⟩, 0, 0, 0, lc0⟩ 0 1 1245071600290) (.out ⟨485, 16, 20, 696, 16, 494, ⟨[[],
    [(343597383680, 0)]], 1, 1⟩, ⟨[[(121129360659, 0), (0, 3128681944755)], [(0, 140027134016), (0, 3998011083)]], 1,
    1⟩, 1099511627776, 0, 622539629533, ⟨[], 0, 0⟩, 0, 0, 0, lc0⟩ 0 1 1623036962416))) (.sy (.out ⟨265, 16, 10, 493,
    16, 350, ⟨[[], [(343597383680, 0)]], 1, 1⟩, ⟨[[(0, 43851860575), (0, 2319893607373)], [(0, 186916086027), (0,
    5239662513)]], 1, 1⟩, 1099511627776, 0, 788550061424, ⟨[], 0, 0⟩, 0, 0, 0, lc0⟩ 0 1 1850869796712) (.sx (.out
    ⟨515, 16, 20, 610, 16, 441, ⟨[[], [(343597383680, 0)]], 1, 1⟩, ⟨[[(49898136391, 0), (0, 3177629100795)], [(0,
    135996147035), (0, 4485630739)]], 1, 1⟩, 1099511627776, 0, 769249424094, ⟨[], 0, 0⟩, 0, 0, 0, lc0⟩ 0 1
    1956592367190) (.sy (.out ⟨545, 16, 20, 814, 16, 596, ⟨[[], [(343597383680, 0)]], 1, 1⟩, ⟨[[(285561226811, 0),
    (0, 2356956078676)], [(0, 190414001850), (0, 3378755731)]], 1, 1⟩, 1099511627776, 0, 450906854119, ⟨[], 0, 0⟩, 0,
    0, 0, lc0⟩ 0 1 2192712898496) (.out ⟨545, 16, 20, 715, 16, 532, ⟨[[], [(343597383680, 0)]], 1, 1⟩, ⟨[[(0,
    270552940673), (0, 2330372382714)], [(0, 190455142240), (0, 3864535731)]], 1, 1⟩, 1099511627776, 0, 544255098049,
    ⟨[], 0, 0⟩, 0, 0, 0, lc0⟩ 0 1 2256451523124))))
theorem c25 : checkC job ⟨6, 8, 8, 10, 9, 13⟩ 3 100 lims t25 400 48 16 69 3 256 = true := by decide +kernel

def t26 : CTree :=
  .sx (.sx (.leaf ⟨35, 16, 10, 379, 16, 376, ⟨[[], [(343597383680, 0)]], 3, 4⟩, ⟨[[(373451923816, 0), (3389034670971,
    0), (0, 18812004102), (540932097, 0), (527989, 0)], [(120317744334, 0), (4479982439, 0), (109247197, 0),
    (2651236, 0), (58312, 0)], [(67525897, 0), (6728180, 0), (331670, 0), (11699, 0), (414, 0)], [(47229, 0), (6638,
    0), (536, 0), (37, 0), (2, 0)]], 3, 4⟩, 1099511627776, 0, 587874035, ⟨[[(46165128734232, 0), (0, 145382231461),
    (193857370, 0), (1680938, 0), (7317, 0)], [(50719412790, 0), (475061749, 0), (2481646, 0), (1987, 0), (0, 110)],
    [(0, 99917430), (0, 2254673), (0, 28153), (0, 227), (0, 1)], [(249196, 0), (9303, 0), (184, 0), (3, 0)]], 3, 4⟩,
    68719476736, 138693941,
    2971365618092583359490906092439564724923817354173797295253098702836395771000359021930194948588, lc0⟩) (.leaf ⟨65,
    16, 10, 342, 16, 329, ⟨[[], [(343597383680, 0)]], 3, 4⟩, ⟨[[(0, 391287858370), (3401918261070, 0), (0,
    4059102087), (832685379, 0), (11462606, 0)], [(117838960650, 0), (5246546829, 0), (170234986, 0), (5777376, 0),
    (218877, 0)], [(72349331, 0), (8179096, 0), (527104, 0), (29646, 0), (1658, 0)], [(53790, 0), (11006, 0), (1302,
    0), (114, 0), (8, 0)]], 3, 4⟩, 1099511627776, 0, 1814278685, ⟨[[(46064342356609, 0), (0, 144423808091),
    (400778270, 0), (2592367, 0), (3551, 0)], [(49781962578, 0), (442527799, 0), (1171691, 0), (0, 17451), (0, 202)],
    [(0, 101412943), (0, 2231745), (0, 22042), (0, 26), (2, 0)], [(273750, 0), (10540, 0), (202, 0), (2, 0)]], 3, 4⟩,
    68719476736, 250130785,
    1947860242234944690258509380440568340128120053220959115944680508021615536585175023480745775596, lc0⟩)) (.sx (.sx
    (.leaf ⟨175, 16, 20, 388, 16, 365, ⟨[[], [(343597383680, 0)]], 3, 4⟩, ⟨[[(0, 12037082572), (4245545625474, 0),
    (12771630045, 0), (1613176659, 0), (43734927, 0)], [(71666391703, 0), (3678492978, 0), (150791769, 0), (6848966,
    0), (343622, 0)], [(23909889, 0), (3144099, 0), (257055, 0), (18278, 0), (1183, 0)], [(10624, 0), (2612, 0),
    (346, 0), (33, 0), (3, 0)]], 3, 4⟩, 1099511627776, 0, 1390493889, ⟨[[(46114500558037, 0), (0, 115941958282),
    (381091800, 0), (1604982, 0), (0, 614)], [(24186008609, 0), (162210407, 0), (11838, 0), (0, 6743), (0, 11)], [(0,
    24635940), (0, 407048), (0, 1958), (21, 0)], [(34007, 0), (1012, 0), (12, 0)]], 3, 4⟩, 68719476736, 44676377,
    1681394490539828120046503129182188819650075152900316722728250872079714431708831727413446993511, lc0⟩) (.leaf
    ⟨205, 16, 20, 358, 16, 331, ⟨[[], [(343597383680, 0)]], 3, 4⟩, ⟨[[(0, 316605941788), (4198872947201, 0),
    (27165661081, 0), (2241671085, 0), (81906581, 0)], [(69444205840, 0), (3956786987, 0), (191465306, 0), (10367112,
    0), (599510, 0)], [(24843105, 0), (3661909, 0), (344390, 0), (27714, 0), (2058, 0)], [(12432, 0), (3306, 0),
    (471, 0), (51, 0), (5, 0)]], 3, 4⟩, 1099511627776, 0, 2983901163, ⟨[[(46081983525799, 0), (0, 116970753533),
    (496875540, 0), (1879539, 0), (0, 819)], [(23738497791, 0), (152621686, 0), (0, 236907), (0, 7674), (0, 7)], [(0,
    24135637), (0, 377650), (0, 1090), (13, 0), (0, 1)], [(33189, 0), (897, 0), (4, 0)]], 3, 4⟩, 68719476736,
    108051403, 2888891151287424946456776309518360654318162681220450994187866423827051566624502182038444399657, lc0⟩))
    (.sy (.leaf ⟨125, 16, 10, 412, 16, 378, ⟨[[], [(343597383680, 0)]], 3, 4⟩, ⟨[[(41350314039, 0), (2679547328085,
    0), (13130411299, 0), (483168875, 0), (10643968, 0)], [(160483841837, 0), (5032244019, 0), (139496653, 0),
    (4297986, 0), (141282, 0)], [(111203043, 0), (9068673, 0), (474470, 0), (21486, 0), (963, 0)], [(106872, 0),
    (15390, 0), (1219, 0), (80, 0), (5, 0)]], 3, 4⟩, 1099511627776, 0, 2083822634, ⟨[[(46800714406751, 0), (0,
    94636951536), (381078061, 0), (1013744, 0), (0, 2162)], [(44174344090, 0), (212427464, 0), (0, 591280), (0,
    11357), (0, 113)], [(0, 84341923), (0, 1007729), (0, 2704), (0, 29), (0, 1)], [(206840, 0), (3868, 0), (9, 0),
    (1, 0)]], 3, 4⟩, 68719476736, 342102730,
    1611201181613236408706393507739067809310552304236123599433147754414518802191422075097269728707, lc0⟩) (.sx (.leaf
    ⟨235, 16, 20, 530, 16, 474, ⟨[[], [(343597383680, 0)]], 3, 4⟩, ⟨[[(469190909614, 0), (3429445717309, 0),
    (24251238423, 0), (858602406, 0), (23478479, 0)], [(118015836598, 0), (4093802167, 0), (132917885, 0), (4879778,
    0), (195796, 0)], [(53647642, 0), (4833219, 0), (293481, 0), (16337, 0), (921, 0)], [(36015, 0), (5658, 0), (545,
    0), (45, 0), (3, 0)]], 3, 4⟩, 1099511627776, 0, 974591203, ⟨[[(45483384044183, 0), (0, 69947691185), (266046675,
    0), (457528, 0), (0, 4386)], [(23915422816, 0), (84586169, 0), (0, 319604), (0, 4963), (0, 76)], [(0, 25340628),
    (0, 235500), (0, 800), (0, 12)], [(34715, 0), (472, 0), (3, 0)]], 3, 4⟩, 68719476736, 248983040,
    2044721820173104031888922472243086907512989781268488289001593900174664515924446045329348133183, lc0⟩) (.sy (.leaf
    ⟨265, 16, 20, 754, 16, 667, ⟨[[], [(343597383680, 0)]], 3, 4⟩, ⟨[[(279554914024, 0), (2646494549620, 0),
    (11993179518, 0), (219425739, 0), (3547566, 0)], [(171756921029, 0), (3265965452, 0), (60194348, 0), (1279445,
    0), (30488, 0)], [(79642785, 0), (3952601, 0), (137273, 0), (4538, 0), (148, 0)], [(54598, 0), (4862, 0), (277,
    0), (13, 0)]], 3, 4⟩, 1099511627776, 0, 562201792, ⟨[[(45793771836571, 0), (0, 45909201156), (131120096, 0),
    (33971, 0), (0, 3239)], [(22887842857, 0), (47738919, 0), (0, 220158), (0, 1932), (0, 8)], [(0, 23615254), (0,
    133106), (487, 0), (30, 0), (1, 0)], [(32612, 0), (568, 0), (17, 0), (1, 0)]], 3, 4⟩, 68719476736, 98913745,
    3230648980348678439147211736437814114490390704934952642348625337361613902047607796308688182103, lc0⟩) (.sx (.sy
    (.leaf ⟨528, 16, 41, 1501, 16, 1315, ⟨[[(0, 137438953472)], [(352187318272, 0)]], 3, 4⟩, ⟨[[(0, 141329116368),
    (2640576326181, 0), (6709240751, 0), (63169292, 0), (553030, 0)], [(180501500772, 0), (1797388846, 0), (17800398,
    0), (204920, 0), (2586, 0)], [(46815405, 0), (1225020, 0), (22974, 0), (405, 0), (7, 0)], [(18549, 0), (878, 0),
    (26, 0), (1, 0)]], 3, 4⟩, 1099511627776, 0, 76535367, ⟨[[(45289550003974, 0), (0, 22479953518), (34118309, 0),
    (0, 10115), (0, 381)], [(11510904759, 0), (11408298, 0), (0, 35330), (0, 183), (0, 1)], [(0, 6043989), (0,
    16749), (49, 0), (1, 0)], [(4422, 0), (47, 0), (1, 0)]], 3, 4⟩, 68719476736, 5322241,
    1689058976626127281510769914708419745333556964777397727420593099510268332337762298325015577282, lc0⟩) (.out ⟨595,
    16, 40, 1796, 16, 1241, ⟨[[], [(343597383680, 0)]], 1, 1⟩, ⟨[[(406693565828, 0), (0, 2574887738514)], [(0,
    181171396629), (0, 1921031684)]], 1, 1⟩, 1099511627776, 0, 222185419225, ⟨[], 0, 0⟩, 0, 0, 0, lc0⟩ 0 1
    286123857552)) (.out ⟨625, 16, 40, 1157, 16, 803, ⟨[[], [(343597383680, 0)]], 1, 1⟩, ⟨[[(0, 359042841404), (0,
    3516891303414)], [(0, 119952643297), (0, 2694993428)]], 1, 1⟩, 1099511627776, 0, 384590137542, ⟨[], 0, 0⟩, 0, 0,
    0, lc0⟩ 0 1 437993400190))))))
theorem c26 : checkC job ⟨6, 8, 8, 10, 9, 13⟩ 3 100 lims t26 80 48 8 39 3 128 = true := by decide +kernel

def t27 : CTree :=
  .sx (.sx (.leaf ⟨55, 16, 20, 500, 16, 477, ⟨[[], [(343597383680, 0)]], 3, 4⟩, ⟨[[(0, 76787865296), (3910444587495,
    0), (0, 15885874210), (629665970, 0), (2429840, 0)], [(92661488219, 0), (3535157095, 0), (91545332, 0), (2288181,
    0), (56589, 0)], [(36476368, 0), (3549097, 0), (177285, 0), (7041, 0), (301, 0)], [(16810, 0), (2518, 0), (235,
    0), (18, 0), (1, 0)]], 3, 4⟩, 1099511627776, 0, 289665356, ⟨[[(43569372239365, 0), (0, 112387149212), (161370747,
    0), (1047072, 0), (2921, 0)], [(30335978986, 0), (237188901, 0), (943199, 0), (0, 575), (0, 35)], [(0, 37930582),
    (0, 725141), (0, 7407), (0, 45)], [(60557, 0), (1893, 0), (31, 0)]], 3, 4⟩, 68719476736, 33463820,
    1716244909954578417685773958402976950077124506097022568986424182149461082477606687581558909199, lc0⟩) (.leaf ⟨85,
    16, 20, 467, 16, 438, ⟨[[], [(343597383680, 0)]], 3, 4⟩, ⟨[[(0, 243886276778), (3934706792398, 0), (0,
    4784608598), (858157676, 0), (10986158, 0)], [(91977498153, 0), (3947707945, 0), (123068883, 0), (3972610, 0),
    (146367, 0)], [(38516785, 0), (4122633, 0), (254443, 0), (14054, 0), (778, 0)], [(19996, 0), (3845, 0), (443, 0),
    (38, 0), (3, 0)]], 3, 4⟩, 1099511627776, 0, 670627796, ⟨[[(43552406615200, 0), (0, 111623068165), (249308436, 0),
    (1359095, 0), (1834, 0)], [(29957557626, 0), (226125086, 0), (587643, 0), (0, 4766), (0, 51)], [(0, 38250064),
    (0, 722771), (0, 6481), (0, 20)], [(65047, 0), (2098, 0), (34, 0)]], 3, 4⟩, 68719476736, 54598713,
    1374019405225601146214315573138176972689119232090841600391179789783160466571398127658889132535, lc0⟩)) (.sx
    (.leaf ⟨115, 16, 20, 426, 16, 393, ⟨[[], [(343597383680, 0)]], 3, 4⟩, ⟨[[(365631181082, 0), (3908091732604, 0),
    (8829208332, 0), (1264831656, 0), (31374997, 0)], [(89719713274, 0), (4366927637, 0), (168057949, 0), (7196193,
    0), (347982, 0)], [(40716874, 0), (5005663, 0), (388551, 0), (26806, 0), (1677, 0)], [(25460, 0), (5809, 0),
    (743, 0), (67, 0), (5, 0)]], 3, 4⟩, 1099511627776, 0, 1483848655, ⟨[[(43614644438038, 0), (0, 112723115168),
    (360487301, 0), (1679233, 0), (0, 240)], [(29303209918, 0), (213201196, 0), (184628, 0), (0, 8344), (0, 33)],
    [(0, 37525591), (0, 688761), (0, 4646), (21, 0), (1, 0)], [(66878, 0), (2194, 0), (33, 0)]], 3, 4⟩, 68719476736,
    76368400, 1418751176633180085001002920670740163208203922409909895944051613983967383061177317813907515972, lc0⟩)
    (.sy (.leaf ⟨145, 16, 20, 643, 16, 590, ⟨[[], [(343597383680, 0)]], 3, 4⟩, ⟨[[(504299449193, 0), (3231991118664,
    0), (7544025742, 0), (346194712, 0), (5561920, 0)], [(136041881418, 0), (3606408695, 0), (79448115, 0), (1974855,
    0), (53225, 0)], [(60410705, 0), (4098180, 0), (179199, 0), (6788, 0), (229, 0)], [(38461, 0), (4738, 0), (320,
    0), (16, 0), (1, 0)]], 3, 4⟩, 1099511627776, 0, 452401108, ⟨[[(44217402553921, 0), (0, 70073065820), (165329887,
    0), (426715, 0), (0, 165)], [(27627299295, 0), (117896306, 0), (0, 29702), (0, 2007), (1, 0)], [(0, 33352799),
    (0, 353991), (0, 973), (9, 0)], [(56978, 0), (1098, 0), (8, 0)]], 3, 4⟩, 68719476736, 17946799,
    1164401555637112009678073122816240382133395290668873482150082309370079198404391954698537632363, lc0⟩) (.leaf
    ⟨145, 16, 20, 592, 16, 528, ⟨[[], [(343597383680, 0)]], 3, 4⟩, ⟨[[(0, 95409176758), (3012051613484, 0),
    (13723121461, 0), (486809461, 0), (10542296, 0)], [(144125048289, 0), (4322529206, 0), (116667366, 0), (3540460,
    0), (109830, 0)], [(83477912, 0), (6476650, 0), (332317, 0), (14400, 0), (556, 0)], [(74142, 0), (9877, 0), (735,
    0), (42, 0), (2, 0)]], 3, 4⟩, 1099511627776, 0, 1261514376, ⟨[[(42979351067501, 0), (0, 70975790636), (235443959,
    0), (566714, 0), (0, 752)], [(29787509452, 0), (128271411, 0), (0, 170092), (0, 2584), (0, 3)], [(0, 40178149),
    (0, 424310), (0, 505), (14, 0)], [(79736, 0), (1491, 0), (4, 0)]], 3, 4⟩, 68719476736, 64395807,
    1644294832412861479743942128132469162247200381285419809883792953457875656778302266773878531627, lc0⟩)))
theorem c27 : checkC job ⟨6, 8, 8, 10, 9, 13⟩ 3 100 lims t27 112 48 16 45 3 128 = true := by decide +kernel

def t28 : CTree :=
  .sx (.sy (.leaf ⟨175, 16, 20, 584, 16, 525, ⟨[[], [(343597383680, 0)]], 3, 4⟩, ⟨[[(0, 418607499553),
    (3221797382326, 0), (15260224060, 0), (547377830, 0), (12051435, 0)], [(132442924582, 0), (4045588265, 0),
    (110887650, 0), (3420423, 0), (110148, 0)], [(65573727, 0), (5183944, 0), (270208, 0), (12141, 0), (511, 0)],
    [(48789, 0), (6679, 0), (518, 0), (32, 0), (2, 0)]], 3, 4⟩, 1099511627776, 0, 787200107, ⟨[[(44158390791254, 0),
    (0, 69983275691), (225460304, 0), (518110, 0), (0, 504)], [(27073248953, 0), (108531107, 0), (0, 166935), (0,
    2167), (0, 5)], [(0, 32473353), (0, 317021), (0, 435), (1, 0)], [(55444, 0), (904, 0)]], 3, 4⟩, 68719476736,
    60506088, 1513699948052499825434234372016148833918578739665456258486970454475663780595661868183486280994, lc0⟩)
    (.sx (.leaf ⟨343, 16, 41, 701, 16, 615, ⟨[[(412316860416, 0)], [(352187318272, 0)]], 3, 4⟩, ⟨[[(0, 79537567307),
    (3914779547833, 0), (28150301861, 0), (973897940, 0), (26114596, 0)], [(91690035025, 0), (3164956115, 0),
    (104100654, 0), (3790219, 0), (139884, 0)], [(29852273, 0), (2672768, 0), (161485, 0), (8450, 0), (410, 0)],
    [(15215, 0), (2305, 0), (208, 0), (15, 0), (1, 0)]], 3, 4⟩, 1099511627776, 0, 513218258, ⟨[[(42976044636379, 0),
    (0, 54614647879), (181099555, 0), (276601, 0), (0, 1904)], [(14233691907, 0), (44739563, 0), (0, 98135), (0,
    1165), (0, 20)], [(0, 9227759), (0, 71765), (0, 123), (0, 3)], [(8574, 0), (92, 0), (0, 1)]], 3, 4⟩, 68719476736,
    71945049, 1543414777096205081447448437795146883417379928182081154990194056833633185597118876655608799458, lc0⟩)
    (.sy (.leaf ⟨374, 16, 41, 1083, 16, 947, ⟨[[(137438953472, 0)], [(352187318272, 0)]], 3, 4⟩, ⟨[[(272542250046,
    0), (3183659293302, 0), (13070395448, 0), (230198264, 0), (3334885, 0)], [(142520075564, 0), (2588000078, 0),
    (45562468, 0), (891947, 0), (17902, 0)], [(46390712, 0), (2190828, 0), (70921, 0), (2025, 0), (53, 0)], [(23748,
    0), (1919, 0), (95, 0), (4, 0)]], 3, 4⟩, 1099511627776, 0, 168253178, ⟨[[(43285931323172, 0), (0, 34071505861),
    (75691945, 0), (57320, 0), (0, 595)], [(13778457705, 0), (25978829, 0), (0, 50091), (0, 463), (0, 6)], [(0,
    8642889), (0, 42491), (0, 97), (0, 2)], [(7442, 0), (42, 0)]], 3, 4⟩, 68719476736, 13762602,
    1250326910118129082633035175244470507486564670375736166965419924246127324124001916064361608860, lc0⟩) (.sx (.leaf
    ⟨733, 16, 82, 1328, 16, 1146, ⟨[[(0, 137438953472)], [(352187318272, 0)]], 3, 4⟩, ⟨[[(324970086201, 0),
    (3984400387054, 0), (20019428235, 0), (363563347, 0), (5802955, 0)], [(94976969104, 0), (1873273684, 0),
    (36820927, 0), (792950, 0), (17295, 0)], [(18109871, 0), (929514, 0), (33033, 0), (1024, 0), (29, 0)], [(5550,
    0), (485, 0), (26, 0), (1, 0)]], 3, 4⟩, 1099511627776, 0, 55861522, ⟨[[(42704680812618, 0), (0, 26484234187),
    (53066683, 0), (4338, 0), (0, 652)], [(7140481263, 0), (10273901, 0), (0, 26286), (0, 266), (0, 3)], [(0,
    2365828), (0, 9761), (0, 31)], [(1037, 0), (3, 0)]], 3, 4⟩, 68719476736, 8844226,
    1749811009068498224238457113872605672389982141758838172146343110061047693066698033247721148546, lc0⟩) (.leaf
    ⟨764, 16, 82, 1275, 16, 1093, ⟨[[(0, 412316860416)], [(352187318272, 0)]], 3, 4⟩, ⟨[[(0, 84598786772),
    (3980250924130, 0), (22778558864, 0), (429322120, 0), (7410011, 0)], [(94055002698, 0), (1970637306, 0),
    (41913045, 0), (974931, 0), (22979, 0)], [(18922328, 0), (1035696, 0), (39659, 0), (1319, 0), (41, 0)], [(6200,
    0), (579, 0), (32, 0), (1, 0)]], 3, 4⟩, 1099511627776, 0, 77405990, ⟨[[(42696850492022, 0), (0, 26481312836),
    (56837690, 0), (0, 42827), (0, 1375)], [(7079687404, 0), (9541045, 0), (0, 41513), (0, 494), (0, 6)], [(0,
    2359921), (0, 10683), (0, 52), (0, 1)], [(979, 0), (3, 0)]], 3, 4⟩, 68719476736, 17608328,
    3196044159503021270442400319770725755857273239835139444473447768083960014504622975643074572455, lc0⟩))))) (.sy
    (.sy (.leaf ⟨205, 16, 20, 795, 16, 706, ⟨[[], [(343597383680, 0)]], 3, 4⟩, ⟨[[(0, 517713547677), (2410072052923,
    0), (8306788658, 0), (145853729, 0), (1956489, 0)], [(187001701388, 0), (3201693270, 0), (51533900, 0), (934962,
    0), (18071, 0)], [(96941508, 0), (4310814, 0), (129634, 0), (3508, 0), (93, 0)], [(76315, 0), (5865, 0), (274,
    0), (11, 0)]], 3, 4⟩, 1099511627776, 0, 764106743, ⟨[[(44473102646651, 0), (0, 47415202024), (126792620, 0),
    (164079, 0), (0, 888)], [(25908902840, 0), (65715406, 0), (0, 143514), (0, 1500), (0, 18)], [(0, 29938460), (0,
    194691), (0, 478), (0, 9)], [(46533, 0), (402, 0), (0, 1)]], 3, 4⟩, 68719476736, 45235068,
    1225425797603026687222390683035771629117582038659209888638039280272749990003129154746030924858, lc0⟩) (.sx (.leaf
    ⟨405, 16, 41, 1085, 16, 953, ⟨[[(0, 137438953472)], [(352187318272, 0)]], 3, 4⟩, ⟨[[(0, 422910773236),
    (3288781002551, 0), (13221397854, 0), (233959951, 0), (3401890, 0)], [(136565324142, 0), (2465098957, 0),
    (42932684, 0), (840750, 0), (17265, 0)], [(40473515, 0), (1902147, 0), (61503, 0), (1787, 0), (49, 0)], [(18652,
    0), (1516, 0), (76, 0), (3, 0)]], 3, 4⟩, 1099511627776, 0, 124154598, ⟨[[(43867596263015, 0), (0, 33803789043),
    (72417177, 0), (53397, 0), (0, 555)], [(13148390463, 0), (23816910, 0), (0, 48945), (0, 443), (0, 5)], [(0,
    7816130), (0, 37765), (0, 96), (0, 1)], [(6216, 0), (35, 0)]], 3, 4⟩, 68719476736, 12204459,
    1261623368253259199658839608622782326759986864070755215749472879104187926102858505083463805052, lc0⟩) (.leaf
    ⟨436, 16, 41, 1020, 16, 886, ⟨[[(0, 412316860416)], [(352187318272, 0)]], 3, 4⟩, ⟨[[(0, 244234328078),
    (3295239068022, 0), (16721387725, 0), (310784381, 0), (5216183, 0)], [(134707937627, 0), (2675288340, 0),
    (53200254, 0), (1196485, 0), (27850, 0)], [(43263345, 0), (2255726, 0), (83318, 0), (2757, 0), (80, 0)], [(22093,
    0), (2024, 0), (115, 0), (5, 0)]], 3, 4⟩, 1099511627776, 0, 187521042, ⟨[[(43876719797802, 0), (0, 33744388080),
    (82557557, 0), (0, 18134), (0, 2067)], [(12933437498, 0), (21462715, 0), (0, 93166), (0, 1130), (0, 14)], [(0,
    7714502), (0, 40539), (0, 170), (0, 2)], [(5836, 0), (40, 0)]], 3, 4⟩, 68719476736, 36508182,
    3366935693834761209963851195763041834775203375542659926092198718708638411285084882847508714787, lc0⟩))) (.sy (.sx
    (.sx (.leaf ⟨794, 16, 82, 1316, 16, 1140, ⟨[[(412316860416, 0)], [(352187318272, 0)]], 3, 4⟩, ⟨[[(0,
    523764649081), (4071404318497, 0), (20172726321, 0), (368926467, 0), (5958507, 0)], [(90041149329, 0),
    (1767407497, 0), (34581789, 0), (752817, 0), (16685, 0)], [(15666037, 0), (803862, 0), (28845, 0), (912, 0), (26,
    0)], [(4359, 0), (387, 0), (21, 0), (1, 0)]], 3, 4⟩, 1099511627776, 0, 50266989, ⟨[[(43264369245965, 0), (0,
    26553724149), (51964672, 0), (1810, 0), (0, 673)], [(6815812140, 0), (9454109, 0), (0, 26434), (0, 259), (0, 3)],
    [(0, 2144811), (0, 8900), (0, 31)], [(871, 0), (3, 0)]], 3, 4⟩, 68719476736, 9191301,
    1931414574735523858605006299450247907171051729643665294151775639662553269300474719443609433305, lc0⟩) (.leaf
    ⟨825, 16, 82, 1268, 16, 1092, ⟨[[(137438953472, 0)], [(352187318272, 0)]], 3, 4⟩, ⟨[[(0, 227548849088),
    (4069945443306, 0), (22777024702, 0), (431457053, 0), (7493682, 0)], [(89252288335, 0), (1851810792, 0),
    (39036652, 0), (913979, 0), (21508, 0)], [(16299208, 0), (888463, 0), (34224, 0), (1148, 0), (33, 0)], [(4826,
    0), (456, 0), (26, 0), (1, 0)]], 3, 4⟩, 1099511627776, 0, 65591419, ⟨[[(43273452295822, 0), (0, 26600991234),
    (55203107, 0), (0, 39941), (0, 1311)], [(6752390661, 0), (8786637, 0), (0, 39262), (0, 438), (0, 5)], [(0,
    2135125), (0, 9538), (0, 43)], [(839, 0), (4, 0)]], 3, 4⟩, 68719476736, 16783299,
    3178910377140674960513110966777825046132309505708242048885163789145131549892023159319123609206, lc0⟩)) (.out
    ⟨505, 16, 40, 1145, 16, 802, ⟨[[], [(343597383680, 0)]], 1, 1⟩, ⟨[[(298065476834, 0), (0, 3199558888803)], [(0,
    138471478242), (0, 3142389398)]], 1, 1⟩, 1099511627776, 0, 432355354224, ⟨[], 0, 0⟩, 0, 0, 0, lc0⟩ 0 1
    283614125888)) (.sx (.out ⟨475, 16, 40, 1122, 16, 789, ⟨[[], [(343597383680, 0)]], 1, 1⟩, ⟨[[(0, 95384396728),
    (0, 3094921361619)], [(0, 144264941868), (0, 3334279706)]], 1, 1⟩, 1099511627776, 0, 463643984499, ⟨[], 0, 0⟩, 0,
    0, 0, lc0⟩ 0 1 265438086388) (.out ⟨505, 16, 40, 998, 16, 710, ⟨[[], [(343597383680, 0)]], 1, 1⟩, ⟨[[(0,
    297443213029), (0, 3109340439584)], [(0, 142092503596), (0, 3806616266)]], 1, 1⟩, 1099511627776, 0, 584406742576,
    ⟨[], 0, 0⟩, 0, 0, 0, lc0⟩ 0 1 487684751777))))
theorem c28 : checkC job ⟨6, 8, 8, 10, 9, 13⟩ 3 100 lims t28 368 48 32 45 3 128 = true := by decide +kernel

def t29 : CTree :=
  .sx (.sy (.sx (.leaf ⟨466, 16, 41, 1030, 16, 901, ⟨[[(412316860416, 0)], [(352187318272, 0)]], 3, 4⟩,
    ⟨[[(250686398314, 0), (3401588432516, 0), (16348807222, 0), (301625398, 0), (4990558, 0)], [(129071661345, 0),
    (2507066425, 0), (48216303, 0), (1061508, 0), (24953, 0)], [(37063487, 0), (1887443, 0), (68075, 0), (2257, 0),
    (68, 0)], [(16584, 0), (1498, 0), (85, 0), (4, 0)]], 3, 4⟩, 1099511627776, 0, 132770496, ⟨[[(44498857254427, 0),
    (0, 33708299066), (77458637, 0), (3977, 0), (0, 1479)], [(12344177310, 0), (20098034, 0), (0, 77352), (0, 815),
    (0, 9)], [(0, 6957760), (0, 34356), (0, 96)], [(5023, 0), (41, 0), (1, 0)]], 3, 4⟩, 68719476736, 26781715,
    2382081834937595130577347447745618664467129556060161830995089987788308782583225737775886482529, lc0⟩) (.sy (.leaf
    ⟨497, 16, 41, 1459, 16, 1268, ⟨[[(137438953472, 0)], [(352187318272, 0)]], 3, 4⟩, ⟨[[(235614411970, 0),
    (2532359929106, 0), (6990052857, 0), (67343668, 0), (614731, 0)], [(186398632166, 0), (1924139944, 0), (20158308,
    0), (243854, 0), (3106, 0)], [(54963644, 0), (1499770, 0), (29590, 0), (532, 0), (8, 0)], [(25587, 0), (1255, 0),
    (38, 0), (1, 0)]], 3, 4⟩, 1099511627776, 0, 125166792, ⟨[[(44655866721034, 0), (0, 22819542969), (37376760, 0),
    (0, 28089), (0, 657)], [(12044567169, 0), (12003781, 0), (0, 49919), (0, 358), (0, 2)], [(0, 6709927), (0,
    21242), (17, 0), (1, 0)], [(5101, 0), (53, 0), (1, 0)]], 3, 4⟩, 68719476736, 8072035,
    3090312602201374820758166153584658288395736360945267583723436190499795256517852593754860856378, lc0⟩) (.out ⟨565,
    16, 40, 1719, 16, 1195, ⟨[[], [(343597383680, 0)]], 1, 1⟩, ⟨[[(0, 503813563369), (0, 2473016478932)], [(0,
    187285306470), (0, 2068924005)]], 1, 1⟩, 1099511627776, 0, 253441347317, ⟨[], 0, 0⟩, 0, 0, 0, lc0⟩ 0 1
    315323135965))) (.sx (.sy (.out ⟨535, 16, 40, 1753, 16, 1217, ⟨[[], [(343597383680, 0)]], 1, 1⟩,
    ⟨[[(441266102315, 0), (0, 2410418343823)], [(0, 191043257769), (0, 2036808985)]], 1, 1⟩, 1099511627776, 0,
    251089174877, ⟨[], 0, 0⟩, 0, 0, 0, lc0⟩ 0 1 217907697196) (.out ⟨535, 16, 40, 1647, 16, 1152, ⟨[[],
    [(343597383680, 0)]], 1, 1⟩, ⟨[[(72825491876, 0), (0, 2370421238569)], [(0, 193230611221), (0, 2213366055)]], 1,
    1⟩, 1099511627776, 0, 286797770788, ⟨[], 0, 0⟩, 0, 0, 0, lc0⟩ 0 1 337566670430)) (.out ⟨565, 16, 40, 1067, 16,
    751, ⟨[[], [(343597383680, 0)]], 1, 1⟩, ⟨[[(0, 111661308770), (0, 3313973510258)], [(0, 130778411368), (0,
    3253116583)]], 1, 1⟩, 1099511627776, 0, 484651729207, ⟨[], 0, 0⟩, 0, 0, 0, lc0⟩ 0 1 502918769931))) (.sy (.sx
    (.out ⟨595, 16, 40, 1110, 16, 776, ⟨[[], [(343597383680, 0)]], 1, 1⟩, ⟨[[(0, 314322389240), (0, 3415196517304)],
    [(0, 125291918008), (0, 2967467755)]], 1, 1⟩, 1099511627776, 0, 433681444544, ⟨[], 0, 0⟩, 0, 0, 0, lc0⟩ 0 1
    479862351898) (.sy (.out ⟨625, 16, 40, 1551, 16, 1091, ⟨[[], [(343597383680, 0)]], 1, 1⟩, ⟨[[(356513189324, 0),
    (0, 2553559675902)], [(0, 181447108185), (0, 2305537051)]], 1, 1⟩, 1099511627776, 0, 294218858107, ⟨[], 0, 0⟩, 0,
    0, 0, lc0⟩ 0 1 644565483312) (.out ⟨625, 16, 40, 1433, 16, 1017, ⟨[[], [(343597383680, 0)]], 1, 1⟩, ⟨[[(0,
    258084073133), (0, 2512137600019)], [(0, 183219440238), (0, 2563827543)]], 1, 1⟩, 1099511627776, 0, 345072420586,
    ⟨[], 0, 0⟩, 0, 0, 0, lc0⟩ 0 1 759356947369))) (.sx (.sy (.out ⟨595, 16, 40, 1461, 16, 1035, ⟨[[], [(343597383680,
    0)]], 1, 1⟩, ⟨[[(0, 246036527028), (0, 2451735350208)], [(0, 187250221867), (0, 2534408266)]], 1, 1⟩,
    1099511627776, 0, 342622745873, ⟨[], 0, 0⟩, 0, 0, 0, lc0⟩ 0 1 662426943983) (.out ⟨595, 16, 40, 1339, 16, 958,
    ⟨[[], [(343597383680, 0)]], 1, 1⟩, ⟨[[(383656480114, 0), (0, 2409194462307)], [(0, 188782178237), (0,
    2832404096)]], 1, 1⟩, 1099511627776, 0, 403853729471, ⟨[], 0, 0⟩, 0, 0, 0, lc0⟩ 0 1 773908296324)) (.sy (.out
    ⟨625, 16, 40, 1310, 16, 939, ⟨[[], [(343597383680, 0)]], 1, 1⟩, ⟨[[(0, 196161258259), (0, 2471471943038)], [(0,
    184837625048), (0, 2882719009)]], 1, 1⟩, 1099511627776, 0, 409404607655, ⟨[], 0, 0⟩, 0, 0, 0, lc0⟩ 0 1
    867594929869) (.out ⟨625, 16, 40, 1181, 16, 856, ⟨[[], [(343597383680, 0)]], 1, 1⟩, ⟨[[(317283345393, 0), (0,
    2429257552230)], [(0, 186109288582), (0, 3280082805)]], 1, 1⟩, 1099511627776, 0, 494370441601, ⟨[], 0, 0⟩, 0, 0,
    0, lc0⟩ 0 1 964126273710))))
theorem c29 : checkC job ⟨6, 8, 8, 10, 9, 13⟩ 3 100 lims t29 464 48 32 87 3 256 = true := by decide +kernel

def t30 : CTree :=
  .sy (.sx (.sy (.out ⟨535, 16, 40, 1536, 16, 1083, ⟨[[], [(343597383680, 0)]], 1, 1⟩, ⟨[[(0, 13302073909), (0,
    2328899081957)], [(0, 195123734550), (0, 2422370145)]], 1, 1⟩, 1099511627776, 0, 330168915140, ⟨[], 0, 0⟩, 0, 0,
    0, lc0⟩ 0 1 451696610038) (.out ⟨535, 16, 40, 1422, 16, 1011, ⟨[[], [(343597383680, 0)]], 1, 1⟩, ⟨[[(0,
    321512114429), (0, 2288218782774)], [(0, 196904112497), (0, 2674759162)]], 1, 1⟩, 1099511627776, 0, 383934001930,
    ⟨[], 0, 0⟩, 0, 0, 0, lc0⟩ 0 1 555375471838)) (.sy (.out ⟨565, 16, 40, 1377, 16, 982, ⟨[[], [(343597383680, 0)]],
    1, 1⟩, ⟨[[(0, 410435971388), (0, 2348098557304)], [(0, 192805516861), (0, 2761942951)]], 1, 1⟩, 1099511627776, 0,
    395187537277, ⟨[], 0, 0⟩, 0, 0, 0, lc0⟩ 0 1 664672044805) (.out ⟨565, 16, 40, 1255, 16, 904, ⟨[[],
    [(343597383680, 0)]], 1, 1⟩, ⟨[[(113097161626, 0), (0, 2307560553678)], [(0, 194342447061), (0, 3104456073)]], 1,
    1⟩, 1099511627776, 0, 470286368336, ⟨[], 0, 0⟩, 0, 0, 0, lc0⟩ 0 1 763317556822))) (.sx (.out ⟨535, 16, 40, 871,
    16, 628, ⟨[[], [(343597383680, 0)]], 1, 1⟩, ⟨[[(0, 59773032988), (0, 3121141526659)], [(0, 139575396223), (0,
    4438105940)]], 1, 1⟩, 1099511627776, 0, 762398061259, ⟨[], 0, 0⟩, 0, 0, 0, lc0⟩ 0 1 696679691299) (.sy (.sx (.out
    ⟨1129, 16, 81, 1669, 16, 1210, ⟨[[(0, 68719476736)], [(347892350976, 0)]], 1, 1⟩, ⟨[[(0, 400924519164), (0,
    3217559287763)], [(0, 139671196290), (0, 2409854551)]], 1, 1⟩, 1099511627776, 0, 355841870879, ⟨[], 0, 0⟩, 0, 0,
    0, lc0⟩ 0 1 797273756737) (.out ⟨1159, 16, 81, 1540, 16, 1125, ⟨[[(343597383680, 0)], [(347892350976, 0)]], 1,
    1⟩, ⟨[[(0, 308074572407), (0, 3225394253204)], [(0, 138314779891), (0, 2651171396)]], 1, 1⟩, 1099511627776, 0,
    413391983311, ⟨[], 0, 0⟩, 0, 0, 0, lc0⟩ 0 1 885480595762)) (.sx (.out ⟨1129, 16, 81, 1491, 16, 1093, ⟨[[(0,
    68719476736)], [(347892350976, 0)]], 1, 1⟩, ⟨[[(0, 289953667776), (0, 3172971830966)], [(0, 141022536209), (0,
    2829100889)]], 1, 1⟩, 1099511627776, 0, 450523926713, ⟨[], 0, 0⟩, 0, 0, 0, lc0⟩ 0 1 868016922427) (.out ⟨1159,
    16, 81, 1352, 16, 1000, ⟨[[(343597383680, 0)], [(347892350976, 0)]], 1, 1⟩, ⟨[[(209928822682, 0), (0,
    3180007326163)], [(0, 139426142718), (0, 3225547950)]], 1, 1⟩, 1099511627776, 0, 554993230828, ⟨[], 0, 0⟩, 0, 0,
    0, lc0⟩ 0 1 944522800649))))
theorem c30 : checkC job ⟨6, 8, 8, 10, 9, 13⟩ 3 100 lims t30 880 48 64 93 3 256 = true := by decide +kernel

def t31 : CTree :=
  .sx (.sy (.out ⟨595, 16, 40, 1215, 16, 878, ⟨[[], [(343597383680, 0)]], 1, 1⟩, ⟨[[(34584853376, 0), (0,
    2369531290667)], [(0, 190323376102), (0, 3206938571)]], 1, 1⟩, 1099511627776, 0, 484773412707, ⟨[], 0, 0⟩, 0, 0,
    0, lc0⟩ 0 1 865535261483) (.out ⟨595, 16, 40, 1084, 16, 792, ⟨[[], [(343597383680, 0)]], 1, 1⟩, ⟨[[(0,
    148579322620), (0, 2325826852113)], [(0, 191282579105), (0, 3698399447)]], 1, 1⟩, 1099511627776, 0, 603934370452,
    ⟨[], 0, 0⟩, 0, 0, 0, lc0⟩ 0 1 942995365628)) (.sy (.sx (.sy (.out ⟨1250, 16, 81, 2282, 16, 1662,
    ⟨[[(481036337152, 0)], [(347892350976, 0)]], 1, 1⟩, ⟨[[(90938789467, 0), (0, 2431052357114)], [(0, 190677164599),
    (0, 1779786629)]], 1, 1⟩, 1099511627776, 0, 243429231548, ⟨[], 0, 0⟩, 0, 0, 0, lc0⟩ 0 1 978817742112) (.out
    ⟨1250, 16, 81, 2148, 16, 1574, ⟨[[(481036337152, 0)], [(347892350976, 0)]], 1, 1⟩, ⟨[[(432427531057, 0), (0,
    2412597675127)], [(0, 191391869851), (0, 1927803629)]], 1, 1⟩, 1099511627776, 0, 271680120656, ⟨[], 0, 0⟩, 0, 0,
    0, lc0⟩ 0 1 1015290392475)) (.out ⟨1281, 16, 81, 1407, 16, 1036, ⟨[[(0, 206158430208)], [(347892350976, 0)]], 1,
    1⟩, ⟨[[(355789885720, 0), (0, 3348194609359)], [(0, 130360795490), (0, 2810675845)]], 1, 1⟩, 1099511627776, 0,
    473922085930, ⟨[], 0, 0⟩, 0, 0, 0, lc0⟩ 0 1 1077160527402)) (.sy (.out ⟨625, 16, 40, 1225, 16, 907, ⟨[[],
    [(343597383680, 0)]], 1, 1⟩, ⟨[[(0, 20703218406), (0, 1530027323074)], [(0, 243727221594), (0, 2865417119)]], 1,
    1⟩, 1099511627776, 0, 638595358341, ⟨[], 0, 0⟩, 0, 0, 0, lc0⟩ 0 1 1079725114932) (.sx (.out ⟨1250, 16, 81, 1867,
    16, 1386, ⟨[[(481036337152, 0)], [(347892350976, 0)]], 1, 1⟩, ⟨[[(349444877979, 0), (0, 2374899120186)], [(0,
    192450527979), (0, 2358973609)]], 1, 1⟩, 1099511627776, 0, 359899035462, ⟨[], 0, 0⟩, 0, 0, 0, lc0⟩ 0 1
    1068651851215) (.out ⟨1281, 16, 81, 1678, 16, 1257, ⟨[[(0, 206158430208)], [(347892350976, 0)]], 1, 1⟩, ⟨[[(0,
    425433487112), (0, 2387154117725)], [(0, 190495875939), (0, 2769153436)]], 1, 1⟩, 1099511627776, 0, 445585250988,
    ⟨[], 0, 0⟩, 0, 0, 0, lc0⟩ 0 1 1125119952944))))
theorem c31 : checkC job ⟨6, 8, 8, 10, 9, 13⟩ 3 100 lims t31 976 48 64 183 3 512 = true := by decide +kernel

def t32 : CTree :=
  .sy (.sy (.out ⟨595, 16, 40, 1265, 16, 933, ⟨[[], [(343597383680, 0)]], 1, 1⟩, ⟨[[(206424356914, 0), (0,
    1478137259619)], [(0, 247230936292), (0, 2726382840)]], 1, 1⟩, 1099511627776, 0, 624285991637, ⟨[], 0, 0⟩, 0, 0,
    0, lc0⟩ 0 1 990297441684) (.out ⟨595, 16, 40, 1172, 16, 870, ⟨[[], [(343597383680, 0)]], 1, 1⟩, ⟨[[(14197420806,
    0), (0, 1462795053524)], [(0, 247218885475), (0, 3048318869)]], 1, 1⟩, 1099511627776, 0, 737219102378, ⟨[], 0,
    0⟩, 0, 0, 0, lc0⟩ 0 1 1012762063900)) (.sx (.out ⟨1190, 16, 81, 1207, 16, 901, ⟨[[(0, 343597383680)],
    [(347892350976, 0)]], 1, 1⟩, ⟨[[(0, 154384401582), (0, 3183748053559)], [(0, 137505215250), (0, 3802233371)]], 1,
    1⟩, 1099511627776, 0, 717745830004, ⟨[], 0, 0⟩, 0, 0, 0, lc0⟩ 0 1 1007504988076) (.sy (.sx (.out ⟨2425, 16, 162,
    2339, 16, 1753, ⟨[[(0, 68719476736)], [(347892350976, 0)]], 1, 1⟩, ⟨[[(0, 68503320948), (0, 3255535384964)], [(0,
    138286583582), (0, 2064025577)]], 1, 1⟩, 1099511627776, 0, 338631411557, ⟨[], 0, 0⟩, 0, 0, 0, lc0⟩ 0 1
    1041095074030) (.out ⟨2455, 16, 162, 2186, 16, 1647, ⟨[[(343597383680, 0)], [(347892350976, 0)]], 1, 1⟩, ⟨[[(0,
    165878564816), (0, 3261150602841)], [(0, 137327139842), (0, 2295212289)]], 1, 1⟩, 1099511627776, 0, 390278490074,
    ⟨[], 0, 0⟩, 0, 0, 0, lc0⟩ 0 1 1062811700477)) (.sx (.out ⟨2425, 16, 162, 2106, 16, 1591, ⟨[[(0, 68719476736)],
    [(347892350976, 0)]], 1, 1⟩, ⟨[[(0, 63528754583), (0, 3234217393527)], [(0, 138423338569), (0, 2479012726)]], 1,
    1⟩, 1099511627776, 0, 427695203728, ⟨[], 0, 0⟩, 0, 0, 0, lc0⟩ 0 1 1043982640034) (.out ⟨2455, 16, 162, 1938, 16,
    1473, ⟨[[(343597383680, 0)], [(347892350976, 0)]], 1, 1⟩, ⟨[[(195827467852, 0), (0, 3238157503575)], [(0,
    137222728055), (0, 2809813443)]], 1, 1⟩, 1099511627776, 0, 502083905995, ⟨[], 0, 0⟩, 0, 0, 0, lc0⟩ 0 1
    1057049014796))))
theorem c32 : checkC job ⟨6, 8, 8, 10, 9, 13⟩ 3 100 lims t32 1904 48 128 189 3 512 = true := by decide +kernel

def t33 : CTree :=
  .sy (.sx (.sy (.out ⟨1250, 16, 81, 1716, 16, 1283, ⟨[[(481036337152, 0)], [(347892350976, 0)]], 1, 1⟩,
    ⟨[[(154486239918, 0), (0, 2355490288032)], [(0, 192696275668), (0, 2700160423)]], 1, 1⟩, 1099511627776, 0,
    433781312391, ⟨[], 0, 0⟩, 0, 0, 0, lc0⟩ 0 1 1084250967219) (.out ⟨1250, 16, 81, 1553, 16, 1170, ⟨[[(481036337152,
    0)], [(347892350976, 0)]], 1, 1⟩, ⟨[[(0, 234311464338), (0, 2333885972427)], [(0, 192506780171), (0,
    3186105827)]], 1, 1⟩, 1099511627776, 0, 542101496096, ⟨[], 0, 0⟩, 0, 0, 0, lc0⟩ 0 1 1090580589889)) (.sy (.out
    ⟨1281, 16, 81, 1512, 16, 1142, ⟨[[(0, 206158430208)], [(347892350976, 0)]], 1, 1⟩, ⟨[[(0, 236397835020), (0,
    2366210415546)], [(0, 190306226435), (0, 3289928018)]], 1, 1⟩, 1099511627776, 0, 561220056665, ⟨[], 0, 0⟩, 0, 0,
    0, lc0⟩ 0 1 1128626198418) (.out ⟨1281, 16, 81, 1329, 16, 1013, ⟨[[(0, 206158430208)], [(347892350976, 0)]], 1,
    1⟩, ⟨[[(0, 67349353999), (0, 2340835642215)], [(0, 189382125861), (0, 4031510892)]], 1, 1⟩, 1099511627776, 0,
    728921219684, ⟨[], 0, 0⟩, 0, 0, 0, lc0⟩ 0 1 1118305171278))) (.sx (.sy (.out ⟨1250, 16, 81, 1375, 16, 1045,
    ⟨[[(481036337152, 0)], [(347892350976, 0)]], 1, 1⟩, ⟨[[(0, 75043752690), (0, 2311256500711)], [(0, 191871982885),
    (0, 3882481947)]], 1, 1⟩, 1099511627776, 0, 700100619849, ⟨[], 0, 0⟩, 0, 0, 0, lc0⟩ 0 1 1084943145585) (.sx (.sy
    (.out ⟨2486, 16, 162, 2633, 16, 2009, ⟨[[(0, 343597383680)], [(347892350976, 0)]], 1, 1⟩, ⟨[[(0, 62233687628),
    (0, 2334380098246)], [(0, 195520781215), (0, 2180419886)]], 1, 1⟩, 1099511627776, 0, 346806185507, ⟨[], 0, 0⟩, 0,
    0, 0, lc0⟩ 0 1 1069320591454) (.out ⟨2486, 16, 162, 2437, 16, 1869, ⟨[[(0, 343597383680)], [(347892350976, 0)]],
    1, 1⟩, ⟨[[(221898458238, 0), (0, 2327224875003)], [(0, 195268287123), (0, 2446966107)]], 1, 1⟩, 1099511627776, 0,
    396128174527, ⟨[], 0, 0⟩, 0, 0, 0, lc0⟩ 0 1 1056231654226)) (.out ⟨2516, 16, 162, 1581, 16, 1218,
    ⟨[[(68719476736, 0)], [(347892350976, 0)]], 1, 1⟩, ⟨[[(171272399064, 0), (0, 3240838761271)], [(0, 134250008962),
    (0, 3682757004)]], 1, 1⟩, 1099511627776, 0, 700676926700, ⟨[], 0, 0⟩, 0, 0, 0, lc0⟩ 0 1 1059479009383))) (.sy
    (.sx (.out ⟨2546, 16, 162, 1686, 16, 1294, ⟨[[(481036337152, 0)], [(347892350976, 0)]], 1, 1⟩, ⟨[[(82098832838,
    0), (0, 3270500321771)], [(0, 133544404381), (0, 3340516728)]], 1, 1⟩, 1099511627776, 0, 628759503900, ⟨[], 0,
    0⟩, 0, 0, 0, lc0⟩ 0 1 1090993622885) (.out ⟨2577, 16, 162, 1507, 16, 1165, ⟨[[(0, 206158430208)], [(347892350976,
    0)]], 1, 1⟩, ⟨[[(450044402, 0), (0, 3270465102496)], [(0, 131922785630), (0, 3826040361)]], 1, 1⟩, 1099511627776,
    0, 741020233684, ⟨[], 0, 0⟩, 0, 0, 0, lc0⟩ 0 1 1083156198225)) (.sx (.sy (.out ⟨2546, 16, 162, 2128, 16, 1647,
    ⟨[[(481036337152, 0)], [(347892350976, 0)]], 1, 1⟩, ⟨[[(0, 57363523878), (0, 2351584069799)], [(0, 192303638401),
    (0, 2885885921)]], 1, 1⟩, 1099511627776, 0, 474241990013, ⟨[], 0, 0⟩, 0, 0, 0, lc0⟩ 0 1 1058812160294) (.skip))
    (.skip))))
theorem c33 : checkC job ⟨6, 8, 8, 10, 9, 13⟩ 3 100 lims t33 2000 48 128 189 3 512 = true := by decide +kernel

def t34 : CTree :=
  .sx (.sx (.sx (.leaf ⟨589, 16, 41, 615, 16, 552, ⟨[[(412316860416, 0)], [(352187318272, 0)]], 3, 4⟩,
    ⟨[[(64976642865, 0), (4406953859136, 0), (34343891215, 0), (1227964335, 0), (35354372, 0)], [(63923785182, 0),
    (2304010949, 0), (77716746, 0), (2961162, 0), (127063, 0)], [(12171110, 0), (1139375, 0), (71548, 0), (4218, 0),
    (261, 0)], [(3224, 0), (536, 0), (55, 0), (5, 0)]], 3, 4⟩, 1099511627776, 0, 593814421, ⟨[[(46796410380782, 0),
    (0, 57567022090), (182048617, 0), (172658, 0), (0, 2688)], [(10437613149, 0), (27307234, 0), (0, 110338), (0,
    700), (12, 0)], [(0, 4845661), (0, 32155), (176, 0), (11, 0)], [(2942, 0), (57, 0), (2, 0)]], 3, 4⟩, 68719476736,
    89724837, 1713841981974734521682576366912161606117025981778670783345005484498042341559579414497936151675, lc0⟩)
    (.sy (.leaf ⟨620, 16, 41, 1038, 16, 932, ⟨[[(137438953472, 0)], [(352187318272, 0)]], 3, 4⟩, ⟨[[(0,
    524452982958), (3817028318522, 0), (15251420321, 0), (273178411, 0), (3976179, 0)], [(105935228813, 0),
    (1927625054, 0), (32811387, 0), (629945, 0), (13701, 0)], [(19209752, 0), (907799, 0), (28713, 0), (856, 0), (27,
    0)], [(4740, 0), (400, 0), (21, 0), (1, 0)]], 3, 4⟩, 1099511627776, 0, 39507538, ⟨[[(47127836512026, 0), (0,
    33657718674), (62704165, 0), (34402, 0), (0, 233)], [(10139954777, 0), (15120828, 0), (0, 32731), (38, 0), (5,
    0)], [(0, 4572090), (0, 15681), (132, 0), (4, 0)], [(2813, 0), (40, 0), (1, 0)]], 3, 4⟩, 68719476736, 6433648,
    1190273924711761476590501067838459780202144302058852217346656742962721461142937367467755369923, lc0⟩) (.leaf
    ⟨620, 16, 41, 978, 16, 861, ⟨[[(137438953472, 0)], [(352187318272, 0)]], 3, 4⟩, ⟨[[(266772035329, 0),
    (3726265624695, 0), (19604797629, 0), (372577816, 0), (6742364, 0)], [(109785893897, 0), (2220751276, 0),
    (44377049, 0), (1040543, 0), (27754, 0)], [(23943538, 0), (1270129, 0), (48316, 0), (1780, 0), (63, 0)], [(7552,
    0), (742, 0), (47, 0), (2, 0)]], 3, 4⟩, 1099511627776, 0, 88836362, ⟨[[(46459853691963, 0), (0, 33594060156),
    (74984220, 0), (2633, 0), (0, 847)], [(10439701893, 0), (15218696, 0), (0, 12199), (1087, 0), (24, 0)], [(0,
    4791511), (0, 2575), (711, 0), (17, 0)], [(4262, 0), (124, 0), (4, 0)]], 3, 4⟩, 68719476736, 24549614,
    3735668606300407813744492240560446444125960221270604384413644140266373526396644670569636477604, lc0⟩))) (.sx (.sy
    (.leaf ⟨651, 16, 41, 999, 16, 889, ⟨[[(0, 137438953472)], [(352187318272, 0)]], 3, 4⟩, ⟨[[(0, 401971647232),
    (3825769745232, 0), (17823897864, 0), (326702197, 0), (5323065, 0)], [(104695473417, 0), (2016206409, 0),
    (37171134, 0), (787296, 0), (19254, 0)], [(19700329, 0), (987169, 0), (34146, 0), (1146, 0), (40, 0)], [(5058,
    0), (464, 0), (27, 0), (1, 0)]], 3, 4⟩, 1099511627776, 0, 57762715, ⟨[[(47133800193111, 0), (0, 33589271388),
    (69193625, 0), (45902, 0), (31, 0)], [(9996032676, 0), (14668820, 0), (0, 6959), (923, 0), (20, 0)], [(0,
    4395404), (0, 5645), (494, 0), (12, 0)], [(3347, 0), (83, 0), (2, 0)]], 3, 4⟩, 68719476736, 12307870,
    2516950100982990457801216231390593068528557872398123197952832924673847492613940424436124315812, lc0⟩) (.out ⟨715,
    16, 40, 1179, 16, 812, ⟨[[], [(343597383680, 0)]], 1, 1⟩, ⟨[[(433675923786, 0), (0, 3726963176773)], [(0,
    108081483904), (0, 2345552554)]], 1, 1⟩, 1099511627776, 0, 343218591644, ⟨[], 0, 0⟩, 0, 0, 0, lc0⟩ 0 1
    526119000803)) (.out ⟨745, 16, 40, 689, 16, 474, ⟨[[], [(343597383680, 0)]], 1, 1⟩, ⟨[[(20761339766, 0), (0,
    4448173935183)], [(0, 61696934251), (0, 2685971317)]], 1, 1⟩, 1099511627776, 0, 805240309616, ⟨[], 0, 0⟩, 0, 0,
    0, lc0⟩ 0 1 580178853903))) (.sx (.sy (.out ⟨395, 16, 20, 864, 16, 596, ⟨[[], [(343597383680, 0)]], 1, 1⟩,
    ⟨[[(44381498520, 0), (0, 2932351713700)], [(0, 154364044438), (0, 3469342108)]], 1, 1⟩, 1099511627776, 0,
    449507721561, ⟨[], 0, 0⟩, 0, 0, 0, lc0⟩ 0 1 743035950276) (.out ⟨395, 16, 20, 748, 16, 526, ⟨[[], [(343597383680,
    0)]], 1, 1⟩, ⟨[[(0, 230672645993), (0, 2842129725065)], [(0, 157675223135), (0, 4190510549)]], 1, 1⟩,
    1099511627776, 0, 622379828268, ⟨[], 0, 0⟩, 0, 0, 0, lc0⟩ 0 1 1052938086388)) (.sy (.out ⟨425, 16, 20, 763, 16,
    535, ⟨[[], [(343597383680, 0)]], 1, 1⟩, ⟨[[(0, 6303681074), (0, 2967067125938)], [(0, 150713001685), (0,
    3908638748)]], 1, 1⟩, 1099511627776, 0, 564950127861, ⟨[], 0, 0⟩, 0, 0, 0, lc0⟩ 0 1 1161706139316) (.out ⟨425,
    16, 20, 637, 16, 457, ⟨[[], [(343597383680, 0)]], 1, 1⟩, ⟨[[(71174555502, 0), (0, 2876500352274)], [(0,
    153051987343), (0, 4938784874)]], 1, 1⟩, 1099511627776, 0, 822423119329, ⟨[], 0, 0⟩, 0, 0, 0, lc0⟩ 0 1
    1438672304170)))
theorem c34 : checkC job ⟨6, 8, 8, 10, 9, 13⟩ 3 100 lims t34 304 48 16 75 3 256 = true := by decide +kernel

def t35 : CTree :=
  .sx (.sx (.sy (.out ⟨655, 16, 40, 1205, 16, 830, ⟨[[], [(343597383680, 0)]], 1, 1⟩, ⟨[[(0, 71492517806), (0,
    3613869096217)], [(0, 114578860839), (0, 2440655115)]], 1, 1⟩, 1099511627776, 0, 338818251467, ⟨[], 0, 0⟩, 0, 0,
    0, lc0⟩ 0 1 378218984912) (.out ⟨655, 16, 40, 1066, 16, 747, ⟨[[], [(343597383680, 0)]], 1, 1⟩, ⟨[[(0,
    23826163336), (0, 3532111601229)], [(0, 118336306441), (0, 2938178620)]], 1, 1⟩, 1099511627776, 0, 458393447324,
    ⟨[], 0, 0⟩, 0, 0, 0, lc0⟩ 0 1 665232791459)) (.sy (.out ⟨685, 16, 40, 1123, 16, 780, ⟨[[], [(343597383680, 0)]],
    1, 1⟩, ⟨[[(0, 318954351639), (0, 3631593938990)], [(0, 113218162600), (0, 2623011739)]], 1, 1⟩, 1099511627776, 0,
    396908090613, ⟨[], 0, 0⟩, 0, 0, 0, lc0⟩ 0 1 600877403896) (.out ⟨685, 16, 40, 975, 16, 690, ⟨[[], [(343597383680,
    0)]], 1, 1⟩, ⟨[[(0, 234545756933), (0, 3546971578278)], [(0, 116559926314), (0, 3234532641)]], 1, 1⟩,
    1099511627776, 0, 551035412004, ⟨[], 0, 0⟩, 0, 0, 0, lc0⟩ 0 1 874656517490))) (.sx (.sy (.out ⟨715, 16, 40, 1038,
    16, 728, ⟨[[], [(343597383680, 0)]], 1, 1⟩, ⟨[[(425031975790, 0), (0, 3642297879939)], [(0, 111517696955), (0,
    2833911806)]], 1, 1⟩, 1099511627776, 0, 467345780980, ⟨[], 0, 0⟩, 0, 0, 0, lc0⟩ 0 1 827719954886) (.out ⟨715, 16,
    40, 883, 16, 632, ⟨[[], [(343597383680, 0)]], 1, 1⟩, ⟨[[(212521063449, 0), (0, 3562148907061)], [(0,
    114628190636), (0, 3595410431)]], 1, 1⟩, 1099511627776, 0, 667254052858, ⟨[], 0, 0⟩, 0, 0, 0, lc0⟩ 0 1
    1077927439355)) (.sy (.sy (.out ⟨745, 16, 40, 1514, 16, 1066, ⟨[[], [(343597383680, 0)]], 1, 1⟩, ⟨[[(0,
    472039508276), (0, 2800991648004)], [(0, 166126338765), (0, 2220378529)]], 1, 1⟩, 1099511627776, 0, 276408201422,
    ⟨[], 0, 0⟩, 0, 0, 0, lc0⟩ 0 1 957837669985) (.out ⟨745, 16, 40, 1391, 16, 990, ⟨[[], [(343597383680, 0)]], 1, 1⟩,
    ⟨[[(49331925986, 0), (0, 2761904818740)], [(0, 167886426431), (0, 2495287901)]], 1, 1⟩, 1099511627776, 0,
    328453305567, ⟨[], 0, 0⟩, 0, 0, 0, lc0⟩ 0 1 1092407526608)) (.out ⟨745, 16, 40, 790, 16, 572, ⟨[[],
    [(343597383680, 0)]], 1, 1⟩, ⟨[[(0, 82067836809), (0, 3571406401655)], [(0, 112321559042), (0, 4022624694)]], 1,
    1⟩, 1099511627776, 0, 813269414763, ⟨[], 0, 0⟩, 0, 0, 0, lc0⟩ 0 1 1256114966213)))
theorem c35 : checkC job ⟨6, 8, 8, 10, 9, 13⟩ 3 100 lims t35 560 48 32 81 3 256 = true := by decide +kernel

def t36 : CTree :=
  .sy (.sy (.sx (.out ⟨775, 16, 40, 1396, 16, 993, ⟨[[], [(343597383680, 0)]], 1, 1⟩, ⟨[[(9048709646, 0), (0,
    2824545745004)], [(0, 164166881438), (0, 2433492805)]], 1, 1⟩, 1099511627776, 0, 318083799186, ⟨[], 0, 0⟩, 0, 0,
    0, lc0⟩ 0 1 1160999678007) (.out ⟨805, 16, 40, 1277, 16, 918, ⟨[[], [(343597383680, 0)]], 1, 1⟩, ⟨[[(0,
    122867410842), (0, 2847096847645)], [(0, 161886068992), (0, 2682579213)]], 1, 1⟩, 1099511627776, 0, 367745782357,
    ⟨[], 0, 0⟩, 0, 0, 0, lc0⟩ 0 1 1345187392494)) (.out ⟨395, 16, 20, 804, 16, 582, ⟨[[], [(343597383680, 0)]], 1,
    1⟩, ⟨[[(161111784216, 0), (0, 1867605674086)], [(0, 219515481802), (0, 3907565598)]], 1, 1⟩, 1099511627776, 0,
    692405885521, ⟨[], 0, 0⟩, 0, 0, 0, lc0⟩ 0 1 1366788139053)) (.sx (.sy (.out ⟨775, 16, 40, 1131, 16, 824, ⟨[[],
    [(343597383680, 0)]], 1, 1⟩, ⟨[[(0, 170595610765), (0, 2744662926383)], [(0, 166690397353), (0, 3194980916)]], 1,
    1⟩, 1099511627776, 0, 466762623685, ⟨[], 0, 0⟩, 0, 0, 0, lc0⟩ 0 1 1375354572418) (.out ⟨775, 16, 40, 989, 16,
    731, ⟨[[], [(343597383680, 0)]], 1, 1⟩, ⟨[[(250248127256, 0), (0, 2704943747290)], [(0, 167446906756), (0,
    3761012877)]], 1, 1⟩, 1099511627776, 0, 592232737850, ⟨[], 0, 0⟩, 0, 0, 0, lc0⟩ 0 1 1448637358075)) (.sy (.sy
    (.out ⟨805, 16, 40, 1409, 16, 1037, ⟨[[], [(343597383680, 0)]], 1, 1⟩, ⟨[[(249487225286, 0), (0, 1890447735958)],
    [(0, 222612395385), (0, 2366321971)]], 1, 1⟩, 1099511627776, 0, 381595779621, ⟨[], 0, 0⟩, 0, 0, 0, lc0⟩ 0 1
    1506143669584) (.out ⟨805, 16, 40, 1310, 16, 971, ⟨[[], [(343597383680, 0)]], 1, 1⟩, ⟨[[(0, 442900542920), (0,
    1875630189789)], [(0, 222787824526), (0, 2581627342)]], 1, 1⟩, 1099511627776, 0, 431219160033, ⟨[], 0, 0⟩, 0, 0,
    0, lc0⟩ 0 1 1533298984719)) (.sy (.out ⟨805, 16, 40, 1208, 16, 903, ⟨[[], [(343597383680, 0)]], 1, 1⟩,
    ⟨[[(61791304250, 0), (0, 1861743694752)], [(0, 222887688334), (0, 2857894659)]], 1, 1⟩, 1099511627776, 0,
    499286594789, ⟨[], 0, 0⟩, 0, 0, 0, lc0⟩ 0 1 1553225313263) (.out ⟨805, 16, 40, 1102, 16, 831, ⟨[[],
    [(343597383680, 0)]], 1, 1⟩, ⟨[[(36888039504, 0), (0, 1846557693713)], [(0, 222590093326), (0, 3234808345)]], 1,
    1⟩, 1099511627776, 0, 598882759745, ⟨[], 0, 0⟩, 0, 0, 0, lc0⟩ 0 1 1559921831997))))
theorem c36 : checkC job ⟨6, 8, 8, 10, 9, 13⟩ 3 100 lims t36 1264 48 64 81 3 256 = true := by decide +kernel

def t37 : CTree :=
  .sy (.sy (.out ⟨425, 16, 20, 742, 16, 543, ⟨[[], [(343597383680, 0)]], 1, 1⟩, ⟨[[(56385279541, 0), (0,
    1948142389763)], [(0, 213554517867), (0, 4228994541)]], 1, 1⟩, 1099511627776, 0, 733875127626, ⟨[], 0, 0⟩, 0, 0,
    0, lc0⟩ 0 1 1589814524381) (.sy (.out ⟨425, 16, 20, 827, 16, 612, ⟨[[], [(343597383680, 0)]], 1, 1⟩, ⟨[[(0,
    9692003785), (0, 1191362011985)], [(0, 264547621160), (0, 2950724789)]], 1, 1⟩, 1099511627776, 0, 770321072727,
    ⟨[], 0, 0⟩, 0, 0, 0, lc0⟩ 0 1 1640456518230) (.out ⟨425, 16, 20, 764, 16, 570, ⟨[[], [(343597383680, 0)]], 1, 1⟩,
    ⟨[[(0, 8260870174), (0, 1181136499240)], [(0, 264263926710), (0, 3232357066)]], 1, 1⟩, 1099511627776, 0,
    887444211192, ⟨[], 0, 0⟩, 0, 0, 0, lc0⟩ 0 1 1662349961747))) (.sx (.sy (.out ⟨835, 16, 40, 868, 16, 651, ⟨[[],
    [(343597383680, 0)]], 1, 1⟩, ⟨[[(127802676140, 0), (0, 2793503823408)], [(0, 160349307358), (0, 4217367182)]], 1,
    1⟩, 1099511627776, 0, 717706474663, ⟨[], 0, 0⟩, 0, 0, 0, lc0⟩ 0 1 1632410246730) (.sx (.out ⟨1676, 16, 81, 995,
    16, 757, ⟨[[(0, 343597383680)], [(347892350976, 0)]], 1, 1⟩, ⟨[[(20964575784, 0), (0, 3675353841009)], [(0,
    107592931414), (0, 3537019377)]], 1, 1⟩, 1099511627776, 0, 832799109567, ⟨[], 0, 0⟩, 0, 0, 0, lc0⟩ 0 1
    1609268278424) (.sy (.out ⟨1706, 16, 81, 1459, 16, 1115, ⟨[[(68719476736, 0)], [(347892350976, 0)]], 1, 1⟩,
    ⟨[[(142195188600, 0), (0, 2832279438659)], [(0, 162427979888), (0, 2832445463)]], 1, 1⟩, 1099511627776, 0,
    453582913549, ⟨[], 0, 0⟩, 0, 0, 0, lc0⟩ 0 1 1637348078226) (.skip)))) (.sy (.sx (.sy (.out ⟨1736, 16, 81, 1650,
    16, 1247, ⟨[[(481036337152, 0)], [(347892350976, 0)]], 1, 1⟩, ⟨[[(0, 129877192442), (0, 2880585958940)], [(0,
    160832999263), (0, 2316509395)]], 1, 1⟩, 1099511627776, 0, 346439357482, ⟨[], 0, 0⟩, 0, 0, 0, lc0⟩ 0 1
    1690124737766) (.out ⟨1736, 16, 81, 1487, 16, 1135, ⟨[[(481036337152, 0)], [(347892350976, 0)]], 1, 1⟩, ⟨[[(0,
    269315969370), (0, 2865444413927)], [(0, 160690516749), (0, 2706091515)]], 1, 1⟩, 1099511627776, 0, 428720334108,
    ⟨[], 0, 0⟩, 0, 0, 0, lc0⟩ 0 1 1677193623153)) (.sy (.out ⟨1767, 16, 81, 1517, 16, 1157, ⟨[[(0, 206158430208)],
    [(347892350976, 0)]], 1, 1⟩, ⟨[[(397492075196, 0), (0, 2898538009343)], [(0, 158984938508), (0, 2580079116)]], 1,
    1⟩, 1099511627776, 0, 404212622830, ⟨[], 0, 0⟩, 0, 0, 0, lc0⟩ 0 1 1717100700825) (.skip))) (.skip)))
theorem c37 : checkC job ⟨6, 8, 8, 10, 9, 13⟩ 3 100 lims t37 1360 48 64 81 3 256 = true := by decide +kernel

def t38 : CTree :=
  .sy (.sy (.out ⟨455, 16, 20, 979, 16, 695, ⟨[[], [(343597383680, 0)]], 1, 1⟩, ⟨[[(207449044380, 0), (0,
    2131683697979)], [(0, 205647818651), (0, 2969172979)]], 1, 1⟩, 1099511627776, 0, 414012416507, ⟨[], 0, 0⟩, 0, 0,
    0, lc0⟩ 0 1 1475349914973) (.sx (.out ⟨895, 16, 40, 1338, 16, 957, ⟨[[], [(343597383680, 0)]], 1, 1⟩,
    ⟨[[(472653280241, 0), (0, 3032847722797)], [(0, 151139193464), (0, 2345343644)]], 1, 1⟩, 1099511627776, 0,
    313517604211, ⟨[], 0, 0⟩, 0, 0, 0, lc0⟩ 0 1 1520859972127) (.out ⟨925, 16, 40, 1238, 16, 894, ⟨[[],
    [(343597383680, 0)]], 1, 1⟩, ⟨[[(0, 376293593557), (0, 3059576960965)], [(0, 149016268321), (0, 2536254989)]], 1,
    1⟩, 1099511627776, 0, 354912309571, ⟨[], 0, 0⟩, 0, 0, 0, lc0⟩ 0 1 1684828204713))) (.sy (.out ⟨455, 16, 20, 791,
    16, 576, ⟨[[], [(343597383680, 0)]], 1, 1⟩, ⟨[[(0, 254607601019), (0, 2064057337911)], [(0, 207334571410), (0,
    3849177571)]], 1, 1⟩, 1099511627776, 0, 606836405932, ⟨[], 0, 0⟩, 0, 0, 0, lc0⟩ 0 1 1709555286927) (.out ⟨455,
    16, 20, 691, 16, 511, ⟨[[], [(343597383680, 0)]], 1, 1⟩, ⟨[[(24308914522, 0), (0, 2031118322431)], [(0,
    207380297109), (0, 4471787646)]], 1, 1⟩, 1099511627776, 0, 758654474849, ⟨[], 0, 0⟩, 0, 0, 0, lc0⟩ 0 1
    1787996451153))
theorem c38 : checkC job ⟨6, 8, 8, 10, 9, 13⟩ 3 100 lims t38 1456 48 64 75 3 256 = true := by decide +kernel

def t39 : CTree :=
  .sy (.sx (.sy (.out ⟨955, 16, 40, 1272, 16, 916, ⟨[[], [(343597383680, 0)]], 1, 1⟩, ⟨[[(179302378547, 0), (0,
    3120613915381)], [(0, 145630768762), (0, 2382414724)]], 1, 1⟩, 1099511627776, 0, 330181356382, ⟨[], 0, 0⟩, 0, 0,
    0, lc0⟩ 0 1 1735949427192) (.out ⟨955, 16, 40, 1138, 16, 831, ⟨[[], [(343597383680, 0)]], 1, 1⟩, ⟨[[(0,
    5411550462), (0, 3088250093007)], [(0, 146726718720), (0, 2743078796)]], 1, 1⟩, 1099511627776, 0, 401062151982,
    ⟨[], 0, 0⟩, 0, 0, 0, lc0⟩ 0 1 1839721974499)) (.sy (.out ⟨985, 16, 40, 1178, 16, 857, ⟨[[], [(343597383680, 0)]],
    1, 1⟩, ⟨[[(19647369678, 0), (0, 3148846353996)], [(0, 143439409694), (0, 2555210427)]], 1, 1⟩, 1099511627776, 0,
    369963468549, ⟨[], 0, 0⟩, 0, 0, 0, lc0⟩ 0 1 1890723502643) (.sy (.out ⟨985, 16, 40, 1521, 16, 1119, ⟨[[],
    [(343597383680, 0)]], 1, 1⟩, ⟨[[(0, 308553285396), (0, 2210990064958)], [(0, 203797620265), (0, 2015961188)]], 1,
    1⟩, 1099511627776, 0, 266567547476, ⟨[], 0, 0⟩, 0, 0, 0, lc0⟩ 0 1 1954395916049) (.out ⟨985, 16, 40, 1419, 16,
    1053, ⟨[[], [(343597383680, 0)]], 1, 1⟩, ⟨[[(395339523418, 0), (0, 2198080551301)], [(0, 203964764968), (0,
    2175130926)]], 1, 1⟩, 1099511627776, 0, 294897543053, ⟨[], 0, 0⟩, 0, 0, 0, lc0⟩ 0 1 1986788489441)))) (.sy (.sx
    (.out ⟨955, 16, 40, 996, 16, 739, ⟨[[], [(343597383680, 0)]], 1, 1⟩, ⟨[[(249009909513, 0), (0, 3053259377265)],
    [(0, 147232678274), (0, 3195604509)]], 1, 1⟩, 1099511627776, 0, 495714337932, ⟨[], 0, 0⟩, 0, 0, 0, lc0⟩ 0 1
    1911375318460) (.out ⟨985, 16, 40, 895, 16, 673, ⟨[[], [(343597383680, 0)]], 1, 1⟩, ⟨[[(118522284062, 0), (0,
    3087041278650)], [(0, 144385421279), (0, 3501921901)]], 1, 1⟩, 1099511627776, 0, 579787374693, ⟨[], 0, 0⟩, 0, 0,
    0, lc0⟩ 0 1 2009282984861)) (.sx (.sy (.out ⟨955, 16, 40, 1247, 16, 937, ⟨[[], [(343597383680, 0)]], 1, 1⟩,
    ⟨[[(0, 504370426241), (0, 2129871677334)], [(0, 207188250269), (0, 2569497530)]], 1, 1⟩, 1099511627776, 0,
    378454145997, ⟨[], 0, 0⟩, 0, 0, 0, lc0⟩ 0 1 1933879974975) (.out ⟨955, 16, 40, 1140, 16, 865, ⟨[[],
    [(343597383680, 0)]], 1, 1⟩, ⟨[[(0, 410724818407), (0, 2118157134770)], [(0, 206908216711), (0, 2873178267)]], 1,
    1⟩, 1099511627776, 0, 446048537488, ⟨[], 0, 0⟩, 0, 0, 0, lc0⟩ 0 1 1931300798644)) (.sy (.sx (.out ⟨1979, 16, 81,
    1644, 16, 1250, ⟨[[(481036337152, 0)], [(347892350976, 0)]], 1, 1⟩, ⟨[[(271693565645, 0), (0, 3110320339501)],
    [(0, 147516487980), (0, 2039662485)]], 1, 1⟩, 1099511627776, 0, 310809355988, ⟨[], 0, 0⟩, 0, 0, 0, lc0⟩ 0 1
    1984288731121) (.out ⟨2010, 16, 81, 1537, 16, 1178, ⟨[[(0, 206158430208)], [(347892350976, 0)]], 1, 1⟩,
    ⟨[[(125907829286, 0), (0, 3128389230381)], [(0, 145700427097), (0, 2199239574)]], 1, 1⟩, 1099511627776, 0,
    349695206794, ⟨[], 0, 0⟩, 0, 0, 0, lc0⟩ 0 1 2005056818614)) (.out ⟨985, 16, 40, 991, 16, 765, ⟨[[],
    [(343597383680, 0)]], 1, 1⟩, ⟨[[(77949851713, 0), (0, 2156389901918)], [(0, 202907759487), (0, 3447959379)]], 1,
    1⟩, 1099511627776, 0, 578122639100, ⟨[], 0, 0⟩, 0, 0, 0, lc0⟩ 0 1 1960991652755))))
theorem c39 : checkC job ⟨6, 8, 8, 10, 9, 13⟩ 3 100 lims t39 1552 48 64 75 3 256 = true := by decide +kernel

def t40 : CTree :=
  .sy (.sx (.sy (.sx (.out ⟨1015, 16, 40, 1085, 16, 798, ⟨[[], [(343597383680, 0)]], 1, 1⟩, ⟨[[(0, 69134209064), (0,
    3176988583389)], [(0, 140988289306), (0, 2731522675)]], 1, 1⟩, 1099511627776, 0, 412637786887, ⟨[], 0, 0⟩, 0, 0,
    0, lc0⟩ 0 1 2028039043226) (.out ⟨1045, 16, 40, 996, 16, 741, ⟨[[], [(343597383680, 0)]], 1, 1⟩, ⟨[[(0,
    347046057016), (0, 3211153564783)], [(0, 138518642956), (0, 2911617908)]], 1, 1⟩, 1099511627776, 0, 460181518168,
    ⟨[], 0, 0⟩, 0, 0, 0, lc0⟩ 0 1 2143688843547)) (.sy (.out ⟨515, 16, 20, 835, 16, 626, ⟨[[], [(343597383680, 0)]],
    1, 1⟩, ⟨[[(96595952563, 0), (0, 1419351826308)], [(0, 250438220929), (0, 2839627814)]], 1, 1⟩, 1099511627776, 0,
    543906436942, ⟨[], 0, 0⟩, 0, 0, 0, lc0⟩ 0 1 2119513509841) (.out ⟨515, 16, 20, 769, 16, 582, ⟨[[],
    [(343597383680, 0)]], 1, 1⟩, ⟨[[(0, 58322127322), (0, 1411753849701)], [(0, 250011450111), (0, 3109906674)]], 1,
    1⟩, 1099511627776, 0, 626535928621, ⟨[], 0, 0⟩, 0, 0, 0, lc0⟩ 0 1 2121131626156))) (.sy (.out ⟨545, 16, 20, 613,
    16, 465, ⟨[[], [(343597383680, 0)]], 1, 1⟩, ⟨[[(0, 82609499822), (0, 2307948764268)], [(0, 189872381851), (0,
    4524885315)]], 1, 1⟩, 1099511627776, 0, 710767454671, ⟨[], 0, 0⟩, 0, 0, 0, lc0⟩ 0 1 2269104793134) (.sx (.out
    ⟨1075, 16, 40, 760, 16, 585, ⟨[[], [(343597383680, 0)]], 1, 1⟩, ⟨[[(0, 22612593998), (0, 3217832676474)], [(0,
    134924236468), (0, 3850291127)]], 1, 1⟩, 1099511627776, 0, 749526573135, ⟨[], 0, 0⟩, 0, 0, 0, lc0⟩ 0 1
    2197064303595) (.skip)))) (.sx (.sy (.sy (.out ⟨515, 16, 20, 702, 16, 537, ⟨[[], [(343597383680, 0)]], 1, 1⟩,
    ⟨[[(121250885748, 0), (0, 1406790477664)], [(0, 249642541072), (0, 3494245450)]], 1, 1⟩, 1099511627776, 0,
    761309644825, ⟨[], 0, 0⟩, 0, 0, 0, lc0⟩ 0 1 2103799237904) (.sx (.sx (.out ⟨2040, 16, 81, 1591, 16, 1216,
    ⟨[[(206158430208, 0)], [(347892350976, 0)]], 1, 1⟩, ⟨[[(295382872469, 0), (0, 3159894964837)], [(0,
    144272988791), (0, 2055255590)]], 1, 1⟩, 1099511627776, 0, 321977267826, ⟨[], 0, 0⟩, 0, 0, 0, lc0⟩ 0 1
    2049451942918) (.skip)) (.skip))) (.skip)) (.skip))
theorem c40 : checkC job ⟨6, 8, 8, 10, 9, 13⟩ 3 100 lims t40 848 48 32 75 3 256 = true := by decide +kernel

def t41 : CTree :=
  .sx (.sy (.sx (.sx (.sy (.sy (.out ⟨895, 16, 40, 1331, 16, 990, ⟨[[], [(343597383680, 0)]], 1, 1⟩,
    ⟨[[(466561572152, 0), (0, 2035956998121)], [(0, 213188734762), (0, 2451359919)]], 1, 1⟩, 1099511627776, 0,
    369508728070, ⟨[], 0, 0⟩, 0, 0, 0, lc0⟩ 0 1 1768109372658) (.out ⟨895, 16, 40, 1228, 16, 921, ⟨[[],
    [(343597383680, 0)]], 1, 1⟩, ⟨[[(0, 53497230728), (0, 2023038561881)], [(0, 213205098783), (0, 2699412511)]], 1,
    1⟩, 1099511627776, 0, 423722348058, ⟨[], 0, 0⟩, 0, 0, 0, lc0⟩ 0 1 1782410246730)) (.sx (.sy (.out ⟨1797, 16, 81,
    1710, 16, 1289, ⟨[[(206158430208, 0)], [(347892350976, 0)]], 1, 1⟩, ⟨[[(0, 516528455703), (0, 2945990133476)],
    [(0, 157378725602), (0, 2138938950)]], 1, 1⟩, 1099511627776, 0, 314293229628, ⟨[], 0, 0⟩, 0, 0, 0, lc0⟩ 0 1
    1765938678638) (.out ⟨1797, 16, 81, 1551, 16, 1181, ⟨[[(206158430208, 0)], [(347892350976, 0)]], 1, 1⟩, ⟨[[(0,
    46634735074), (0, 2931989282338)], [(0, 157332839078), (0, 2456824728)]], 1, 1⟩, 1099511627776, 0, 380534584129,
    ⟨[], 0, 0⟩, 0, 0, 0, lc0⟩ 0 1 1757237454445)) (.sy (.out ⟨1828, 16, 81, 1586, 16, 1206, ⟨[[(0, 481036337152)],
    [(347892350976, 0)]], 1, 1⟩, ⟨[[(262274245697, 0), (0, 2963713105752)], [(0, 155621816704), (0, 2336249863)]], 1,
    1⟩, 1099511627776, 0, 357753200207, ⟨[], 0, 0⟩, 0, 0, 0, lc0⟩ 0 1 1797744311533) (.out ⟨1828, 16, 81, 1420, 16,
    1091, ⟨[[(0, 481036337152)], [(347892350976, 0)]], 1, 1⟩, ⟨[[(0, 379168273445), (0, 2948693234099)], [(0,
    155247440819), (0, 2762636210)]], 1, 1⟩, 1099511627776, 0, 450125242419, ⟨[], 0, 0⟩, 0, 0, 0, lc0⟩ 0 1
    1772777336473)))) (.sy (.out ⟨925, 16, 40, 807, 16, 612, ⟨[[], [(343597383680, 0)]], 1, 1⟩, ⟨[[(78616664406, 0),
    (0, 2957258498565)], [(0, 150370807229), (0, 4253685713)]], 1, 1⟩, 1099511627776, 0, 760143789193, ⟨[], 0, 0⟩, 0,
    0, 0, lc0⟩ 0 1 1856885524781) (.sy (.out ⟨925, 16, 40, 955, 16, 736, ⟨[[], [(343597383680, 0)]], 1, 1⟩,
    ⟨[[(31287000765, 0), (0, 2044352900701)], [(0, 208653535053), (0, 3773684629)]], 1, 1⟩, 1099511627776, 0,
    679434031192, ⟨[], 0, 0⟩, 0, 0, 0, lc0⟩ 0 1 1817502980411) (.skip)))) (.sy (.sx (.sy (.out ⟨955, 16, 40, 1027,
    16, 788, ⟨[[], [(343597383680, 0)]], 1, 1⟩, ⟨[[(211314279457, 0), (0, 2105119955793)], [(0, 206133188119), (0,
    3318991178)]], 1, 1⟩, 1099511627776, 0, 553662238280, ⟨[], 0, 0⟩, 0, 0, 0, lc0⟩ 0 1 1907751726088) (.skip))
    (.skip)) (.skip))) (.skip)) (.skip)
theorem c41 : checkC job ⟨6, 8, 8, 10, 9, 13⟩ 3 100 lims t41 400 48 16 81 3 256 = true := by decide +kernel

def t42 : CTree :=
  .sy (.sx (.sy (.out ⟨655, 16, 40, 1413, 16, 1004, ⟨[[], [(343597383680, 0)]], 1, 1⟩, ⟨[[(0, 533996486758), (0,
    2574314907573)], [(0, 179328262492), (0, 2575762476)]], 1, 1⟩, 1099511627776, 0, 345016024430, ⟨[], 0, 0⟩, 0, 0,
    0, lc0⟩ 0 1 848416686635) (.out ⟨655, 16, 40, 1287, 16, 924, ⟨[[], [(343597383680, 0)]], 1, 1⟩, ⟨[[(0,
    431533314200), (0, 2532248395408)], [(0, 180787584605), (0, 2907320566)]], 1, 1⟩, 1099511627776, 0, 411042608025,
    ⟨[], 0, 0⟩, 0, 0, 0, lc0⟩ 0 1 958151186546)) (.out ⟨685, 16, 40, 809, 16, 585, ⟨[[], [(343597383680, 0)]], 1, 1⟩,
    ⟨[[(0, 89157465512), (0, 3454191213645)], [(0, 119105801589), (0, 4174005864)]], 1, 1⟩, 1099511627776, 0,
    800583792332, ⟨[], 0, 0⟩, 0, 0, 0, lc0⟩ 0 1 1095917700296)) (.sx (.sy (.sy (.out ⟨655, 16, 40, 1563, 16, 1132,
    ⟨[[], [(343597383680, 0)]], 1, 1⟩, ⟨[[(185686935368, 0), (0, 1643977855981)], [(0, 238929296892), (0,
    2110279591)]], 1, 1⟩, 1099511627776, 0, 389962036637, ⟨[], 0, 0⟩, 0, 0, 0, lc0⟩ 0 1 1033223401090) (.out ⟨655,
    16, 40, 1474, 16, 1074, ⟨[[], [(343597383680, 0)]], 1, 1⟩, ⟨[[(419088657261, 0), (0, 1628970935406)], [(0,
    239462569212), (0, 2265098563)]], 1, 1⟩, 1099511627776, 0, 431231799818, ⟨[], 0, 0⟩, 0, 0, 0, lc0⟩ 0 1
    1075985510472)) (.out ⟨655, 16, 40, 1020, 16, 750, ⟨[[], [(343597383680, 0)]], 1, 1⟩, ⟨[[(0, 64180226891), (0,
    2449296218278)], [(0, 183003500080), (0, 3895295475)]], 1, 1⟩, 1099511627776, 0, 635790839723, ⟨[], 0, 0⟩, 0, 0,
    0, lc0⟩ 0 1 1126834692574)) (.sy (.out ⟨685, 16, 40, 1000, 16, 737, ⟨[[], [(343597383680, 0)]], 1, 1⟩,
    ⟨[[(19688181787, 0), (0, 2511287915028)], [(0, 178902346991), (0, 3927862469)]], 1, 1⟩, 1099511627776, 0,
    638160979066, ⟨[], 0, 0⟩, 0, 0, 0, lc0⟩ 0 1 1212188412582) (.sx (.out ⟨1372, 16, 81, 1241, 16, 924, ⟨[[(0,
    68719476736)], [(347892350976, 0)]], 1, 1⟩, ⟨[[(47036580565, 0), (0, 3414581550044)], [(0, 124903208365), (0,
    3180933883)]], 1, 1⟩, 1099511627776, 0, 595068975795, ⟨[], 0, 0⟩, 0, 0, 0, lc0⟩ 0 1 1226885052899) (.sy (.out
    ⟨1402, 16, 81, 1733, 16, 1297, ⟨[[(343597383680, 0)], [(347892350976, 0)]], 1, 1⟩, ⟨[[(176465931681, 0), (0,
    2536547018275)], [(0, 181941741520), (0, 2507012572)]], 1, 1⟩, 1099511627776, 0, 380590105710, ⟨[], 0, 0⟩, 0, 0,
    0, lc0⟩ 0 1 1273335741315) (.out ⟨1402, 16, 81, 1572, 16, 1186, ⟨[[(343597383680, 0)], [(347892350976, 0)]], 1,
    1⟩, ⟨[[(0, 369705628461), (0, 2515818909214)], [(0, 181876594100), (0, 2922898260)]], 1, 1⟩, 1099511627776, 0,
    469360891612, ⟨[], 0, 0⟩, 0, 0, 0, lc0⟩ 0 1 1278250085546)))))
theorem c42 : checkC job ⟨6, 8, 8, 10, 9, 13⟩ 3 100 lims t42 1072 48 64 87 3 256 = true := by decide +kernel

def t43 : CTree :=
  .sx (.sy (.out ⟨715, 16, 40, 1130, 16, 823, ⟨[[], [(343597383680, 0)]], 1, 1⟩, ⟨[[(0, 25696822577), (0,
    2619294577194)], [(0, 174368790818), (0, 3324627752)]], 1, 1⟩, 1099511627776, 0, 493272400228, ⟨[], 0, 0⟩, 0, 0,
    0, lc0⟩ 0 1 1223198841064) (.out ⟨715, 16, 40, 989, 16, 730, ⟨[[], [(343597383680, 0)]], 1, 1⟩, ⟨[[(0,
    47855161609), (0, 2575882333770)], [(0, 175025468821), (0, 3916464428)]], 1, 1⟩, 1099511627776, 0, 631352830198,
    ⟨[], 0, 0⟩, 0, 0, 0, lc0⟩ 0 1 1293407215633)) (.sy (.sy (.out ⟨745, 16, 40, 1369, 16, 1008, ⟨[[], [(343597383680,
    0)]], 1, 1⟩, ⟨[[(296658703687, 0), (0, 1776742573586)], [(0, 229312277299), (0, 2473887831)]], 1, 1⟩,
    1099511627776, 0, 433966852373, ⟨[], 0, 0⟩, 0, 0, 0, lc0⟩ 0 1 1358091693800) (.out ⟨745, 16, 40, 1272, 16, 943,
    ⟨[[], [(343597383680, 0)]], 1, 1⟩, ⟨[[(0, 397426240897), (0, 1762088355209)], [(0, 229548365558), (0,
    2712457095)]], 1, 1⟩, 1099511627776, 0, 495347571302, ⟨[], 0, 0⟩, 0, 0, 0, lc0⟩ 0 1 1383852227873)) (.sy (.out
    ⟨745, 16, 40, 1171, 16, 875, ⟨[[], [(343597383680, 0)]], 1, 1⟩, ⟨[[(0, 304554489141), (0, 1746934246744)], [(0,
    229534430666), (0, 3025918541)]], 1, 1⟩, 1099511627776, 0, 581464359964, ⟨[], 0, 0⟩, 0, 0, 0, lc0⟩ 0 1
    1402598860555) (.sx (.out ⟨1493, 16, 81, 1706, 16, 1280, ⟨[[(481036337152, 0)], [(347892350976, 0)]], 1, 1⟩,
    ⟨[[(0, 62323770966), (0, 2634602882959)], [(0, 175841468039), (0, 2472848283)]], 1, 1⟩, 1099511627776, 0,
    371231028375, ⟨[], 0, 0⟩, 0, 0, 0, lc0⟩ 0 1 1388480073395) (.sy (.out ⟨1524, 16, 81, 2113, 16, 1597, ⟨[[(0,
    206158430208)], [(347892350976, 0)]], 1, 1⟩, ⟨[[(435341742952, 0), (0, 1769358793804)], [(0, 231860006580), (0,
    1820380732)]], 1, 1⟩, 1099511627776, 0, 325386222693, ⟨[], 0, 0⟩, 0, 0, 0, lc0⟩ 0 1 1428373541922) (.out ⟨1524,
    16, 81, 2002, 16, 1520, ⟨[[(0, 206158430208)], [(347892350976, 0)]], 1, 1⟩, ⟨[[(105739122916, 0), (0,
    1763607483010)], [(0, 231800337663), (0, 1984018454)]], 1, 1⟩, 1099511627776, 0, 363037642384, ⟨[], 0, 0⟩, 0, 0,
    0, lc0⟩ 0 1 1424547052245)))))
theorem c43 : checkC job ⟨6, 8, 8, 10, 9, 13⟩ 3 100 lims t43 1168 48 64 171 3 512 = true := by decide +kernel

def t44 : CTree :=
  .sx (.sx (.sy (.sy (.out ⟨1433, 16, 81, 1871, 16, 1391, ⟨[[(0, 343597383680)], [(347892350976, 0)]], 1, 1⟩,
    ⟨[[(409421630948, 0), (0, 2586945448298)], [(0, 179560311535), (0, 2211871850)]], 1, 1⟩, 1099511627776, 0,
    319234690573, ⟨[], 0, 0⟩, 0, 0, 0, lc0⟩ 0 1 1298553328529) (.out ⟨1433, 16, 81, 1719, 16, 1288, ⟨[[(0,
    343597383680)], [(347892350976, 0)]], 1, 1⟩, ⟨[[(303092116340, 0), (0, 2568468784119)], [(0, 179836373482), (0,
    2505403770)]], 1, 1⟩, 1099511627776, 0, 379189370401, ⟨[], 0, 0⟩, 0, 0, 0, lc0⟩ 0 1 1313031441484)) (.sy (.out
    ⟨1433, 16, 81, 1558, 16, 1177, ⟨[[(0, 343597383680)], [(347892350976, 0)]], 1, 1⟩, ⟨[[(0, 249204112242), (0,
    2549234526838)], [(0, 179841996705), (0, 2926137856)]], 1, 1⟩, 1099511627776, 0, 468589106862, ⟨[], 0, 0⟩, 0, 0,
    0, lc0⟩ 0 1 1316207163657) (.out ⟨1433, 16, 81, 1382, 16, 1054, ⟨[[(0, 343597383680)], [(347892350976, 0)]], 1,
    1⟩, ⟨[[(0, 115617753399), (0, 2526685561530)], [(0, 179299324410), (0, 3539918901)]], 1, 1⟩, 1099511627776, 0,
    602646239866, ⟨[], 0, 0⟩, 0, 0, 0, lc0⟩ 0 1 1304826341120))) (.sy (.sy (.out ⟨1463, 16, 81, 1711, 16, 1283,
    ⟨[[(68719476736, 0)], [(347892350976, 0)]], 1, 1⟩, ⟨[[(105783282979, 0), (0, 2602456811903)], [(0, 177892057607),
    (0, 2495124029)]], 1, 1⟩, 1099511627776, 0, 376225000098, ⟨[], 0, 0⟩, 0, 0, 0, lc0⟩ 0 1 1350893140493) (.out
    ⟨1463, 16, 81, 1548, 16, 1171, ⟨[[(68719476736, 0)], [(347892350976, 0)]], 1, 1⟩, ⟨[[(246821556096, 0), (0,
    2582153356210)], [(0, 177791850546), (0, 2913555885)]], 1, 1⟩, 1099511627776, 0, 464879324987, ⟨[], 0, 0⟩, 0, 0,
    0, lc0⟩ 0 1 1352613426274)) (.sy (.sx (.out ⟨2911, 16, 162, 1946, 16, 1482, ⟨[[(0, 68719476736)], [(347892350976,
    0)]], 1, 1⟩, ⟨[[(69618817956, 0), (0, 3506142189577)], [(0, 121976496702), (0, 2300869778)]], 1, 1⟩,
    1099511627776, 0, 434964368214, ⟨[], 0, 0⟩, 0, 0, 0, lc0⟩ 0 1 1335358714494) (.out ⟨2941, 16, 162, 1814, 16,
    1389, ⟨[[(343597383680, 0)], [(347892350976, 0)]], 1, 1⟩, ⟨[[(0, 352165563703), (0, 3511022868529)], [(0,
    120926536005), (0, 2545287745)]], 1, 1⟩, 1099511627776, 0, 497038029190, ⟨[], 0, 0⟩, 0, 0, 0, lc0⟩ 0 1
    1341631915178)) (.out ⟨1463, 16, 81, 1180, 16, 911, ⟨[[(68719476736, 0)], [(347892350976, 0)]], 1, 1⟩,
    ⟨[[(5422550482, 0), (0, 2537246285382)], [(0, 176221100241), (0, 4421291049)]], 1, 1⟩, 1099511627776, 0,
    795954723367, ⟨[], 0, 0⟩, 0, 0, 0, lc0⟩ 0 1 1304204473757)))) (.sy (.sx (.sy (.out ⟨1493, 16, 81, 1543, 16, 1168,
    ⟨[[(481036337152, 0)], [(347892350976, 0)]], 1, 1⟩, ⟨[[(5999740930, 0), (0, 2614680821182)], [(0, 175739946145),
    (0, 2885862377)]], 1, 1⟩, 1099511627776, 0, 458391954615, ⟨[], 0, 0⟩, 0, 0, 0, lc0⟩ 0 1 1389212760627) (.out
    ⟨1493, 16, 81, 1367, 16, 1045, ⟨[[(481036337152, 0)], [(347892350976, 0)]], 1, 1⟩, ⟨[[(102341276421, 0), (0,
    2593476922424)], [(0, 175233162525), (0, 3495024309)]], 1, 1⟩, 1099511627776, 0, 590601225209, ⟨[], 0, 0⟩, 0, 0,
    0, lc0⟩ 0 1 1373672695694)) (.sy (.sy (.out ⟨1524, 16, 81, 1886, 16, 1439, ⟨[[(0, 206158430208)], [(347892350976,
    0)]], 1, 1⟩, ⟨[[(66934949244, 0), (0, 1757611735669)], [(0, 231594104216), (0, 2183401822)]], 1, 1⟩,
    1099511627776, 0, 409351262893, ⟨[], 0, 0⟩, 0, 0, 0, lc0⟩ 0 1 1416282621816) (.out ⟨1524, 16, 81, 1764, 16, 1353,
    ⟨[[(0, 206158430208)], [(347892350976, 0)]], 1, 1⟩, ⟨[[(71414379160, 0), (0, 1750746157173)], [(0, 231137791567),
    (0, 2425061100)]], 1, 1⟩, 1099511627776, 0, 465953233380, ⟨[], 0, 0⟩, 0, 0, 0, lc0⟩ 0 1 1402830803255)) (.out
    ⟨1524, 16, 81, 1175, 16, 909, ⟨[[(0, 206158430208)], [(347892350976, 0)]], 1, 1⟩, ⟨[[(58488445381, 0), (0,
    2603866673921)], [(0, 172165302593), (0, 4315225264)]], 1, 1⟩, 1099511627776, 0, 770828747121, ⟨[], 0, 0⟩, 0, 0,
    0, lc0⟩ 0 1 1370719772255))) (.sx (.sy (.sy (.out ⟨1493, 16, 81, 1631, 16, 1257, ⟨[[(481036337152, 0)],
    [(347892350976, 0)]], 1, 1⟩, ⟨[[(66407934722, 0), (0, 1715885057017)], [(0, 232424055403), (0, 2750843321)]], 1,
    1⟩, 1099511627776, 0, 552281266817, ⟨[], 0, 0⟩, 0, 0, 0, lc0⟩ 0 1 1348152280374) (.skip)) (.skip)) (.skip)))
theorem c44 : checkC job ⟨6, 8, 8, 10, 9, 13⟩ 3 100 lims t44 1168 48 64 177 3 512 = true := by decide +kernel

def t45 : CTree :=
  .sy (.sx (.sx (.sy (.out ⟨775, 16, 40, 839, 16, 630, ⟨[[], [(343597383680, 0)]], 1, 1⟩, ⟨[[(0, 18006790086), (0,
    2662647255919)], [(0, 167540518876), (0, 4664227594)]], 1, 1⟩, 1099511627776, 0, 834763745796, ⟨[], 0, 0⟩, 0, 0,
    0, lc0⟩ 0 1 1483420504913) (.sx (.sy (.out ⟨1554, 16, 81, 1547, 16, 1172, ⟨[[(206158430208, 0)], [(347892350976,
    0)]], 1, 1⟩, ⟨[[(0, 175164646264), (0, 2681629270036)], [(0, 171847874962), (0, 2792862968)]], 1, 1⟩,
    1099511627776, 0, 438564966437, ⟨[], 0, 0⟩, 0, 0, 0, lc0⟩ 0 1 1463868476913) (.out ⟨1554, 16, 81, 1372, 16, 1050,
    ⟨[[(206158430208, 0)], [(347892350976, 0)]], 1, 1⟩, ⟨[[(47579649310, 0), (0, 2661194962842)], [(0, 171359380354),
    (0, 3371407811)]], 1, 1⟩, 1099511627776, 0, 563464202960, ⟨[], 0, 0⟩, 0, 0, 0, lc0⟩ 0 1 1446135326096)) (.sy
    (.out ⟨1585, 16, 81, 1382, 16, 1058, ⟨[[(0, 481036337152)], [(347892350976, 0)]], 1, 1⟩, ⟨[[(253799114582, 0),
    (0, 2696878166398)], [(0, 169591534293), (0, 3286605891)]], 1, 1⟩, 1099511627776, 0, 545538053113, ⟨[], 0, 0⟩, 0,
    0, 0, lc0⟩ 0 1 1483534220974) (.skip)))) (.sy (.sx (.sy (.out ⟨1615, 16, 81, 1568, 16, 1188, ⟨[[(0,
    68719476736)], [(347892350976, 0)]], 1, 1⟩, ⟨[[(0, 97967588336), (0, 2749969763366)], [(0, 168164353004), (0,
    2658645287)]], 1, 1⟩, 1099511627776, 0, 411528638254, ⟨[], 0, 0⟩, 0, 0, 0, lc0⟩ 0 1 1539111041853) (.sy (.out
    ⟨1615, 16, 81, 1943, 16, 1483, ⟨[[(0, 68719476736)], [(347892350976, 0)]], 1, 1⟩, ⟨[[(0, 338447751001), (0,
    1845240371846)], [(0, 226489097906), (0, 2046095413)]], 1, 1⟩, 1099511627776, 0, 359187387667, ⟨[], 0, 0⟩, 0, 0,
    0, lc0⟩ 0 1 1527893605572) (.out ⟨1615, 16, 81, 1823, 16, 1399, ⟨[[(0, 68719476736)], [(347892350976, 0)]], 1,
    1⟩, ⟨[[(0, 117834076354), (0, 1839746671132)], [(0, 226199938092), (0, 2264448500)]], 1, 1⟩, 1099511627776, 0,
    407701790297, ⟨[], 0, 0⟩, 0, 0, 0, lc0⟩ 0 1 1513543259770))) (.sy (.out ⟨1645, 16, 81, 1413, 16, 1081,
    ⟨[[(343597383680, 0)], [(347892350976, 0)]], 1, 1⟩, ⟨[[(0, 227989264030), (0, 2763818454030)], [(0,
    165888608327), (0, 3074043306)]], 1, 1⟩, 1099511627776, 0, 501985957079, ⟨[], 0, 0⟩, 0, 0, 0, lc0⟩ 0 1
    1559389822378) (.skip))) (.skip))) (.skip)) (.skip)
theorem c45 : checkC job ⟨6, 8, 8, 10, 9, 13⟩ 3 100 lims t45 656 48 32 87 3 256 = true := by decide +kernel

def t46 : CTree :=
  .sy (.sy (.sx (.out ⟨1311, 16, 81, 1948, 16, 1441, ⟨[[(206158430208, 0)], [(347892350976, 0)]], 1, 1⟩, ⟨[[(0,
    111885143276), (0, 2458802539063)], [(0, 187877841703), (0, 2176163630)]], 1, 1⟩, 1099511627776, 0, 317133983665,
    ⟨[], 0, 0⟩, 0, 0, 0, lc0⟩ 0 1 1132599318452) (.out ⟨1342, 16, 81, 1773, 16, 1323, ⟨[[(0, 481036337152)],
    [(347892350976, 0)]], 1, 1⟩, ⟨[[(0, 266463073403), (0, 2470715517438)], [(0, 186045892932), (0, 2475983243)]], 1,
    1⟩, 1099511627776, 0, 377374305498, ⟨[], 0, 0⟩, 0, 0, 0, lc0⟩ 0 1 1194446397750)) (.out ⟨655, 16, 40, 1094, 16,
    819, ⟨[[], [(343597383680, 0)]], 1, 1⟩, ⟨[[(117736618178, 0), (0, 1565663394019)], [(0, 239755586679), (0,
    3380405559)]], 1, 1⟩, 1099511627776, 0, 776929821903, ⟨[], 0, 0⟩, 0, 0, 0, lc0⟩ 0 1 1180351863043)) (.sy (.sx
    (.sy (.out ⟨1311, 16, 81, 2186, 16, 1638, ⟨[[(206158430208, 0)], [(347892350976, 0)]], 1, 1⟩, ⟨[[(0,
    70757900636), (0, 1573405243193)], [(0, 244452478696), (0, 1764702008)]], 1, 1⟩, 1099511627776, 0, 359664023167,
    ⟨[], 0, 0⟩, 0, 0, 0, lc0⟩ 0 1 1162475958304) (.out ⟨1311, 16, 81, 2080, 16, 1565, ⟨[[(206158430208, 0)],
    [(347892350976, 0)]], 1, 1⟩, ⟨[[(159495901740, 0), (0, 1566163313991)], [(0, 244326202509), (0, 1911790358)]], 1,
    1⟩, 1099511627776, 0, 398331669646, ⟨[], 0, 0⟩, 0, 0, 0, lc0⟩ 0 1 1165556696618)) (.out ⟨1342, 16, 81, 1443, 16,
    1095, ⟨[[(0, 481036337152)], [(347892350976, 0)]], 1, 1⟩, ⟨[[(41399366720, 0), (0, 2428083279030)], [(0,
    185687867806), (0, 3446440245)]], 1, 1⟩, 1099511627776, 0, 589182541821, ⟨[], 0, 0⟩, 0, 0, 0, lc0⟩ 0 1
    1200494763378)) (.sx (.out ⟨1311, 16, 81, 1475, 16, 1117, ⟨[[(206158430208, 0)], [(347892350976, 0)]], 1, 1⟩,
    ⟨[[(230780688893, 0), (0, 2397722823845)], [(0, 188038073680), (0, 3377773500)]], 1, 1⟩, 1099511627776, 0,
    577116821039, ⟨[], 0, 0⟩, 0, 0, 0, lc0⟩ 0 1 1164202914786) (.sx (.out ⟨2668, 16, 162, 1834, 16, 1401, ⟨[[(0,
    68719476736)], [(347892350976, 0)]], 1, 1⟩, ⟨[[(112899015275, 0), (0, 3358511668184)], [(0, 129746845456), (0,
    2806815338)]], 1, 1⟩, 1099511627776, 0, 523643536118, ⟨[], 0, 0⟩, 0, 0, 0, lc0⟩ 0 1 1179067752298) (.out ⟨2698,
    16, 162, 1674, 16, 1287, ⟨[[(343597383680, 0)], [(347892350976, 0)]], 1, 1⟩, ⟨[[(73014501232, 0), (0,
    3360097177348)], [(0, 128386866077), (0, 3176592388)]], 1, 1⟩, 1099511627776, 0, 611732201007, ⟨[], 0, 0⟩, 0, 0,
    0, lc0⟩ 0 1 1179201385250))))
theorem c46 : checkC job ⟨6, 8, 8, 10, 9, 13⟩ 3 100 lims t46 2096 48 128 183 3 512 = true := by decide +kernel

end PyX.Kron.T2b
