import Verif.Lemmas.P1hsJob

/-!
# Pressure from enthalpy and entropy in region 1, part A of the certificate
-/

namespace PyX.Kron.P1hs

set_option Elab.async false

def t0 : CTree :=
  .sy (.sy (.sy (.sy (.sy (.leaf ⟨283, 16, 3584, 183, 16, 3435, ⟨[[(0, 45126795378819072), (62509058896062324, 0),
    (0, 510013363081), (0, 92341945), (19897, 0)], [(0, 56672231077546272), (1476156941379, 0), (0, 164324255),
    (42121, 0), (0, 11)], [(0, 1382264794929), (440134875, 0), (0, 127573), (41, 0)], [(0, 123086236), (51251, 0),
    (0, 11)]], 3, 4⟩, ⟨[[(0, 285468370172280832), (97332113230328803, 0), (0, 3109026745553), (0, 21656948), (30357,
    0)], [(5546157860526946, 0), (2298506442129, 0), (0, 310533701), (75990, 0), (0, 20)], [(0, 1207171923332),
    (685328787, 0), (0, 214942), (71, 0)], [(0, 144749722), (79802, 0), (0, 20)]], 3, 4⟩, 1152921504606846976,
    5410297053568, 7976017505231, ⟨[[(26355758001919216, 0), (0, 178883598898650), (0, 20453836750), (6462762, 0),
    (10636, 0)], [(278414814060867, 0), (0, 82263052646), (0, 3834225), (0, 14240), (0, 21)], [(57418805635, 0), (0,
    24130529), (0, 425), (0, 2)], [(0, 9128122), (40999, 0)]], 3, 4⟩, 281474976710656, 1559368830,
    7892282317790095756377077243148686512402665195748087257975741030773180936298049605465591426512816899200574122027796457894541704843480642094,
    lc0⟩) (.leaf ⟨304, 16, 3611, 216, 16, 3493, ⟨[[(177521070752858112, 0), (62589306806854311, 0), (0,
    598001039627), (0, 68306838), (15469, 0)], [(0, 56597237107318725), (1385276094637, 0), (0, 128066565), (29851,
    0), (0, 7)], [(0, 1251597376828), (366922885, 0), (0, 92450), (28, 0)], [(0, 107259184), (44346, 0), (0, 9)]], 3,
    4⟩, ⟨[[(0, 520569307006730240), (96759290038320532, 0), (0, 3164277068713), (14717013, 0), (22034, 0)],
    [(6422217640640668, 0), (2141553218312, 0), (0, 247556284), (54289, 0), (0, 13)], [(0, 1007602980384),
    (567240630, 0), (0, 156053), (48, 0)], [(0, 121074306), (68556, 0), (0, 16)]], 3, 4⟩, 1152921504606846976,
    4242050282221, 6039638205717, ⟨[[(26264970771282532, 0), (0, 178606863758265), (0, 19268018072), (7095070, 0),
    (10563, 0)], [(276027078993239, 0), (0, 81390738384), (0, 5012904), (0, 15873), (0, 20)], [(55379002022, 0), (0,
    21100540), (0, 569), (0, 2)], [(0, 9405914), (42013, 0)]], 3, 4⟩, 281474976710656, 1569262947,
    9284981508838762494510482257149636185530591368843892454975338632865478384921970365570787038942847454600087358873016764039674486321282134574,
    lc0⟩)) (.leaf ⟨208, 16, 2256, 136, 16, 1830, ⟨[[(0, 305924329603694592), (77361323129912232, 0), (0,
    1706973866662), (0, 207235550), (104085, 0)], [(0, 34924852370025921), (1589198532791, 0), (0, 227334179),
    (91907, 0), (0, 40)], [(0, 675293137297), (361485629, 0), (0, 146267), (81, 0)], [(0, 53937720), (44716, 0), (0,
    18)]], 3, 4⟩, ⟨[[(0, 442821196233146368), (97928521989696494, 0), (0, 6518093429637), (211802103, 0), (106917,
    0)], [(3921567408434885, 0), (2011701159804, 0), (0, 377283146), (140520, 0), (0, 61)], [(0, 391206854502),
    (457589813, 0), (0, 205514), (115, 0)], [(0, 46677956), (56604, 0), (0, 25)]], 3, 4⟩, 1152921504606846976,
    16798796497582, 26692564907139, ⟨[[(26371317850254928, 0), (0, 348592275698445), (0, 67131423687), (59249454, 0),
    (155617, 0)], [(441127979382304, 0), (0, 253703533126), (0, 42994516), (0, 218517), (0, 459)], [(137548261243,
    0), (0, 84816331), (0, 8125), (0, 40)], [(0, 41918427), (359927, 0), (0, 8)]], 3, 4⟩, 281474976710656,
    11389310118,
    10451799941373647952545575742229578431424657519496153303938445924162179919276271712534778240879836071875238019415620278112589140398478045742,
    lc0⟩)) (.sy (.leaf ⟨235, 16, 2293, 172, 16, 1907, ⟨[[(0, 206403141043748864), (77354169489971855, 0), (0,
    1890598213510), (0, 96059811), (61643, 0)], [(0, 34957131461153737), (1482012492143, 0), (0, 156599048), (53311,
    0), (0, 19)], [(0, 573009156827), (287527292, 0), (0, 86622), (41, 0)], [(0, 40846857), (35064, 0), (0, 12)]], 3,
    4⟩, ⟨[[(0, 473152961740144640), (97391300780309685, 0), (0, 6496958409719), (326965675, 0), (46873, 0)],
    [(4777591203073373, 0), (1865899735387, 0), (0, 276032849), (84244, 0), (0, 30)], [(0, 262685184514), (362005787,
    0), (0, 124362), (59, 0)], [(0, 30767238), (44146, 0), (0, 17)]], 3, 4⟩, 1152921504606846976, 10050602940214,
    15528988757784, ⟨[[(26325820976913644, 0), (0, 343859914569756), (0, 57665772152), (64561961, 0), (154342, 0)],
    [(432827141528323, 0), (0, 245629408369), (0, 58894495), (0, 240337), (0, 420)], [(128145959499, 0), (0,
    54776548), (0, 11340), (0, 44)], [(0, 44042479), (365371, 0), (0, 9)]], 3, 4⟩, 281474976710656, 11396981318,
    7560820518883920602004298019603259563812153070893962820235603447210848684325571437693292449911218906290896882797762969727686735583363576366,
    lc0⟩) (.leaf ⟨262, 16, 2332, 209, 16, 1986, ⟨[[(564933090332311552, 0), (77297421320047037, 0), (0,
    1986676902622), (0, 30280826), (35932, 0)], [(0, 35041611422231891), (1412773904423, 0), (0, 114075763), (34073,
    0), (0, 10)], [(0, 489650287934), (243410840, 0), (0, 55269), (23, 0)], [(0, 30410722), (28392, 0), (0, 9)]], 3,
    4⟩, ⟨[[(0, 250501410534424576), (96821250594526705, 0), (0, 6382955204379), (380934841, 0), (12763, 0)],
    [(5623759920096628, 0), (1769613188869, 0), (0, 214068990), (55559, 0), (0, 16)], [(0, 155208648991), (304891696,
    0), (0, 81492), (33, 0)], [(0, 17890273), (35564, 0), (0, 12)]], 3, 4⟩, 1152921504606846976, 6179468044046,
    9125969329402, ⟨[[(26109483862426132, 0), (0, 338635707642256), (0, 49000815959), (68852297, 0), (154640, 0)],
    [(424178624696644, 0), (0, 237529335395), (0, 74726939), (0, 255055), (0, 385)], [(119699176088, 0), (0,
    27465365), (0, 14426), (0, 46)], [(0, 45699501), (365414, 0), (0, 9)]], 3, 4⟩, 281474976710656, 11304304459,
    8423898107113312798670843676496044805092776335334200274727627699196198931736945655850565580475387277074822900142371499776783271565953058472,
    lc0⟩))) (.sy (.sy (.leaf ⟨291, 16, 2373, 247, 16, 2068, ⟨[[(0, 267830086109298688), (77235444683552639, 0), (0,
    2031556031251), (8123563, 0), (20477, 0)], [(0, 35167402041014712), (1367559891097, 0), (0, 85966386), (23754,
    0), (0, 6)], [(0, 417587863680), (215458565, 0), (0, 37521), (14, 0)], [(0, 21782545), (23782, 0), (0, 6)]], 3,
    4⟩, ⟨[[(366721048637472768, 0), (96313402640707385, 0), (0, 6225799459350), (400199592, 0), (0, 6015)],
    [(6475842636064691, 0), (1705361404549, 0), (0, 172580498), (39714, 0), (0, 10)], [(0, 59602540698), (268679070,
    0), (0, 57089), (20, 0)], [(0, 7040403), (29657, 0), (0, 9)]], 3, 4⟩, 1152921504606846976, 3819690917132,
    5986544472275, ⟨[[(26594698993321876, 0), (0, 333281838329499), (0, 41267768273), (71801299, 0), (154108, 0)],
    [(415735765162204, 0), (0, 229428616252), (0, 89826684), (0, 263706), (0, 353)], [(111856164075, 0), (0, 868238),
    (0, 17205), (0, 47)], [(0, 48229669), (363435, 0), (0, 8)]], 3, 4⟩, 281474976710656, 11232970482,
    10801662504575655378895362027490060033010464469701398319827290232120607049985650417127622360816626576173797296518731299493891047387128645288,
    lc0⟩) (.leaf ⟨319, 16, 2414, 287, 16, 2150, ⟨[[(489344908903841792, 0), (77129366992844074, 0), (0,
    2045336978192), (30120205, 0), (11252, 0)], [(0, 35297854573486672), (1337965649816, 0), (0, 65728274), (17754,
    0), (0, 4)], [(0, 352238465059), (196813556, 0), (0, 26617), (9, 0)], [(0, 14355869), (20623, 0), (0, 4)]], 3,
    4⟩, ⟨[[(0, 172731086416445440), (95752862486652905, 0), (0, 6043208332817), (399727525, 0), (0, 15822)],
    [(7332819136408473, 0), (1661028034763, 0), (0, 142383036), (30158, 0), (0, 6)], [(29323224879, 0), (244335745,
    0), (0, 41985), (13, 0)], [(2498101, 0), (25603, 0), (0, 6)]], 3, 4⟩, 1152921504606846976, 2919275672345,
    4381585869309, ⟨[[(26170892487876396, 0), (0, 327795791088551), (0, 34019181402), (75469860, 0), (155526, 0)],
    [(406941622762980, 0), (0, 222076652782), (0, 105169084), (0, 270294), (0, 326)], [(105119019431, 0), (21906544,
    0), (0, 19750), (0, 46)], [(0, 49511716), (357839, 0), (0, 7)]], 3, 4⟩, 281474976710656, 11046957073,
    11390344139536556389237997119523356106435947500097245776612957461420810409790499057398862946729670133649578474662679471786326747094027323048,
    lc0⟩)) (.sy (.leaf ⟨349, 16, 2456, 327, 16, 2232, ⟨[[(0, 479420237496254464), (77027598993825055, 0), (0,
    2041908132037), (42359784, 0), (5808, 0)], [(0, 35443015979563008), (1320518093856, 0), (0, 50198644), (13988,
    0), (0, 2)], [(0, 291255302394), (184154196, 0), (0, 19362), (6, 0)], [(0, 7718900), (18540, 0), (0, 3)]], 3, 4⟩,
    ⟨[[(364446071085531136, 0), (95162704039517143, 0), (0, 5851291233431), (388678637, 0), (0, 20431)],
    [(8199168052747866, 0), (1631416196090, 0), (0, 119081638), (23923, 0), (0, 4)], [(114407379963, 0), (227510807,
    0), (0, 31878), (9, 0)], [(11210354, 0), (22905, 0), (0, 4)]], 3, 4⟩, 1152921504606846976, 2394957664661,
    3615564074391, ⟨[[(26660613248184556, 0), (0, 322678781254984), (0, 27860371632), (77993813, 0), (155337, 0)],
    [(398705134492450, 0), (0, 214919216460), (0, 119104619), (0, 273076), (0, 302)], [(98857490544, 0), (44159416,
    0), (0, 21777), (0, 45)], [(0, 52016823), (352168, 0), (0, 5)]], 3, 4⟩, 281474976710656, 10914535778,
    10844901270862250288979347898986331408033638689352290796647604316032281606121745053525046755866303066072227585851506466263132109583271315112,
    lc0⟩) (.leaf ⟨378, 16, 2499, 369, 16, 2315, ⟨[[(301292100462903296, 0), (76938536950464325, 0), (0,
    2028975121703), (48869602, 0), (2642, 0)], [(0, 35598964072778274), (1312741621297, 0), (0, 37683093), (11450,
    0), (0, 2)], [(0, 232940826774), (175632424, 0), (0, 14147), (5, 0)], [(0, 1552240), (17275, 0), (0, 2)]], 3, 4⟩,
    ⟨[[(0, 206206556180840448), (94597692514358173, 0), (0, 5661530036013), (372566715, 0), (0, 22096)],
    [(9082166054477119, 0), (1614045875635, 0), (0, 100365840), (19577, 0), (0, 3)], [(197575098392, 0), (215944086,
    0), (0, 24623), (7, 0)], [(19469674, 0), (21240, 0), (0, 3)]], 3, 4⟩, 1152921504606846976, 2302744024414,
    3360744021672, ⟨[[(26233858537992720, 0), (0, 317254266632675), (0, 21903280654), (81306451, 0), (156044, 0)],
    [(390021503211076, 0), (0, 208470755611), (0, 132820087), (0, 274374), (0, 280)], [(93509893015, 0), (62697881,
    0), (0, 23442), (0, 43)], [(0, 53175891), (343404, 0), (0, 3)]], 3, 4⟩, 281474976710656, 10666554162,
    9855022181722562815441128664202810021190623048912083437116913549373276644146459166818878627383924636240847265438257625065974933117985343144,
    lc0⟩)))) (.sy (.sy (.leaf ⟨240, 16, 1453, 222, 16, 1252, ⟨[[(29544551167328256, 0), (87040000923393989, 0), (0,
    4533442549755), (239726706, 0), (2409, 0)], [(0, 20302822381196153), (1490547530475, 0), (0, 51164115), (40354,
    0), (0, 10)], [(0, 83748000285), (190805541, 0), (0, 19095), (15, 0)], [(4162031, 0), (18745, 0), (0, 1)]], 3,
    4⟩, ⟨[[(63739705164234752, 0), (96210356511567369, 0), (0, 11056089169649), (1416052705, 0), (0, 178962)],
    [(5356554847750106, 0), (1647588554493, 0), (0, 160074631), (61866, 0), (0, 17)], [(164974826903, 0), (210908420,
    0), (0, 34359), (20, 0)], [(16224239, 0), (20720, 0), (0, 3)]], 3, 4⟩, 1152921504606846976, 77325637825951,
    145138458320721, ⟨[[(26407794000137644, 0), (0, 603158937086307), (0, 54592782855), (629526320, 0), (2233789,
    0)], [(666695414907152, 0), (0, 685312006279), (0, 1011432271), (0, 3555187), (0, 6368)], [(268908802049, 0),
    (536166548, 0), (0, 295774), (0, 903), (0, 1)], [(0, 307712683), (3536056, 0), (8, 0)]], 3, 4⟩, 281474976710656,
    106782115203,
    8372202858251247807757991415037513867648134522203297737024751680563353033727178407905785629005300825197450262086872413566361936246032025256,
    lc0⟩) (.leaf ⟨275, 16, 1505, 269, 16, 1345, ⟨[[(570600814108409856, 0), (86959070108015376, 0), (0,
    4436473906714), (243155511, 0), (0, 7524)], [(0, 20493895680961303), (1520621007720, 0), (0, 15429036), (30663,
    0), (0, 6)], [(0, 19401488176), (188743659, 0), (0, 6381), (11, 0)], [(11072557, 0), (19539, 0), (1, 0)]], 3, 4⟩,
    ⟨[[(0, 324288817821188096), (95570207583840935, 0), (0, 10413856412111), (1273888126, 0), (0, 160313)],
    [(6355467426304920, 0), (1671200775073, 0), (0, 113798898), (46025, 0), (0, 11)], [(252817662630, 0), (207434033,
    0), (0, 19033), (14, 0)], [(25017353, 0), (21474, 0)]], 3, 4⟩, 1152921504606846976, 46481454006511,
    93791789169755, ⟨[[(25910931152769540, 0), (0, 580194257171044), (0, 20338915196), (659258246, 0), (2158984, 0)],
    [(637495748578548, 0), (0, 645661963907), (0, 1142674681), (0, 3416728), (0, 5401)], [(244644332633, 0),
    (696446517, 0), (0, 301526), (0, 773), (0, 1)], [(0, 320846319), (3292819, 0), (96, 0)]], 3, 4⟩, 281474976710656,
    100049935280,
    4041109497228837203574589597609893742476926296423764019926124051503031724861832506155986923157541297519991198698340158303637883003881142617,
    lc0⟩)) (.sy (.leaf ⟨312, 16, 1557, 317, 16, 1439, ⟨[[(0, 177424632522080256), (86841781512223902, 0), (0,
    4332051309886), (238922511, 0), (0, 9573)], [(0, 20652068002674921), (1572653295269, 0), (13236308, 0), (24404,
    0), (0, 4)], [(47913350848, 0), (194435744, 0), (3829, 0), (9, 0)], [(18807630, 0), (22047, 0), (4, 0)]], 3, 4⟩,
    ⟨[[(466163098361856000, 0), (94923238958031761, 0), (0, 9828243896261), (1146578832, 0), (0, 138399)],
    [(7412470775104877, 0), (1719003709337, 0), (0, 77764119), (35540, 0), (0, 8)], [(346249851926, 0), (212529848,
    0), (0, 7218), (11, 0)], [(34957013, 0), (24099, 0), (3, 0)]], 3, 4⟩, 1152921504606846976, 30118353594693,
    62999734928083, ⟨[[(26708234531878684, 0), (0, 559062603422114), (4813836398, 0), (671634182, 0), (2040292, 0)],
    [(611243533708181, 0), (0, 607886689444), (0, 1238779631), (0, 3231072), (0, 4597)], [(223517824683, 0),
    (833713307, 0), (0, 290162), (0, 648), (0, 1)], [(0, 342588947), (3069575, 0), (177, 0)]], 3, 4⟩,
    281474976710656, 94230097965,
    8504764026296576628501809636771642692297666333844608963453097558475800604816105486195717568380683907714315491632001042597817557305959659865,
    lc0⟩) (.leaf ⟨349, 16, 1610, 368, 16, 1534, ⟨[[(293910287733096448, 0), (86751303438011094, 0), (0,
    4227323668277), (233420574, 0), (0, 9438)], [(0, 20783197640352171), (1644360007877, 0), (37355117, 0), (20173,
    0), (0, 3)], [(120775639055, 0), (207016597, 0), (12841, 0), (8, 0)], [(27967664, 0), (26106, 0), (6, 0)]], 3,
    4⟩, ⟨[[(9270871717183488, 0), (94281134927784135, 0), (0, 9294657529758), (1036688738, 0), (0, 118735)],
    [(8534552624071338, 0), (1787087013434, 0), (0, 48498235), (28278, 0), (0, 6)], [(447916556066, 0), (224985204,
    0), (2739, 0), (9, 0)], [(46687827, 0), (28372, 0), (5, 0)]], 3, 4⟩, 1152921504606846976, 21466071653530,
    44437797762532, ⟨[[(26242221990754600, 0), (0, 538365345585747), (28961304908, 0), (691222248, 0), (1937917, 0)],
    [(585123563757570, 0), (0, 578886035199), (0, 1321188226), (0, 3051452), (0, 3962)], [(207769848482, 0),
    (931535671, 0), (0, 270993), (0, 544), (0, 1)], [(0, 353501894), (2842145, 0), (241, 0)]], 3, 4⟩,
    281474976710656, 87809188929,
    10981594170864792471359941405182296575305620325295304154189058778418623889048720887740921208633800829330860569451393765315257611882520131929,
    lc0⟩)))
theorem c0 : checkC job ⟨6, 8, 6, 7, 9, 13⟩ 3 200 B1.zlims t0 457 121 320 667 175 1896 = true := by decide +kernel

def t1 : CTree :=
  .sy (.sy (.sy (.sy (.sy (.leaf ⟨269, 16, 3553, 183, 16, 3426, ⟨[[(0, 404072561021026304), (62348832893067545, 0),
    (0, 552602170957), (0, 79011548), (16423, 0)], [(0, 56867609089196108), (1684095966475, 0), (0, 226280071),
    (61960, 0), (0, 16)], [(0, 1464473537275), (476920632, 0), (0, 135787), (43, 0)], [(0, 137383097), (61019, 0),
    (0, 14)]], 3, 4⟩, ⟨[[(428503074393358336, 0), (97673090893977319, 0), (0, 3188684210911), (959880, 0), (24267,
    0)], [(4922293926171524, 0), (2638234763589, 0), (0, 417227216), (110932, 0), (0, 30)], [(0, 1316429252360),
    (747124045, 0), (0, 230488), (74, 0)], [(0, 165323220), (95590, 0), (0, 25)]], 3, 4⟩, 1152921504606846976,
    5286171429812, 7698730372761, ⟨[[(23033668550479804, 0), (0, 178415413235041), (0, 20506958297), (6701970, 0),
    (11010, 0)], [(279450894556834, 0), (0, 82617075297), (0, 3898932), (0, 14483), (0, 21)], [(58718816938, 0), (0,
    26050408), (0, 424), (0, 2)], [(0, 8289940), (40451, 0)]], 3, 4⟩, 281474976710656, 1531707205,
    9314691731854359935177622838263233384459655052074935343300576793623453344330955033279647133919804275874922907265421196215557981871905647363,
    lc0⟩) (.leaf ⟨290, 16, 3582, 216, 16, 3484, ⟨[[(0, 158574966562291712), (62441164655745492, 0), (0,
    629453270766), (0, 58930170), (13151, 0)], [(0, 56763021625142636), (1558535442056, 0), (0, 173205208), (43468,
    0), (0, 11)], [(0, 1323230974338), (398958996, 0), (0, 99356), (29, 0)], [(0, 118627631), (52383, 0), (0, 12)]],
    3, 4⟩, ⟨[[(328669192141340672, 0), (97061051976121022, 0), (0, 3225236229499), (30663945, 0), (17987, 0)],
    [(5897080773569881, 0), (2422650031947, 0), (0, 325317118), (78176, 0), (0, 20)], [(0, 1098563119696),
    (620157872, 0), (0, 168798), (51, 0)], [(0, 136963909), (81427, 0), (0, 20)]], 3, 4⟩, 1152921504606846976,
    4122636230828, 5838168698016, ⟨[[(22957057976755488, 0), (0, 178141844827254), (0, 19296788876), (7360668, 0),
    (10931, 0)], [(276911571505303, 0), (0, 81753219807), (0, 5093257), (0, 16131), (0, 21)], [(56582027263, 0), (0,
    22967200), (0, 569), (0, 2)], [(0, 8545791), (41493, 0)]], 3, 4⟩, 281474976710656, 1540915901,
    11232079867772302885238803941560152021013003936148868443907366654277261364725896585237764205934548803017508489167261875680470389181055970051,
    lc0⟩)) (.sy (.leaf ⟨311, 16, 3611, 250, 16, 3544, ⟨[[(286928929912651776, 0), (62482818198021114, 0), (0,
    687914508041), (0, 42904014), (10414, 0)], [(0, 56692336895566738), (1463318564344, 0), (0, 135705983), (31131,
    0), (0, 7)], [(0, 1204286077484), (341742169, 0), (0, 74130), (21, 0)], [(0, 102459991), (45323, 0), (0, 10)]],
    3, 4⟩, ⟨[[(0, 420184687621603328), (96450404896780393, 0), (0, 3235975798760), (52899708, 0), (12938, 0)],
    [(6823760610746848, 0), (2258823658956, 0), (0, 260396111), (56394, 0), (0, 13)], [(0, 915692981663), (527523750,
    0), (0, 126320), (36, 0)], [(0, 112666259), (69962, 0), (0, 16)]], 3, 4⟩, 1152921504606846976, 3272431591696,
    4433078868030, ⟨[[(22734809709640840, 0), (0, 177735718228723), (0, 18074596258), (7967580, 0), (10960, 0)],
    [(274312602331881, 0), (0, 80851125973), (0, 6396671), (0, 17629), (0, 20)], [(54559706828, 0), (0, 19956992),
    (0, 730), (0, 2)], [(0, 8751531), (42337, 0), (0, 1)]], 3, 4⟩, 281474976710656, 1546052969,
    11268097033280203311871725706290497873973924103903040094142530556335407537201465771727288113099443820161568672660161439460486383361677798147,
    lc0⟩) (.leaf ⟨333, 16, 3642, 283, 16, 3606, ⟨[[(0, 26667809790558208), (62519343926071448, 0), (0, 732137493890),
    (0, 30255528), (8177, 0)], [(0, 56677999100067764), (1390453021364, 0), (0, 108709422), (22800, 0), (0, 5)], [(0,
    1102331599316), (299134459, 0), (0, 56420), (15, 0)], [(0, 88454991), (39549, 0), (0, 8)]], 3, 4⟩,
    ⟨[[(515819345981734912, 0), (95854775077845507, 0), (0, 3227495204600), (69178611, 0), (8957, 0)],
    [(7717371892993816, 0), (2131845173820, 0), (0, 213489026), (41677, 0), (0, 9)], [(0, 758170716193), (458633512,
    0), (0, 96575), (25, 0)], [(0, 91634000), (60637, 0), (0, 14)]], 3, 4⟩, 1152921504606846976, 2464835077820,
    3219136325444, ⟨[[(22953666238965624, 0), (0, 177197212324881), (0, 16904860037), (8433976, 0), (10973, 0)],
    [(271760257244266, 0), (0, 79878687682), (0, 7676530), (0, 18824), (0, 19)], [(52606707647, 0), (0, 16902799),
    (0, 891), (0, 2)], [(0, 9056520), (43037, 0), (0, 1)]], 3, 4⟩, 281474976710656, 1554694550,
    11314745366455353536637906254607637475982332072624019917815644434756904677603025016556541835435048023401673572295791545172595787112422779651,
    lc0⟩))) (.sy (.leaf ⟨226, 16, 2280, 172, 16, 1899, ⟨[[(189386799164293120, 0), (77289486489596957, 0), (0,
    1922787581524), (0, 80211702), (55466, 0)], [(0, 35042020759132236), (1618438095374, 0), (0, 199690003), (73754,
    0), (0, 29)], [(0, 600340031218), (313242980, 0), (0, 95922), (45, 0)], [(0, 43622774), (40471, 0), (0, 15)]], 3,
    4⟩, ⟨[[(0, 167497153243185152), (97454150468528046, 0), (0, 6543731968120), (349458045, 0), (37714, 0)],
    [(4625405572479355, 0), (2040685180278, 0), (0, 338046502), (113761, 0), (0, 44)], [(0, 284781255179),
    (394967412, 0), (0, 137643), (64, 0)], [(0, 33264095), (51030, 0), (0, 21)]], 3, 4⟩, 1152921504606846976,
    9497526027028, 14665033301608, ⟨[[(22747938052304464, 0), (0, 343492974187151), (0, 57549253207), (67719342, 0),
    (161123, 0)], [(433121402944118, 0), (0, 247238618222), (0, 60084338), (0, 245327), (0, 429)], [(130538686829,
    0), (0, 64096175), (0, 11450), (0, 44)], [(0, 39618654), (360871, 0), (0, 10)]], 3, 4⟩, 281474976710656,
    11145485719,
    10582367608695761557227474559666875412770216933642872755788093714523766392291771652801872089724944114834857697242583985908307302704885476099,
    lc0⟩) (.leaf ⟨254, 16, 2320, 209, 16, 1978, ⟨[[(0, 234364638463852544), (77254393295450931, 0), (0,
    2007265282671), (0, 20548932), (32734, 0)], [(0, 35102460495022287), (1527916002255, 0), (0, 141701013), (45441,
    0), (0, 15)], [(0, 509586987376), (264182326, 0), (0, 61802), (25, 0)], [(0, 31604768), (32430, 0), (0, 10)]], 3,
    4⟩, ⟨[[(126030981043224576, 0), (96876061124105784, 0), (0, 6413772950489), (394792029, 0), (7929, 0)],
    [(5523124191435026, 0), (1915987916194, 0), (0, 254758926), (72161, 0), (0, 23)], [(0, 167724339425), (331281395,
    0), (0, 90824), (37, 0)], [(0, 18376797), (40666, 0), (0, 14)]], 3, 4⟩, 1152921504606846976, 5893194950889,
    8780333927193, ⟨[[(22993760907274044, 0), (0, 338494240731376), (0, 48713889333), (71954900, 0), (160790, 0)],
    [(424556213680326, 0), (0, 239431607366), (0, 76183512), (0, 260198), (0, 394)], [(121794330740, 0), (0,
    35226766), (0, 14628), (0, 47)], [(0, 41839630), (362988, 0), (0, 10)]], 3, 4⟩, 281474976710656, 11128288357,
    6572967794068284914322650390939629409346444279507639676116796677201515273387306701656766010725607135096575700285808825664871535472533777155,
    lc0⟩))) (.sy (.leaf ⟨168, 16, 1347, 135, 16, 1063, ⟨[[(0, 575054579303546880), (87259215591724810, 0), (0,
    4640536347690), (118282922, 0), (125800, 0)], [(0, 19934280001556945), (1637101695604, 0), (0, 205468122),
    (116802, 0), (0, 56)], [(0, 223483898582), (250239955, 0), (0, 79754), (55, 0)], [(0, 9828050), (28187, 0), (0,
    13)]], 3, 4⟩, ⟨[[(331797376284262400, 0), (97237722602655381, 0), (0, 12454142887428), (1657434784, 0), (0,
    112457)], [(3475848187185104, 0), (1824312073745, 0), (0, 365602235), (171958, 0), (0, 84)], [(0, 7772504027),
    (278856086, 0), (0, 109760), (73, 0)], [(0, 176264), (31411, 0), (0, 17)]], 3, 4⟩, 1152921504606846976,
    266462109274206, 456374258760801, ⟨[[(23423043876834884, 0), (0, 653026965171666), (0, 144484289798), (593396143,
    0), (2449466, 0)], [(727989662354655, 0), (0, 796576282763), (0, 686188537), (0, 3720299), (0, 9353)],
    [(345058233708, 0), (24239504, 0), (0, 230063), (0, 1139), (0, 2)], [(0, 249686091), (3929996, 0), (0, 175), (0,
    1)]], 3, 4⟩, 281474976710656, 117286924985,
    7749259472216278179004944538671060657551471813768877912332895360424246620515641662009234329056534576036153201268725891481048335882488270291,
    lc0⟩) (.leaf ⟨201, 16, 1397, 177, 16, 1153, ⟨[[(0, 361478436849876992), (87191032876310458, 0), (0,
    4619167467029), (223403199, 0), (31253, 0)], [(0, 20101610231172777), (1585312295213, 0), (0, 117430528), (69111,
    0), (0, 23)], [(0, 149058008627), (217937285, 0), (0, 41246), (27, 0)], [(0, 1260290), (22746, 0), (0, 6)]], 3,
    4⟩, ⟨[[(449761821907320832, 0), (96649789807892995, 0), (0, 11733861633337), (1569104994, 0), (0, 182812)],
    [(4420987350882266, 0), (1757291949157, 0), (0, 250418471), (104017, 0), (0, 37)], [(85634134326, 0), (241579806,
    0), (0, 62251), (36, 0)], [(9969556, 0), (25214, 0), (0, 8)]], 3, 4⟩, 1152921504606846976, 137676405192779,
    235430257343683, ⟨[[(23336269019695176, 0), (0, 628068541525434), (0, 91973941699), (630846548, 0), (2402574,
    0)], [(696506489493187, 0), (0, 743445268781), (0, 873429508), (0, 3734171), (0, 7802)], [(305723073068, 0),
    (287716972, 0), (0, 277852), (0, 1054), (0, 2)], [(0, 267362760), (3750238, 0), (0, 99)]], 3, 4⟩,
    281474976710656, 111751000708,
    6939887730908123482776352422720669086592541453047531967871169380455346977829416485432517212879137010285396143193305630729251610750779280851,
    lc0⟩))) (.sy (.sy (.leaf ⟨235, 16, 1447, 222, 16, 1246, ⟨[[(0, 246387958756474880), (87051203864804381, 0), (0,
    4528183473883), (249363380, 0), (0, 226)], [(0, 20258489082155723), (1579791321208, 0), (0, 60365862), (47827,
    0), (0, 12)], [(0, 79563330721), (204506633, 0), (0, 19866), (17, 0)], [(6442870, 0), (21265, 0), (0, 1)]], 3,
    4⟩, ⟨[[(136773696458489856, 0), (96158684900060903, 0), (0, 11043697446412), (1425362316, 0), (0, 182704)],
    [(5413383435778461, 0), (1745072430012, 0), (0, 176326466), (71680, 0), (0, 21)], [(177130273486, 0), (225902549,
    0), (0, 36138), (22, 0)], [(19532627, 0), (23490, 0), (0, 3)]], 3, 4⟩, 1152921504606846976, 76783124351500,
    145881521388245, ⟨[[(23086454047104896, 0), (0, 603389156131680), (0, 48913341672), (663030977, 0), (2331627,
    0)], [(666529967215279, 0), (0, 697839551681), (0, 1034596754), (0, 3642120), (0, 6545)], [(275281436935, 0),
    (499690884, 0), (0, 304083), (0, 929), (0, 1)], [(0, 284442199), (3535028, 0), (0, 6)]], 3, 4⟩, 281474976710656,
    105907111537,
    5644484237692194840718346483561489874334246541890073514612256363744642724978745259635570317524709682004784696515427787709766090077369421267,
    lc0⟩) (.leaf ⟨270, 16, 1499, 269, 16, 1338, ⟨[[(128218993607442432, 0), (86990208249187427, 0), (0,
    4422855417922), (250241473, 0), (0, 9123)], [(0, 20419412874734791), (1609135978073, 0), (0, 18153802), (36172,
    0), (0, 7)], [(0, 10106113611), (203180930, 0), (0, 5086), (13, 0)], [(14386983, 0), (22414, 0), (2, 0)]], 3, 4⟩,
    ⟨[[(0, 391574363750268928), (95487540891235720, 0), (0, 10388156049296), (1279179065, 0), (0, 162430)],
    [(6448764935500419, 0), (1766318768495, 0), (0, 122280947), (52887, 0), (0, 13)], [(271278326261, 0), (223027945,
    0), (0, 18507), (16, 0)], [(29619117, 0), (24603, 0), (1, 0)]], 3, 4⟩, 1152921504606846976, 46354111644334,
    94193378150003, ⟨[[(22603209035899572, 0), (0, 580716175347123), (0, 13135572169), (695806792, 0), (2258544, 0)],
    [(637185514200580, 0), (0, 660254818428), (0, 1171555955), (0, 3509415), (0, 5568)], [(251215386095, 0),
    (665898986, 0), (0, 311552), (0, 799), (0, 1)], [(0, 298502449), (3300319, 0), (86, 0)]], 3, 4⟩, 281474976710656,
    99446622225,
    2746046377104531925553179908013581380340140598425599374895919046866167261653106329579888004891997727182131769581272833423880248213311640830,
    lc0⟩)) (.sy (.leaf ⟨306, 16, 1551, 317, 16, 1431, ⟨[[(379152394871832576, 0), (86897913465889049, 0), (0,
    4311888401573), (244430690, 0), (0, 10627)], [(0, 20545823193593285), (1664404032076, 0), (15725840, 0), (28939,
    0), (0, 5)], [(63000367505, 0), (210929983, 0), (6806, 0), (10, 0)], [(23371494, 0), (25589, 0), (5, 0)]], 3, 4⟩,
    ⟨[[(236262940774105088, 0), (94821938085785249, 0), (0, 9792698355827), (1149404604, 0), (0, 139650)],
    [(7544390842396303, 0), (1816177279575, 0), (0, 80286143), (40809, 0), (0, 9)], [(371852826245, 0), (230164212,
    0), (0, 4923), (12, 0)], [(41114703, 0), (27923, 0), (4, 0)]], 3, 4⟩, 1152921504606846976, 30324111825432,
    63239247952305, ⟨[[(22784052888422852, 0), (0, 559179881376888), (14628068065, 0), (713760043, 0), (2143945, 0)],
    [(610324120402962, 0), (0, 625995286558), (0, 1272157867), (0, 3325227), (0, 4751)], [(231465945733, 0),
    (799236377, 0), (0, 301737), (0, 675), (0, 1)], [(0, 315928844), (3072478, 0), (167, 0)]], 3, 4⟩,
    281474976710656, 93392491697,
    6068337707895369769498374804154323455611727821865783678212403502268209902002498168009297297135747375874444462735408991007313735710312084014,
    lc0⟩) (.leaf ⟨344, 16, 1604, 367, 16, 1524, ⟨[[(0, 445418365956718592), (86836921827109742, 0), (0,
    4201729539686), (237897724, 0), (0, 10161)], [(0, 20642250785009952), (1742888036092, 0), (44477931, 0), (24204,
    0), (0, 3)], [(142802195375, 0), (226776651, 0), (17389, 0), (9, 0)], [(34114923, 0), (30629, 0), (7, 0)]], 3,
    4⟩, ⟨[[(474968071948795904, 0), (94109687818622742, 0), (0, 9245496275161), (1037261617, 0), (0, 119392)],
    [(8702928471907129, 0), (1888858397192, 0), (0, 45966490), (32596, 0), (0, 6)], [(481684370028, 0), (245769649,
    0), (6593, 0), (10, 0)], [(54754594, 0), (33194, 0), (6, 0)]], 3, 4⟩, 1152921504606846976, 21752389607621,
    44623952912840, ⟨[[(23317435786797860, 0), (0, 539621287445784), (37339820130, 0), (727749296, 0), (2028412, 0)],
    [(584918673519962, 0), (0, 595507075307), (0, 1354673784), (0, 3142288), (0, 4103)], [(214468796888, 0),
    (911965882, 0), (0, 281674), (0, 568), (0, 1)], [(0, 335135031), (2860935, 0), (238, 0)]], 3, 4⟩,
    281474976710656, 87660215771,
    8007272341333470656999435388851148473666353485098080174321357370076281311433416797111157762910120276341313059776967486581950125961832673838,
    lc0⟩)))
theorem c1 : checkC job ⟨6, 8, 6, 7, 9, 13⟩ 3 200 B1.zlims t1 699 121 320 667 175 1896 = true := by decide +kernel

def t2 : CTree :=
  .sy (.sy (.sy (.sy (.leaf ⟨528, 16, 2317, 683, 16, 2686, ⟨[[(0, 437834426400374784), (61008024246319186, 0), (0,
    1453785434301), (40661859, 0), (0, 822)], [(0, 58441357794106935), (2477294209033, 0), (41001203, 0), (6937, 0)],
    [(1091485832724, 0), (651908318, 0), (30866, 0), (6, 0)], [(448759532, 0), (184724, 0), (23, 0)]], 3, 4⟩, ⟨[[(0,
    367627541600927744), (78640528286410272, 0), (0, 3733144203046), (202307748, 0), (0, 11156)],
    [(31958993959561174, 0), (3193280354935, 0), (0, 22642854), (10964, 0), (0, 1)], [(3697869430407, 0), (840322484,
    0), (19921, 0), (7, 0)], [(831241548, 0), (238113, 0), (23, 0)]], 3, 4⟩, 1152921504606846976, 63285332064948,
    101064712013750, ⟨[[(24681133124810028, 0), (0, 312488588533800), (17350013452, 0), (152336690, 0), (239480, 0)],
    [(402693703641551, 0), (0, 240554918967), (0, 350375903), (0, 445302), (0, 325)], [(101517562480, 0), (296737029,
    0), (0, 46149), (0, 52)], [(0, 127157487), (576893, 0), (36, 0)]], 3, 4⟩, 281474976710656, 20386278420,
    10849372127264848956373420266746343821279719160594163310555681031479795823005188591090828696250306114855524169888703332822568356941288192345,
    lc0⟩) (.leaf ⟨555, 16, 2354, 719, 16, 2733, ⟨[[(0, 338126316205244416), (60963396406044368, 0), (0,
    1434229217009), (40166706, 0), (0, 801)], [(0, 58488305775946650), (2548532835991, 0), (48759232, 0), (6499, 0)],
    [(1344813092429, 0), (686358367, 0), (37290, 0), (6, 0)], [(524538711, 0), (204744, 0), (26, 0)]], 3, 4⟩, ⟨[[(0,
    551252571711602688), (77431415326343765, 0), (0, 3590392198207), (190742315, 0), (0, 10252)],
    [(33653063448623777, 0), (3236967034811, 0), (0, 12010213), (9891, 0), (0, 1)], [(4064617071855, 0), (871764090,
    0), (27450, 0), (7, 0)], [(933632299, 0), (260051, 0), (27, 0)]], 3, 4⟩, 1152921504606846976, 72143930653377,
    112822678876536, ⟨[[(24594953721113688, 0), (0, 310576873669540), (21218318092, 0), (159052913, 0), (243737, 0)],
    [(394354203014902, 0), (0, 238482389103), (0, 365885488), (0, 447613), (0, 319)], [(98511962054, 0), (311148700,
    0), (0, 44698), (0, 50)], [(0, 129225945), (562556, 0), (40, 0)]], 3, 4⟩, 281474976710656, 19748211812,
    10878007087679298283955046444268865889206215977028344182857336443110790134225113458529295205213556831527973946267985214870496973323869895001,
    lc0⟩)) (.sx (.leaf ⟨427, 16, 1719, 473, 16, 1721, ⟨[[(335789867417862144, 0), (86658683539610876, 0), (0,
    4018229805952), (223137333, 0), (0, 8696)], [(0, 20935007125842720), (1839544301251, 0), (77747042, 0), (15293,
    0), (0, 1)], [(293115742319, 0), (251721453, 0), (29685, 0), (7, 0)], [(52952499, 0), (38995, 0), (10, 0)]], 3,
    4⟩, ⟨[[(0, 23803871005900800), (92720170016456236, 0), (0, 8327617762002), (857654390, 0), (0, 88791)],
    [(10961320662458643, 0), (1968214302343, 0), (0, 2325969), (19395, 0), (0, 3)], [(683748475948, 0), (269328531,
    0), (20060, 0), (7, 0)], [(77842642, 0), (41723, 0), (9, 0)]], 3, 4⟩, 1152921504606846976, 14040498856771,
    26492775525038, ⟨[[(26219959304234308, 0), (0, 502185961817855), (65252541192, 0), (713544265, 0), (1728340, 0)],
    [(537382811937270, 0), (0, 529699430109), (0, 1429421502), (0, 2707139), (0, 3050)], [(181926579635, 0),
    (1072074339, 0), (0, 215551), (0, 390), (0, 1)], [(0, 375208961), (2439175, 0), (329, 0)]], 3, 4⟩,
    281474976710656, 75961107613,
    11163305916716157882606094645671212134959211324151608137196179330432363765103273233418701735587558656887797239360041644137658227675586902361,
    lc0⟩) (.leaf ⟨421, 16, 1713, 472, 16, 1708, ⟨[[(503134788120346624, 0), (86815093431715723, 0), (0,
    3983574953254), (226488462, 0), (0, 9038)], [(0, 20710658088505162), (1961799545720, 0), (93666335, 0), (19020,
    0), (0, 2)], [(334356404636, 0), (281818318, 0), (37637, 0), (9, 0)], [(63812846, 0), (46654, 0), (12, 0)]], 3,
    4⟩, ⟨[[(0, 316515161288933376), (92508764075439157, 0), (0, 8263974653863), (856253834, 0), (0, 88874)],
    [(11221344219239454, 0), (2090461971121, 0), (8986998, 0), (22824, 0), (0, 3)], [(739753095069, 0), (300301056,
    0), (27059, 0), (8, 0)], [(91431333, 0), (49714, 0), (11, 0)]], 3, 4⟩, 1152921504606846976, 14735475340803,
    27119956135356, ⟨[[(22496695878927828, 0), (0, 503181430360290), (78615506252, 0), (761141561, 0), (1829675, 0)],
    [(536177395353470, 0), (0, 552799967837), (0, 1475887655), (0, 2808066), (0, 3184)], [(190911510833, 0),
    (1053241161, 0), (0, 228048), (0, 414), (0, 1)], [(0, 353269773), (2456870, 0), (331, 0)]], 3, 4⟩,
    281474976710656, 75675865867,
    8280138790144595698557171470479765865873037429012322415675671574894937159991168216233546329333332075104455944332741846956086092289749660206,
    lc0⟩))) (.sy (.leaf ⟨406, 16, 1548, 483, 16, 1658, ⟨[[(215636546001305600, 0), (75788410001438919, 0), (0,
    3402568577279), (191787086, 0), (0, 7631)], [(0, 36353628209235054), (3544527036639, 0), (184304938, 0), (27582,
    0), (0, 2)], [(1480626513535, 0), (1054854591, 0), (149840, 0), (28, 0)], [(538921399, 0), (370096, 0), (97,
    0)]], 3, 4⟩, ⟨[[(169897508770807808, 0), (84233841100682527, 0), (0, 7212041318890), (718969463, 0), (0, 71345)],
    [(22820626996288224, 0), (3939509051261, 0), (44411634, 0), (33585, 0), (0, 4)], [(3145561861465, 0),
    (1172401612, 0), (118793, 0), (26, 0)], [(787371078, 0), (411337, 0), (91, 0)]], 3, 4⟩, 1152921504606846976,
    114257579745623, 160436479717531, ⟨[[(24596474050031104, 0), (0, 530096281279731), (102133868508, 0), (958793512,
    0), (2360165, 0)], [(589313719346619, 0), (0, 648699405967), (0, 2017644381), (0, 3845029), (0, 4484)],
    [(230126633716, 0), (1587410931, 0), (0, 296412), (0, 587), (0, 1)], [(0, 560313363), (3709248, 0), (634, 0), (1,
    0)]], 3, 4⟩, 281474976710656, 120769322331,
    9642694046765207788555770294240393350795411383035030080714805734770203674788240173356507207360544412840854206627455189284442667997805689177,
    lc0⟩) (.leaf ⟨442, 16, 1597, 529, 16, 1725, ⟨[[(477914354025627648, 0), (75801580090670215, 0), (0,
    3308245940872), (187007339, 0), (0, 7646)], [(0, 36200017258021545), (3799986773303, 0), (218809305, 0), (26322,
    0), (0, 1)], [(1928536506698, 0), (1206917209, 0), (184507, 0), (29, 0)], [(702696233, 0), (458878, 0), (120,
    0)]], 3, 4⟩, ⟨[[(0, 569766343810351104), (82648020014170721, 0), (0, 6769527240156), (652757724, 0), (0, 62326)],
    [(25184455595029432, 0), (4143203644540, 0), (80034987, 0), (29804, 0), (0, 3)], [(3715867353306, 0),
    (1315926628, 0), (150819, 0), (25, 0)], [(981294967, 0), (500324, 0), (112, 0)]], 3, 4⟩, 1152921504606846976,
    142977526321071, 192218825134232, ⟨[[(24139106936874344, 0), (0, 518133330221343), (122582110676, 0), (999411698,
    0), (2329682, 0)], [(564900155171772, 0), (0, 636249275837), (0, 2098812964), (0, 3752415), (0, 4222)],
    [(219701249103, 0), (1653348392, 0), (0, 255942), (0, 535), (0, 1)], [(0, 565825589), (3476959, 0), (678, 0), (1,
    0)]], 3, 4⟩, 281474976710656, 112021100394,
    6554022338496553057512959421446779163435799314662166092220626691436352358973931287986330207589408924030752542362716596757515645237939419481,
    lc0⟩))) (.sy (.sy (.leaf ⟨480, 16, 1648, 573, 16, 1787, ⟨[[(0, 76347509171093504), (75902142632645696, 0), (0,
    3217022230454), (182053784, 0), (0, 7723)], [(0, 35954783546586929), (4089195452598, 0), (253565562, 0), (25858,
    0), (0, 1)], [(2450631442844, 0), (1389666841, 0), (221747, 0), (30, 0)], [(906982698, 0), (568286, 0), (147,
    0)]], 3, 4⟩, ⟨[[(0, 262431989359443968), (80947458568187389, 0), (0, 6347719608855), (592967539, 0), (0, 54721)],
    [(27603314062844285, 0), (4361009689522, 0), (113275943, 0), (27190, 0), (0, 2)], [(4346796497418, 0),
    (1482039836, 0), (183083, 0), (25, 0)], [(1212937417, 0), (606060, 0), (135, 0)]], 3, 4⟩, 1152921504606846976,
    180935117958696, 233488008174457, ⟨[[(24550826902366488, 0), (0, 508371607410224), (138042255833, 0),
    (1031885384, 0), (2300250, 0)], [(542122817266098, 0), (0, 619833365622), (0, 2165534356), (0, 3671257), (0,
    4023)], [(207403833698, 0), (1714081679, 0), (0, 213407), (0, 494), (0, 1)], [(0, 574415596), (3264029, 0), (709,
    0), (1, 0)]], 3, 4⟩, 281474976710656, 103844119106,
    4157108686230248497164250466958322637235236058777258099740371620952579129252235941297378697321145650751760502578113791193236527644177541891,
    lc0⟩) (.leaf ⟨519, 16, 1701, 616, 16, 1845, ⟨[[(0, 223927447575330816), (76086528794356438, 0), (0,
    3128998254297), (176860652, 0), (0, 7809)], [(0, 35600653583026083), (4413619081673, 0), (289349936, 0), (26038,
    0)], [(3060857993098, 0), (1606186243, 0), (262271, 0), (32, 0)], [(1161132543, 0), (702222, 0), (179, 0)]], 3,
    4⟩, ⟨[[(68808535341137920, 0), (79202792973196294, 0), (0, 5950324642084), (539079746, 0), (0, 48258)],
    [(30090617438233867, 0), (4594386995011, 0), (144975540, 0), (25474, 0), (0, 2)], [(5047694745944, 0),
    (1671970564, 0), (216160, 0), (26, 0)], [(1489278520, 0), (730983, 0), (162, 0)]], 3, 4⟩, 1152921504606846976,
    230305427944214, 285961864500709, ⟨[[(24762542363515204, 0), (0, 499483987522162), (153408569985, 0),
    (1067199774, 0), (2286319, 0)], [(519958275288645, 0), (0, 605784404700), (0, 2226868297), (0, 3608821), (0,
    3879)], [(196306317969, 0), (1759246488, 0), (0, 173271), (0, 465), (0, 1)], [(0, 576303616), (3060399, 0), (727,
    0), (1, 0)]], 3, 4⟩, 281474976710656, 95813155973,
    8029521541412409614715406700262241465199322248450767579511084442536016815391748226440869110858234946142206225068095900184666818186731833000,
    lc0⟩)) (.sy (.sx (.leaf ⟨641, 16, 2008, 748, 16, 2164, ⟨[[(511588497115971584, 0), (86985538394164885, 0), (0,
    3502610074728), (194311767, 0), (0, 9000)], [(0, 20331793371282148), (2606815293927, 0), (166933419, 0), (13053,
    0)], [(1006347369158, 0), (489433875, 0), (77264, 0), (9, 0)], [(190228845, 0), (109854, 0), (27, 0)]], 3, 4⟩,
    ⟨[[(146828626729369600, 0), (87908343031545458, 0), (0, 6365917184691), (557194442, 0), (0, 48597)],
    [(18210055847982364, 0), (2634470249986, 0), (84009275, 0), (12226, 0), (0, 1)], [(1570251154149, 0), (494626138,
    0), (62182, 0), (6, 0)], [(234723235, 0), (111020, 0), (23, 0)]], 3, 4⟩, 1152921504606846976, 20580633422885,
    26852816430844, ⟨[[(26253493348158568, 0), (0, 432382358359135), (123815278195, 0), (734779108, 0), (1340847,
    0)], [(437108695761558, 0), (0, 446622426040), (0, 1528405092), (0, 2094504), (0, 1949)], [(138530745934, 0),
    (1211079722, 0), (0, 77205), (0, 226)], [(0, 390610862), (1686404, 0), (379, 0)]], 3, 4⟩, 281474976710656,
    51402615100,
    9127681384263562386969084975106988286237775803213541345074093904934727247977846216111371556146417598689590797578294651372576930780154676904,
    lc0⟩) (.leaf ⟨635, 16, 2002, 743, 16, 2137, ⟨[[(375355238077038592, 0), (87384812267435225, 0), (0,
    3446948974602), (197438164, 0), (0, 8963)], [(0, 19749672493143874), (2856065713147, 0), (208896779, 0), (17898,
    0)], [(1156306575816, 0), (577735387, 0), (99611, 0), (12, 0)], [(232954183, 0), (139002, 0), (36, 0)]], 3, 4⟩,
    ⟨[[(0, 404170297345966080), (87471363621865308, 0), (0, 6262463601676), (553583286, 0), (0, 48128)],
    [(18776893052349556, 0), (2858894538310, 0), (117193616, 0), (15752, 0), (0, 1)], [(1736515562011, 0),
    (578307612, 0), (81118, 0), (9, 0)], [(281516906, 0), (139139, 0), (32, 0)]], 3, 4⟩, 1152921504606846976,
    24379778496165, 30729065195437, ⟨[[(22578677251699932, 0), (0, 434772194276364), (143577572008, 0), (796781000,
    0), (1454349, 0)], [(435222310608342, 0), (0, 477352922948), (0, 1599858884), (0, 2215337), (0, 2088)],
    [(149369947012, 0), (1211958324, 0), (0, 87604), (0, 250), (0, 1)], [(0, 374526870), (1714174, 0), (391, 0)]], 3,
    4⟩, 281474976710656, 51450809053,
    7431642467178469860848346290643916299003671674205212905686222383356849761789754711992347184362196894579627291508966496867679752216851402195,
    lc0⟩)) (.sx (.leaf ⟨688, 16, 2070, 803, 16, 2245, ⟨[[(109606651294253056, 0), (87215849225334316, 0), (0,
    3407193030871), (187490123, 0), (0, 9030)], [(0, 19997353671482491), (2812711208288, 0), (186225104, 0), (13503,
    0)], [(1224148701565, 0), (563575419, 0), (89074, 0), (9, 0)], [(239266508, 0), (133913, 0), (32, 0)]], 3, 4⟩,
    ⟨[[(155931958096953344, 0), (86779968956994437, 0), (0, 6032557424801), (512375294, 0), (0, 43610)],
    [(19859460454468612, 0), (2798654069280, 0), (100077240, 0), (11981, 0)], [(1816815302562, 0), (560758828, 0),
    (71554, 0), (7, 0)], [(286913606, 0), (133244, 0), (28, 0)]], 3, 4⟩, 1152921504606846976, 25182455576766,
    31166377864319, ⟨[[(26410350941812256, 0), (0, 421692897169281), (131926806629, 0), (738180955, 0), (1294366,
    0)], [(419649117494953, 0), (0, 433179432103), (0, 1536205552), (0, 2018030), (0, 1842)], [(131248522870, 0),
    (1219835918, 0), (0, 55580), (0, 215)], [(0, 388171999), (1571585, 0), (373, 0)]], 3, 4⟩, 281474976710656,
    47353933974,
    11093416668803516940055947757893717485078316986667830889211313258394297731465349873889423076637642069203941854853726777545943435153513367208,
    lc0⟩) (.leaf ⟨682, 16, 2063, 797, 16, 2215, ⟨[[(0, 403564709675532288), (87634200480363105, 0), (0,
    3345070079029), (190718497, 0), (0, 8952)], [(0, 19294191415902585), (3100585163869, 0), (234789217, 0), (18791,
    0)], [(1413018112142, 0), (671819152, 0), (116031, 0), (13, 0)], [(295035387, 0), (171754, 0), (44, 0)]], 3, 4⟩,
    ⟨[[(0, 449091038842847232), (86322936985447395, 0), (0, 5923494329326), (508833025, 0), (0, 43114)],
    [(20514953344360287, 0), (3054191357388, 0), (138277980, 0), (15744, 0)], [(2020399458456, 0), (661766776, 0),
    (94144, 0), (10, 0)], [(346526576, 0), (169184, 0), (38, 0)]], 3, 4⟩, 1152921504606846976, 30671868234448,
    36690221155969, ⟨[[(22854509853735952, 0), (0, 424379388371254), (152543818182, 0), (802658130, 0), (1410484,
    0)], [(417923915547588, 0), (0, 464735450793), (0, 1613175909), (0, 2143799), (0, 1985)], [(142209620037, 0),
    (1226482406, 0), (0, 65045), (0, 239), (0, 1)], [(0, 374435672), (1603105, 0), (388, 0)]], 3, 4⟩,
    281474976710656, 47555875022,
    9138272449316541377591594644588723358387149542620847592076410401378713878318702490590138107201038227521977204148974183685272296225044057555,
    lc0⟩))))
theorem c2 : checkC job ⟨6, 8, 6, 7, 9, 13⟩ 3 200 B1.zlims t2 289 121 160 1017 175 1896 = true := by decide +kernel

def t3 : CTree :=
  .sy (.sy (.sy (.sy (.sy (.leaf ⟨254, 16, 3518, 184, 16, 3416, ⟨[[(125337542354370560, 0), (62166728993059308, 0),
    (0, 609464888054), (0, 60867010), (11616, 0)], [(0, 57034028132316033), (1907269477592, 0), (0, 291797420),
    (82362, 0), (0, 22)], [(0, 1554320574414), (519759287, 0), (0, 145858), (45, 0)], [(0, 151219855), (70539, 0),
    (0, 17)]], 3, 4⟩, ⟨[[(0, 233065175727505408), (98069620692478198, 0), (0, 3293878051026), (32148522, 0), (15711,
    0)], [(4242451135336059, 0), (3008766863810, 0), (0, 531876747), (147522, 0), (0, 40)], [(0, 1439834922407),
    (819933699, 0), (0, 249595), (79, 0)], [(0, 185696858), (111277, 0), (0, 30)]], 3, 4⟩, 1152921504606846976,
    4987504842389, 7330341620409, ⟨[[(19284242812657960, 0), (0, 177971441375612), (0, 20546231225), (7013162, 0),
    (11461, 0)], [(280620644168077, 0), (0, 83018436313), (0, 4018274), (0, 14850), (0, 22)], [(60145401653, 0), (0,
    28162855), (0, 428), (0, 2)], [(0, 7367823), (39849, 0)]], 3, 4⟩, 281474976710656, 1497562016,
    9251436176088839245869825751753496160195036327046053659997196906955918945384190610830751761354081146010404277295324676231799643396993657603,
    lc0⟩) (.leaf ⟨275, 16, 3550, 217, 16, 3473, ⟨[[(457309648133160960, 0), (62281060289797337, 0), (0,
    671311151243), (0, 46237402), (9948, 0)], [(0, 56912012947846973), (1745591980825, 0), (0, 221498890), (57619,
    0), (0, 15)], [(0, 1401157210854), (436108051, 0), (0, 107774), (31, 0)], [(0, 129664559), (60245, 0), (0, 14)]],
    3, 4⟩, ⟨[[(0, 255090811337900032), (97376433036872160, 0), (0, 3303684245184), (52470265, 0), (12312, 0)],
    [(5323504458362842, 0), (2729232929555, 0), (0, 409490332), (103365, 0), (0, 27)], [(0, 1200067484809),
    (681854905, 0), (0, 184288), (54, 0)], [(0, 152640164), (94193, 0), (0, 24)]], 3, 4⟩, 1152921504606846976,
    3943257427834, 5606779423029, ⟨[[(19199787333872616, 0), (0, 177747924871658), (0, 19316414957), (7710909, 0),
    (11395, 0)], [(277835893159748, 0), (0, 82167267647), (0, 5240553), (0, 16529), (0, 21)], [(57870344565, 0), (0,
    25016518), (0, 575), (0, 2)], [(0, 7587949), (40907, 0)]], 3, 4⟩, 281474976710656, 1504374876,
    11253763470737060754975673722599966350650793964398033908123071332166747010460335024277568392418125023461086557168924320189404160535483067139,
    lc0⟩)) (.sy (.leaf ⟨297, 16, 3582, 250, 16, 3533, ⟨[[(0, 134863526145884160), (62352811498608160, 0), (0,
    719415614276), (0, 33864202), (8253, 0)], [(0, 56833649037403965), (1623944975659, 0), (0, 171997014), (41101,
    0), (0, 10)], [(0, 1271866803772), (374146033, 0), (0, 81160), (22, 0)], [(0, 111172707), (51872, 0), (0, 11)]],
    3, 4⟩, ⟨[[(277628466871238656, 0), (96727801606311105, 0), (0, 3296370671217), (68472246, 0), (9118, 0)],
    [(6340311769530131, 0), (2519222848974, 0), (0, 323604484), (74057, 0), (0, 18)], [(0, 998829222341), (580412051,
    0), (0, 138987), (38, 0)], [(0, 124527098), (80469, 0), (0, 20)]], 3, 4⟩, 1152921504606846976, 3094497485560,
    4207962213825, ⟨[[(19423744797911840, 0), (0, 177379524196434), (0, 18093542967), (8283516, 0), (11362, 0)],
    [(275191423392451, 0), (0, 81284468567), (0, 6513433), (0, 17955), (0, 20)], [(55720974623, 0), (0, 21818979),
    (0, 733), (0, 2)], [(0, 7887837), (41879, 0), (0, 1)]], 3, 4⟩, 281474976710656, 1516826336,
    11313771526996967500332650457951683781081453490194546109227225073879527131047292232581880191213782804927641381226342575289724231562857753347,
    lc0⟩) (.leaf ⟨319, 16, 3615, 284, 16, 3595, ⟨[[(0, 411525127374831616), (62407816754684782, 0), (0,
    756219320942), (0, 23682544), (6698, 0)], [(0, 56803248920956666), (1531088439872, 0), (0, 136483163), (29935,
    0), (0, 7)], [(0, 1160589737503), (327517548, 0), (0, 62277), (16, 0)], [(0, 95196524), (45047, 0), (0, 9)]], 3,
    4⟩, ⟨[[(182340613807407104, 0), (96104371396033741, 0), (0, 3274995116771), (80542371, 0), (6344, 0)],
    [(7311418360117023, 0), (2357786247258, 0), (0, 261953278), (54286, 0), (0, 12)], [(0, 825441950029), (504357782,
    0), (0, 106979), (27, 0)], [(0, 100323632), (69370, 0), (0, 16)]], 3, 4⟩, 1152921504606846976, 2425839668342,
    3075465554158, ⟨[[(19474117457348512, 0), (0, 176873890363444), (0, 16869813986), (8816813, 0), (11413, 0)],
    [(272405348826844, 0), (0, 80336368616), (0, 7867628), (0, 19236), (0, 20)], [(53662587581, 0), (0, 18712375),
    (0, 902), (0, 2)], [(0, 8127190), (42593, 0), (0, 1)]], 3, 4⟩, 281474976710656, 1522738812,
    11102205310916639203321864152414760051480302919731547172346418080876635401705391425220272011734464405192459605466660112526104152124844712920,
    lc0⟩))) (.sy (.leaf ⟨217, 16, 2265, 172, 16, 1890, ⟨[[(390291985528815616, 0), (77188901974042729, 0), (0,
    1963943417581), (0, 59269943), (46966, 0)], [(0, 35107921809826617), (1765793320494, 0), (0, 247239215), (95797,
    0), (0, 39)], [(0, 628929337562), (342398783, 0), (0, 106942), (49, 0)], [(0, 46296964), (45797, 0), (0, 17)]],
    3, 4⟩, ⟨[[(0, 9559684499275776), (97507553792680580, 0), (0, 6602468238387), (379080200, 0), (25152, 0)],
    [(4460335184021564, 0), (2230608063873, 0), (0, 406606345), (145803, 0), (0, 59)], [(0, 308405147213),
    (432529378, 0), (0, 153375), (71, 0)], [(0, 35682620), (57852, 0), (0, 24)]], 3, 4⟩, 1152921504606846976,
    8685278780944, 13465878118056, ⟨[[(19199914306296148, 0), (0, 343347577925741), (0, 57467302485), (71118730, 0),
    (168547, 0)], [(433792568381893, 0), (0, 249118344493), (0, 61498006), (0, 251251), (0, 440)], [(133070868340,
    0), (0, 73471504), (0, 11596), (0, 45)], [(0, 35411965), (357352, 0), (0, 10)]], 3, 4⟩, 281474976710656,
    10920678481,
    10899107530299805391766698362880363710507293025853663645840323883232031413987343116397795301175916700651454394976224561041512490700630959064,
    lc0⟩) (.leaf ⟨245, 16, 2306, 209, 16, 1969, ⟨[[(0, 97454202049036288), (77171577222898928, 0), (0,
    2032984972912), (0, 7976398), (28377, 0)], [(0, 35141383452506319), (1651696418888, 0), (0, 172464974), (57954,
    0), (0, 20)], [(0, 529795565573), (287507932, 0), (0, 69432), (28, 0)], [(0, 32719909), (36423, 0), (0, 12)]], 3,
    4⟩, ⟨[[(349550085316182016, 0), (96916734698510359, 0), (0, 6451468451661), (412596704, 0), (1400, 0)],
    [(5413939931970643, 0), (2074300272100, 0), (0, 300027407), (90513, 0), (0, 31)], [(0, 180429633332), (361069853,
    0), (0, 101721), (41, 0)], [(0, 18798247), (45742, 0), (0, 17)]], 3, 4⟩, 1152921504606846976, 5527930034547,
    8222386603746, ⟨[[(19489447737188928, 0), (0, 338328825389855), (0, 48368825687), (75561721, 0), (167953, 0)],
    [(425056172247634, 0), (0, 241537252282), (0, 77884101), (0, 266207), (0, 404)], [(124137223948, 0), (0,
    44040914), (0, 14851), (0, 47)], [(0, 37563547), (360204, 0), (0, 10)]], 3, 4⟩, 281474976710656, 10923527745,
    7526454806431210026406322135153955047579267789519811059528657119370865115204168443225674848871015397552107478941691547763724049228011447256,
    lc0⟩))) (.sy (.leaf ⟨162, 16, 1340, 135, 16, 1057, ⟨[[(526719472735715328, 0), (87214860777805157, 0), (0,
    4670725477206), (149152003, 0), (109469, 0)], [(0, 19939991535851829), (1754205844160, 0), (0, 245226210),
    (144645, 0), (0, 74)], [(0, 229312982189), (270529240, 0), (0, 89589), (63, 0)], [(0, 9473051), (31447, 0), (0,
    15)]], 3, 4⟩, ⟨[[(287360505589989376, 0), (97144560120898367, 0), (0, 12478464356655), (1693917858, 0), (0,
    134902)], [(3452511802825143, 0), (1953927961046, 0), (0, 419491885), (208670, 0), (0, 108)], [(0, 7518648545),
    (301329886, 0), (0, 122359), (83, 0)], [(762979, 0), (35027, 0), (0, 19)]], 3, 4⟩, 1152921504606846976,
    261643937773487, 449838407017789, ⟨[[(19183015032152564, 0), (0, 652821248889784), (0, 141125552045), (630859048,
    0), (2582510, 0)], [(727584192426644, 0), (0, 806288281955), (0, 703931572), (0, 3821163), (0, 9638)],
    [(352303117111, 0), (0, 36507804), (0, 234870), (0, 1163), (0, 2)], [(0, 219330876), (3889030, 0), (0, 200), (0,
    1)]], 3, 4⟩, 281474976710656, 114924786685,
    4304799423410265678751281006177100704813334776534541834252063556648162870010812454178418277527043811468903586629541830238534960277456737534,
    lc0⟩) (.leaf ⟨195, 16, 1390, 178, 16, 1148, ⟨[[(547774378544726016, 0), (87148894365504682, 0), (0,
    4626782773771), (240593574, 0), (24823, 0)], [(0, 20072809418537485), (1686456139839, 0), (0, 137723677), (82909,
    0), (0, 29)], [(0, 148724502318), (234259210, 0), (0, 45312), (31, 0)], [(128460, 0), (25360, 0), (0, 6)]], 3,
    4⟩, ⟨[[(0, 519668611823566848), (96668540083156957, 0), (0, 11747061437125), (1589593949, 0), (0, 192076)],
    [(4444956257982381, 0), (1870674942459, 0), (0, 280775153), (122439, 0), (0, 46)], [(93274230785, 0), (259848343,
    0), (0, 68043), (42, 0)], [(12160110, 0), (28130, 0), (0, 9)]], 3, 4⟩, 1152921504606846976, 136131598334986,
    235634408072510, ⟨[[(18740317094860052, 0), (0, 627356532581146), (0, 84826246951), (675848415, 0), (2541251,
    0)], [(695576960687021, 0), (0, 756230796941), (0, 902927134), (0, 3848065), (0, 8042)], [(313066641903, 0),
    (234341892, 0), (0, 287173), (0, 1084), (0, 2)], [(0, 235121331), (3725411, 0), (0, 122)]], 3, 4⟩,
    281474976710656, 109802596288,
    5161609809938231264981271248016434326469551386026428116704905181480467423624006353503967893151388584574604277186029495568188669422149883134,
    lc0⟩))) (.sy (.sy (.leaf ⟨230, 16, 1441, 222, 16, 1239, ⟨[[(0, 490966748228485120), (87083206116422919, 0), (0,
    4525128823959), (260898620, 0), (0, 3426)], [(0, 20211570681118568), (1675689575351, 0), (0, 69873055), (56471,
    0), (0, 15)], [(0, 73715509584), (220014673, 0), (0, 20511), (20, 0)], [(8807661, 0), (23913, 0), (0, 1)]], 3,
    4⟩, ⟨[[(11373642440245248, 0), (96051899530208578, 0), (0, 11026227919098), (1435965495, 0), (0, 187160)],
    [(5471835152695658, 0), (1848268729568, 0), (0, 193198224), (82792, 0), (0, 25)], [(191493739846, 0), (242673969,
    0), (0, 37871), (25, 0)], [(22915211, 0), (26376, 0), (0, 3)]], 3, 4⟩, 1152921504606846976, 76556218606955,
    146845417774157, ⟨[[(19643321266979972, 0), (0, 604062938770657), (0, 42641399459), (701409068, 0), (2446570,
    0)], [(666171389935974, 0), (0, 711241763255), (0, 1062132036), (0, 3745554), (0, 6756)], [(281494231481, 0),
    (462845869, 0), (0, 313506), (0, 958), (0, 1)], [(0, 260463537), (3535413, 0), (0, 21)]], 3, 4⟩, 281474976710656,
    104952318485,
    4458706093446685799473263539108875058701023908546374390851626169010128374371245954090414500771094709736839887457087936959205659364050295849,
    lc0⟩) (.leaf ⟨265, 16, 1493, 269, 16, 1331, ⟨[[(0, 275765489210228736), (87042046313957926, 0), (0,
    4409793053269), (258726652, 0), (0, 11000)], [(0, 20339832117905827), (1704745154546, 0), (0, 20132443), (42540,
    0), (0, 9)], [(1601331734, 0), (219711403, 0), (0, 3320), (14, 0)], [(17849786, 0), (25507, 0), (3, 0)]], 3, 4⟩,
    ⟨[[(0, 443385011805814784), (95426544576297323, 0), (0, 10364310104406), (1286171275, 0), (0, 165002)],
    [(6551099431844871, 0), (1868958122776, 0), (0, 130373295), (60662, 0), (0, 15)], [(293018452366, 0), (240875541,
    0), (0, 17598), (18, 0)], [(34382472, 0), (27964, 0), (1, 0)]], 3, 4⟩, 1152921504606846976, 46300038782774,
    94846323482584, ⟨[[(19281893372680500, 0), (0, 581168283162537), (0, 5548999416), (734063853, 0), (2362781, 0)],
    [(636800169937117, 0), (0, 674890004055), (0, 1201330460), (0, 3605187), (0, 5741)], [(257558091152, 0),
    (634711395, 0), (0, 321801), (0, 826), (0, 1)], [(0, 276011266), (3306857, 0), (75, 0)]], 3, 4⟩, 281474976710656,
    98789273101,
    3303320390562503562491203027371028365751984183729191166849339071969336867092389163267484022166164042670797165567376517752688612827647138857,
    lc0⟩)) (.sy (.leaf ⟨301, 16, 1545, 317, 16, 1423, ⟨[[(0, 171313032706457600), (86975658963275214, 0), (0,
    4290950420266), (251095137, 0), (0, 11832)], [(0, 20431595694544084), (1764365918882, 0), (19826695, 0), (34206,
    0), (0, 5)], [(81417782937, 0), (230041095, 0), (10567, 0), (12, 0)], [(28190801, 0), (29489, 0), (6, 0)]], 3,
    4⟩, ⟨[[(29543088585572352, 0), (94742706573011751, 0), (0, 9757505734308), (1153533281, 0), (0, 141166)],
    [(7688751415262260, 0), (1921926255376, 0), (0, 81522642), (46785, 0), (0, 10)], [(401847778011, 0), (250584086,
    0), (0, 1934), (14, 0)], [(47548998, 0), (32122, 0), (5, 0)]], 3, 4⟩, 1152921504606846976, 30662985671983,
    63805186634981, ⟨[[(19457092459103772, 0), (0, 559823317018064), (23687027567, 0), (754615796, 0), (2248003, 0)],
    [(609765493131647, 0), (0, 642606783680), (0, 1307256077), (0, 3424135), (0, 4912)], [(238183924315, 0),
    (773330115, 0), (0, 313119), (0, 702), (0, 1)], [(0, 294298842), (3085136, 0), (161, 0)]], 3, 4⟩,
    281474976710656, 92948598681,
    3847680424571829443687688201789999192009071608236342772898409999017010793280677406221619135104093362216997882636761656378858322013974899459,
    lc0⟩) (.leaf ⟨338, 16, 1598, 367, 16, 1515, ⟨[[(22314991624847360, 0), (86945977996497867, 0), (0,
    4174168568590), (243411753, 0), (0, 10966)], [(0, 20489822716360759), (1851372748909, 0), (54033593, 0), (28949,
    0), (0, 4)], [(169338423277, 0), (249924979, 0), (23066, 0), (11, 0)], [(40690038, 0), (35722, 0), (9, 0)]], 3,
    4⟩, ⟨[[(95925995416649728, 0), (94023121252107375, 0), (0, 9201481117202), (1039586733, 0), (0, 120291)],
    [(8893364474248172, 0), (2002068968165, 0), (0, 41381914), (37563, 0), (0, 7)], [(521536805725, 0), (270268127,
    0), (11469, 0), (11, 0)], [(63313606, 0), (38629, 0), (8, 0)]], 3, 4⟩, 1152921504606846976, 22300612487780,
    45240128315364, ⟨[[(19384991568579684, 0), (0, 539770095649568), (49237994124, 0), (774263060, 0), (2135914, 0)],
    [(583727762792906, 0), (0, 615811519986), (0, 1394199355), (0, 3241791), (0, 4252)], [(222623283788, 0),
    (882166239, 0), (0, 294367), (0, 595), (0, 1)], [(0, 309505579), (2868829, 0), (232, 0)]], 3, 4⟩,
    281474976710656, 86995946915,
    5700620972474870339641390557106812535360418322054404963604187153218467703180749499695407642555458871577310675969668108173002179275137690371,
    lc0⟩)))
theorem c3 : checkC job ⟨6, 8, 6, 7, 9, 13⟩ 3 200 B1.zlims t3 941 121 320 667 175 1896 = true := by decide +kernel

def t4 : CTree :=
  .sy (.sy (.sy (.sy (.sy (.leaf ⟨240, 16, 3481, 184, 16, 3404, ⟨[[(0, 564314642907201536), (62000749009820034, 0),
    (0, 681631380492), (0, 37866337), (5488, 0)], [(0, 57205728307898013), (2148977816803, 0), (0, 361748248),
    (103530, 0), (0, 28)], [(0, 1652048895012), (568606028, 0), (0, 157770), (47, 0)], [(0, 164619446), (79830, 0),
    (0, 20)]], 3, 4⟩, ⟨[[(0, 41116051671121920), (98500155488119123, 0), (0, 3425574037895), (72290170, 0), (4624,
    0)], [(3499390703432299, 0), (3414065998817, 0), (0, 655905089), (186102, 0), (0, 51)], [(0, 1576643292156),
    (903340413, 0), (0, 272133), (83, 0)], [(0, 205755631), (126826, 0), (0, 35)]], 3, 4⟩, 1152921504606846976,
    4828643855734, 6985405702144, ⟨[[(15964473629942962, 0), (0, 177675451789103), (0, 20630967857), (7289951, 0),
    (11900, 0)], [(282154758998642, 0), (0, 83532237107), (0, 4109252), (0, 15189), (0, 22)], [(61652609294, 0), (0,
    30237872), (0, 429), (0, 2)], [(0, 6583747), (39413, 0)]], 3, 4⟩, 281474976710656, 1471643328,
    8043198405217575282104519274020923922839705206248013635855251463866138261573280014436920912223206225458026346202892509906608058541712384984,
    lc0⟩) (.leaf ⟨261, 16, 3517, 217, 16, 3461, ⟨[[(0, 81134101648048128), (62146793987242944, 0), (0, 724633235619),
    (0, 30152734), (5859, 0)], [(0, 57078096998742253), (1949449811469, 0), (0, 273693162), (72477, 0), (0, 19)],
    [(0, 1485730611312), (478386922, 0), (0, 117699), (33, 0)], [(0, 140395704), (67959, 0), (0, 16)]], 3, 4⟩,
    ⟨[[(92934755389112320, 0), (97739338299559702, 0), (0, 3402133144175), (80464226, 0), (4965, 0)],
    [(4698622967044043, 0), (3065933452018, 0), (0, 501412817), (130179, 0), (0, 34)], [(0, 1312158416564),
    (752367391, 0), (0, 202524), (58, 0)], [(0, 168081603), (106880, 0), (0, 28)]], 3, 4⟩, 1152921504606846976,
    3760582345329, 5198870412690, ⟨[[(15865193173959302, 0), (0, 177444280298153), (0, 19371718498), (8019508, 0),
    (11830, 0)], [(279028472161069, 0), (0, 82632071552), (0, 5351066), (0, 16881), (0, 21)], [(59191600562, 0), (0,
    26996174), (0, 577), (0, 2)], [(0, 6763937), (40436, 0), (0, 1)]], 3, 4⟩, 281474976710656, 1474924069,
    10470560406086002245136770741722730523252183131676104622694587796716176412198794465996433818617790821886758784296854636807720005419031110616,
    lc0⟩)) (.sx (.leaf ⟨209, 16, 2517, 138, 16, 1831, ⟨[[(0, 34595613926326272), (87686450944932905, 0), (0,
    2152250724895), (0, 120536553), (65161, 0)], [(0, 20027655715330657), (1193445654190, 0), (0, 251296103),
    (117267, 0), (0, 55)], [(0, 222440858858), (131787717, 0), (0, 53802), (28, 0)], [(0, 9546076), (9276, 0), (0,
    4)]], 3, 4⟩, ⟨[[(0, 240217411386146816), (99543048725857883, 0), (0, 6872412408986), (359760096, 0), (38750, 0)],
    [(1667033978022833, 0), (1354818419796, 0), (0, 345557629), (154834, 0), (0, 73)], [(0, 124884764987),
    (149607505, 0), (0, 67734), (35, 0)], [(0, 7694668), (10530, 0), (0, 5)]], 3, 4⟩, 1152921504606846976,
    9338959938996, 14363860467418, ⟨[[(16650202958780924, 0), (0, 343453609623753), (0, 65802325382), (64923011, 0),
    (166969, 0)], [(389813846900944, 0), (0, 223879941875), (0, 39333284), (0, 197258), (0, 410)], [(112111791122,
    0), (0, 85152677), (0, 6276), (0, 30)], [(0, 20877611), (233141, 0), (0, 7)]], 3, 4⟩, 281474976710656,
    6479859450,
    11048251203259741462357020833099252537010981800650939647356464011281497320213145864312622585538013284781183365076052693988678431383674201048,
    lc0⟩) (.leaf ⟨204, 16, 2508, 138, 16, 1825, ⟨[[(26057372818505728, 0), (87668516299543172, 0), (0,
    2208349200899), (0, 90197055), (50904, 0)], [(0, 20065011943237602), (1254391732941, 0), (0, 277073384), (130429,
    0), (0, 61)], [(0, 228682720841), (138227758, 0), (0, 56656), (29, 0)], [(0, 9873991), (9797, 0), (0, 4)]], 3,
    4⟩, ⟨[[(0, 366094480204857344), (99552531873235705, 0), (0, 6937269972369), (398027500, 0), (19941, 0)],
    [(1599958252271857, 0), (1424432376025, 0), (0, 378012180), (171807, 0), (0, 81)], [(0, 130163756642),
    (156965395, 0), (0, 71320), (37, 0)], [(0, 8000078), (11125, 0), (0, 5)]], 3, 4⟩, 1152921504606846976,
    7555377339750, 11876266552597, ⟨[[(14833138453222380, 0), (0, 343685409942111), (0, 65976535071), (66724830, 0),
    (171495, 0)], [(390149565420737, 0), (0, 224713434331), (0, 39952054), (0, 200418), (0, 417)], [(113137195645,
    0), (0, 89038055), (0, 6317), (0, 31)], [(0, 19494434), (231574, 0), (0, 7)]], 3, 4⟩, 281474976710656,
    6396474140,
    10400871952168678625212678325215197864074328418993821943680373744644003176800165193630258634829281941937636358491776656834978909712808239170,
    lc0⟩))) (.sy (.leaf ⟨209, 16, 2250, 172, 16, 1881, ⟨[[(0, 522870355425820672), (77122793212800965, 0), (0,
    2016848084001), (0, 32910260), (36089, 0)], [(0, 35186055268432405), (1927042800840, 0), (0, 300203456), (119863,
    0), (0, 49)], [(0, 659206335480), (375188694, 0), (0, 119709), (54, 0)], [(0, 48879751), (51093, 0), (0, 20)]],
    3, 4⟩, ⟨[[(101961673480470528, 0), (97606519815253524, 0), (0, 6678254321240), (416655025, 0), (9018, 0)],
    [(4284151649699707, 0), (2438863188034, 0), (0, 483025555), (180968, 0), (0, 74)], [(0, 333628687182),
    (474838387, 0), (0, 171574), (78, 0)], [(0, 38002809), (64663, 0), (0, 28)]], 3, 4⟩, 1152921504606846976,
    7508253427946, 11615830486496, ⟨[[(16058559198379688, 0), (0, 343434217413236), (0, 57426751471), (74400654, 0),
    (175832, 0)], [(434704412003557, 0), (0, 251052883144), (0, 62978296), (0, 257451), (0, 452)], [(135455363525,
    0), (0, 81930950), (0, 11759), (0, 46)], [(0, 31816282), (355031, 0), (0, 11)]], 3, 4⟩, 281474976710656,
    10740714526,
    10432441074514171976001041962501428215865763827014700319804606153698169045952476714077924551442242369935555928370283514216038750834427732952,
    lc0⟩) (.leaf ⟨236, 16, 2292, 209, 16, 1960, ⟨[[(80659123292274688, 0), (77117606587973749, 0), (0,
    2066340168630), (7705362, 0), (22816, 0)], [(0, 35188687168906020), (1786584255749, 0), (0, 206988097), (71882,
    0), (0, 25)], [(0, 550640647353), (313572598, 0), (0, 78174), (31, 0)], [(0, 33748070), (40423, 0), (0, 13)]], 3,
    4⟩, ⟨[[(539957770256023552, 0), (96995142277389458, 0), (0, 6500428781045), (434993198, 0), (0, 6951)],
    [(5298951730836234, 0), (2247087296196, 0), (0, 350726093), (110997, 0), (0, 39)], [(0, 193344431055),
    (394397857, 0), (0, 114187), (46, 0)], [(0, 19115266), (50843, 0), (0, 19)]], 3, 4⟩, 1152921504606846976,
    4980483219686, 7413025630755, ⟨[[(15960797060080834, 0), (0, 338142940446359), (0, 47994452450), (79312527, 0),
    (175408, 0)], [(425525663542624, 0), (0, 243545234632), (0, 79633423), (0, 272393), (0, 414)], [(126417528255,
    0), (0, 52990149), (0, 15059), (0, 48)], [(0, 33298468), (357007, 0), (0, 11)]], 3, 4⟩, 281474976710656,
    10696817406,
    7168238868734793388949706979992857452585014388036107724685408204814172936880473132102778599554643780824657143429995525507161914936489190360,
    lc0⟩))) (.sy (.leaf ⟨157, 16, 1333, 135, 16, 1052, ⟨[[(499132233112715264, 0), (87197777024178539, 0), (0,
    4710798862438), (187032030, 0), (88792, 0)], [(0, 19947870557922046), (1880992642810, 0), (0, 289817009),
    (176357, 0), (0, 93)], [(0, 234829077779), (293084848, 0), (0, 100649), (72, 0)], [(0, 9058308), (34769, 0), (0,
    17)]], 3, 4⟩, ⟨[[(380877326404878336, 0), (97173715613698703, 0), (0, 12527887047865), (1741234094, 0), (0,
    163420)], [(3432749513832491, 0), (2096189265160, 0), (0, 479974770), (250543, 0), (0, 134)], [(0, 6570782129),
    (326615479, 0), (0, 136627), (95, 0)], [(1771231, 0), (38747, 0), (0, 22)]], 3, 4⟩, 1152921504606846976,
    255561317074279, 441830143619243, ⟨[[(15734343216761468, 0), (0, 652719613057807), (0, 138243612725), (662919064,
    0), (2697067, 0)], [(727916274407110, 0), (0, 814777678205), (0, 719860713), (0, 3911637), (0, 9894)],
    [(358579370062, 0), (0, 86186336), (0, 239223), (0, 1184), (0, 2)], [(0, 195620749), (3864990, 0), (0, 222), (0,
    1)]], 3, 4⟩, 281474976710656, 113314657754,
    3973190745363628229018392105247945353762768672853883445693343660140146523502830227106961061744578412197864008073299000177092749888790242264,
    lc0⟩) (.leaf ⟨190, 16, 1383, 178, 16, 1142, ⟨[[(335621661555589120, 0), (87130099785674764, 0), (0,
    4639372281839), (261273540, 0), (16865, 0)], [(0, 20043236090455865), (1795372288180, 0), (0, 159951291), (98837,
    0), (0, 36)], [(0, 147352065466), (252430062, 0), (0, 49682), (36, 0)], [(1614268, 0), (28111, 0), (0, 7)]], 3,
    4⟩, ⟨[[(0, 513860148681605120), (96629186983429067, 0), (0, 11757347927081), (1613313745, 0), (0, 203378)],
    [(4468894356745918, 0), (1991107148577, 0), (0, 313637797), (143396, 0), (0, 56)], [(102414062515, 0),
    (279950461, 0), (0, 74255), (48, 0)], [(14455252, 0), (31175, 0), (0, 9)]], 3, 4⟩, 1152921504606846976,
    134449006786708, 238660035977295, ⟨[[(15352557836213468, 0), (0, 627729894852218), (0, 80066080353), (712163451,
    0), (2659477, 0)], [(695831877779912, 0), (0, 767493296440), (0, 925691904), (0, 3950657), (0, 8284)],
    [(319158435071, 0), (192075224, 0), (0, 294638), (0, 1112), (0, 2)], [(0, 211864912), (3720984, 0), (0, 142), (0,
    1)]], 3, 4⟩, 281474976710656, 108735116210,
    4561339476885709274426515137639234013012145289131563667363602891619281426558110458299947073526360814946523210949515310147275786612443046740,
    lc0⟩))) (.sy (.sy (.leaf ⟨224, 16, 1435, 222, 16, 1232, ⟨[[(449490007027482624, 0), (87137618654375643, 0), (0,
    4524333595673), (274628857, 0), (0, 7279)], [(0, 20161255989894474), (1779110196758, 0), (0, 79603141), (66470,
    0), (0, 18)], [(0, 66122432921), (237452333, 0), (0, 20938), (23, 0)], [(11342918, 0), (26805, 0)]], 3, 4⟩,
    ⟨[[(0, 106537895282671616), (95968502101321623, 0), (0, 11012664535005), (1449326642, 0), (0, 192602)],
    [(5537295991248760, 0), (1959412516577, 0), (0, 210782695), (95444, 0), (0, 29)], [(208280507801, 0), (261516725,
    0), (0, 39491), (29, 0)], [(26490289, 0), (29522, 0), (0, 2)]], 3, 4⟩, 1152921504606846976, 76050988747010,
    147978909711834, ⟨[[(15520025272593940, 0), (0, 603952947506566), (0, 34915161542), (745521105, 0), (2574210,
    0)], [(665166644874566, 0), (0, 725450558623), (0, 1089928554), (0, 3850660), (0, 6973)], [(288147005823, 0),
    (414730913, 0), (0, 322965), (0, 987), (0, 1)], [(0, 230886290), (3517995, 0), (0, 41)]], 3, 4⟩, 281474976710656,
    103270585046,
    4586389830416388468630449183851567333521502592891910540477151077839671512009088820235872416620453770038237787366388703153539412737055384404,
    lc0⟩) (.leaf ⟨259, 16, 1486, 268, 16, 1323, ⟨[[(311789067964448768, 0), (87057738524459382, 0), (0,
    4394117666852), (268649017, 0), (0, 13185)], [(0, 20240357261237142), (1807257063186, 0), (0, 21095129), (49879,
    0), (0, 10)], [(15854162142, 0), (238383941, 0), (0, 942), (17, 0)], [(21588278, 0), (28982, 0), (4, 0)]], 3, 4⟩,
    ⟨[[(441520922418282496, 0), (95316980061840682, 0), (0, 10334377306285), (1294113902, 0), (0, 167965)],
    [(6658998411202310, 0), (1978713074541, 0), (0, 137758026), (69438, 0), (0, 18)], [(317952448654, 0), (260999628,
    0), (0, 16156), (20, 0)], [(39448897, 0), (31731, 0), (2, 0)]], 3, 4⟩, 1152921504606846976, 46172097848236,
    95680713378842, ⟨[[(15885298455439988, 0), (0, 581421748030247), (1609395097, 0), (771049261, 0), (2464103, 0)],
    [(636882765070352, 0), (0, 689582324274), (0, 1225321060), (0, 3694762), (0, 5917)], [(264169069628, 0),
    (596469617, 0), (0, 331328), (0, 854), (0, 1)], [(0, 252142928), (3310416, 0), (59, 0)]], 3, 4⟩, 281474976710656,
    98035213860,
    4195915307391198778190424519554944528173193217030720854892428662893929368576493313500560106640906258193980220083589458754626586936179286868,
    lc0⟩)) (.sy (.leaf ⟨295, 16, 1539, 317, 16, 1414, ⟨[[(479116067311452160, 0), (87077059507925694, 0), (0,
    4268802679534), (259105518, 0), (0, 13199)], [(0, 20307755696533237), (1873842330834, 0), (25958008, 0), (40356,
    0), (0, 6)], [(103411998597, 0), (252109883, 0), (15325, 0), (14, 0)], [(33493542, 0), (34027, 0), (7, 0)]], 3,
    4⟩, ⟨[[(0, 409169103478194176), (94620706793620123, 0), (0, 9715438607151), (1158323535, 0), (0, 142876)],
    [(7842100563459691, 0), (2036176769924, 0), (0, 81043139), (53561, 0), (0, 11)], [(436189073582, 0), (273950630,
    0), (1953, 0), (16, 0)], [(54493356, 0), (36975, 0), (6, 0)]], 3, 4⟩, 1152921504606846976, 31312888454354,
    64648013191644, ⟨[[(15382332912313432, 0), (0, 560100713152052), (35187378209, 0), (804888710, 0), (2374040, 0)],
    [(608481393550862, 0), (0, 661937220231), (0, 1347165772), (0, 3537237), (0, 5097)], [(245660020124, 0),
    (737894385, 0), (0, 326245), (0, 733), (0, 1)], [(0, 266717618), (3088303, 0), (150, 0)]], 3, 4⟩,
    281474976710656, 91985416087,
    2537777599660909031242979687255854425833858154970817445651310485584838073878648781987563344160459183488539963437332256459923409891003589460,
    lc0⟩) (.leaf ⟨332, 16, 1591, 366, 16, 1504, ⟨[[(306386812800532480, 0), (87026280073455628, 0), (0,
    4141387600206), (249993893, 0), (0, 11844)], [(0, 20310924955230352), (1970290303004, 0), (66586389, 0), (34561,
    0), (0, 4)], [(200668896210, 0), (276828161, 0), (30171, 0), (13, 0)], [(48023605, 0), (41788, 0), (11, 0)]], 3,
    4⟩, ⟨[[(343790118153158656, 0), (93837706825256597, 0), (0, 9143832080993), (1041765615, 0), (0, 121202)],
    [(9090982018712133, 0), (2124502203908, 0), (0, 34119608), (43256, 0), (0, 8)], [(566864387472, 0), (298495119,
    0), (17651, 0), (13, 0)], [(72662641, 0), (45059, 0), (10, 0)]], 3, 4⟩, 1152921504606846976, 23017755805744,
    46250975602520, ⟨[[(15839658995074250, 0), (0, 540689611013383), (60440566341, 0), (821284668, 0), (2250571, 0)],
    [(583192951123086, 0), (0, 635718270614), (0, 1434819745), (0, 3351790), (0, 4423)], [(230114355652, 0),
    (856020520, 0), (0, 307568), (0, 624), (0, 1)], [(0, 286753532), (2886897, 0), (227, 0)]], 3, 4⟩,
    281474976710656, 86666554835,
    3790442817867220929334813328664833591689334465045401165144339797085628442935981162858974177632874462843903750471955892627970529909892228056,
    lc0⟩)))
theorem c4 : checkC job ⟨6, 8, 6, 7, 9, 13⟩ 3 200 B1.zlims t4 1183 121 320 667 175 1896 = true := by decide +kernel

end PyX.Kron.P1hs
