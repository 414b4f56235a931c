import Verif.Lemmas.S2bJob

/-!
# Temperature from pressure and entropy in subregion 2b, part A of the certificate
-/

namespace PyX.Kron.S2b

set_option Elab.async false

def t0 : CTree :=
  .sx (.sy (.sx (.sy (.sx (.leaf ⟨343, 16, 82, 14, 16, 92, ⟨[[(412316860416, 0)], [(352187318272, 0)]], 3, 4⟩, ⟨[[(0,
    421204849642), (4550523144413, 0), (0, 41440401022), (554369952, 0), (0, 7253851)], [(57422324395, 0), (98472397,
    0), (2120789, 0), (21724, 0), (140, 0)], [(0, 25848747), (1678, 0), (76, 0), (4, 0)], [(16085, 0)]], 3, 4⟩,
    1099511627776, 0, 298710123, ⟨[[(70780269833636, 0), (0, 255330798890), (358631685, 0), (52991, 0), (1162, 0)],
    [(41682870558, 0), (0, 99642679), (52118, 0), (0, 84), (1, 0)], [(0, 51403501), (137668, 0), (0, 1)], [(75112,
    0), (0, 210)]], 3, 4⟩, 68719476736, 35394991,
    1733163262246709506899909748268617743713103180156068588392854394786996971819473491294521655296, ⟨0, 2,
    85137864962876, [55456625954, 25865964, 16086]⟩⟩) (.leaf ⟨374, 16, 82, 19, 16, 94, ⟨[[(137438953472, 0)],
    [(352187318272, 0)]], 3, 4⟩, ⟨[[(0, 190676415058), (4659122257429, 0), (0, 42132534715), (568593494, 0), (0,
    7397198)], [(54016828040, 0), (100943481, 0), (2182033, 0), (23055, 0), (156, 0)], [(0, 22245024), (1727, 0),
    (80, 0), (4, 0)], [(12706, 0)]], 3, 4⟩, 1099511627776, 0, 230484994, ⟨[[(70845882584643, 0), (0, 249553819660),
    (345878462, 0), (65542, 0), (871, 0)], [(38295841267, 0), (0, 89301828), (48793, 0), (0, 68), (1, 0)], [(0,
    43808003), (115638, 0), (0, 2)], [(71358, 0), (0, 197)]], 3, 4⟩, 68719476736, 28234159,
    1373218830082415619904155334490000629796368970819535150553462891358624240704197825391954493440, ⟨0, 2,
    92198326411609, [52005037263, 22262430, 12707]⟩⟩)) (.leaf ⟨179, 16, 41, 37, 16, 85, ⟨[[(412316860416, 0)],
    [(352187318272, 0)]], 3, 4⟩, ⟨[[(0, 376004723701), (3800670867877, 0), (0, 30179757674), (387420999, 0), (0,
    4101050)], [(102962149070, 0), (234169367, 0), (4751504, 0), (51717, 0), (678, 0)], [(0, 87458795), (11690, 0),
    (657, 0), (27, 0), (1, 0)], [(104254, 0), (1, 0)]], 3, 4⟩, 1099511627776, 0, 3264966211, ⟨[[(64950625776330, 0),
    (0, 257497791908), (429495057, 0), (148609, 0), (385, 0)], [(75470311425, 0), (0, 201411457), (116791, 0), (93,
    0), (3, 0)], [(0, 178452029), (553109, 0), (0, 77), (0, 2)], [(571365, 0), (0, 1827)]], 3, 4⟩, 68719476736,
    217942782, 1636726239571305224001255356592732732483342596559081458777034767756676702673224233149664449566, ⟨0, 2,
    81065894287355, [98082448699, 87573615, 104254]⟩⟩)) (.sy (.leaf ⟨210, 16, 41, 23, 16, 83, ⟨[[(137438953472, 0)],
    [(352187318272, 0)]], 3, 4⟩, ⟨[[(0, 519500379130), (4126772407356, 0), (0, 36923199308), (505069877, 0), (0,
    6510323)], [(85320346530, 0), (179144717, 0), (3895052, 0), (43011, 0), (314, 0)], [(0, 62255683), (6161, 0),
    (296, 0), (16, 0)], [(63325, 0)]], 3, 4⟩, 1099511627776, 0, 1703453231, ⟨[[(70752335381581, 0), (0,
    281453513260), (448504921, 0), (121914, 0), (1058, 0)], [(68235957449, 0), (0, 179266573), (121264, 0), (0, 153),
    (3, 0)], [(0, 138522903), (414783, 0), (0, 18), (0, 1)], [(412001, 0), (0, 1361)]], 3, 4⟩, 68719476736,
    273276749, 1366702807595398665704437522127668326653724342157904317198013819235646081093977183016751988736, ⟨0, 2,
    87644614671193, [81758827394, 62316179, 63329]⟩⟩) (.leaf ⟨210, 16, 41, 47, 16, 89, ⟨[[(137438953472, 0)],
    [(352187318272, 0)]], 3, 4⟩, ⟨[[(116842217315, 0), (4003178065069, 0), (0, 31115934505), (411113587, 0), (0,
    4219196)], [(92801511827, 0), (247574580, 0), (5110165, 0), (59657, 0), (851, 0)], [(0, 66700846), (12604, 0),
    (718, 0), (29, 0), (1, 0)], [(67907, 0), (1, 0)]], 3, 4⟩, 1099511627776, 0, 1802844266, ⟨[[(65085138260599, 0),
    (0, 244877538374), (398391920, 0), (142894, 0), (362, 0)], [(64553379065, 0), (0, 162553300), (104002, 0), (75,
    0), (2, 0)], [(0, 129897837), (384994, 0), (0, 74), (0, 1)], [(383717, 0), (0, 1262)]], 3, 4⟩, 68719476736,
    226714425, 856470797388698784717433095832868591734564424294694461594722131157822405946081220982190966609, ⟨0, 2,
    93980369948629, [87669104073, 66820963, 67907]⟩⟩))) (.sx (.sx (.leaf ⟨343, 16, 82, 46, 16, 61, ⟨[[(412316860416,
    0)], [(352187318272, 0)]], 3, 4⟩, ⟨[[(0, 527086564109), (4784340333416, 0), (0, 61693631495), (1595836656, 0),
    (0, 23666794)], [(39425890917, 0), (239267952, 0), (9410433, 0), (266252, 0), (10590, 0)], [(0, 17097011),
    (11616, 0), (1327, 0), (100, 0), (5, 0)], [(10668, 0), (1, 0)]], 3, 4⟩, 1099511627776, 0, 599074476,
    ⟨[[(57756227222318, 0), (0, 323793576344), (859299195, 0), (570155, 0), (4593, 0)], [(36321508132, 0), (0,
    141557880), (131053, 0), (189, 0), (0, 10)], [(0, 43820568), (203975, 0), (0, 104)], [(63596, 0), (0, 308)]], 3,
    4⟩, 68719476736, 199913624,
    2276073742393891171936939203053531571258225916111677722819612101569038625915314670860397569294, ⟨0, 2,
    56450106116689, [36770154165, 17150258, 10666]⟩⟩) (.leaf ⟨374, 16, 82, 49, 16, 61, ⟨[[(137438953472, 0)],
    [(352187318272, 0)]], 3, 4⟩, ⟨[[(0, 189455371261), (4807417871014, 0), (0, 60777895877), (1622324151, 0), (0,
    22600498)], [(36413969033, 0), (241521960, 0), (9668524, 0), (285675, 0), (11631, 0)], [(0, 14393037), (11862,
    0), (1362, 0), (103, 0), (6, 0)], [(8248, 0), (1, 0)]], 3, 4⟩, 1099511627776, 0, 574158526, ⟨[[(57865816231263,
    0), (0, 322799495527), (868703654, 0), (634660, 0), (5492, 0)], [(33403256269, 0), (0, 129055115), (126203, 0),
    (70, 0), (0, 11)], [(0, 37315643), (174658, 0), (0, 90)], [(60300, 0), (0, 297)]], 3, 4⟩, 68719476736, 189383180,
    1612758532645916843942781216215099303399349380449221081650815066726704465966115364186498269184, ⟨0, 2,
    59830828841576, [33747949713, 14446896, 8246]⟩⟩)) (.sx (.leaf ⟨405, 16, 82, 52, 16, 61, ⟨[[(0, 137438953472)],
    [(352187318272, 0)]], 3, 4⟩, ⟨[[(0, 118020180722), (4830714045711, 0), (0, 59837059472), (1650705910, 0), (0,
    21432455)], [(33861231738, 0), (243822716, 0), (9933347, 0), (305714, 0), (12710, 0)], [(0, 12281314), (12103,
    0), (1397, 0), (106, 0), (6, 0)], [(6508, 0), (1, 0)]], 3, 4⟩, 1099511627776, 0, 568066294, ⟨[[(57895118900108,
    0), (0, 321387900712), (878566510, 0), (706358, 0), (6392, 0)], [(30896832632, 0), (0, 118313815), (121088, 0),
    (0, 45), (0, 11)], [(0, 31780845), (148657, 0), (0, 78)], [(48337, 0), (0, 250)]], 3, 4⟩, 68719476736, 179321770,
    1420235332763204719851095927971139766600282866171877517695185310824779853660194462090264300059, ⟨0, 2,
    62944362859461, [31184814292, 12335765, 6506]⟩⟩) (.leaf ⟨436, 16, 82, 56, 16, 62, ⟨[[(0, 412316860416)],
    [(352187318272, 0)]], 3, 4⟩, ⟨[[(0, 386246650377), (4933810889615, 0), (0, 59835571367), (1708598752, 0), (0,
    20489528)], [(32189648356, 0), (250204722, 0), (10372079, 0), (331712, 0), (14052, 0)], [(0, 10774470), (12540,
    0), (1454, 0), (111, 0), (6, 0)], [(5311, 0), (1, 0)]], 3, 4⟩, 1099511627776, 0, 583849472, ⟨[[(57826022274411,
    0), (0, 314282379121), (860720992, 0), (750575, 0), (6853, 0)], [(28717276621, 0), (0, 107291569), (111943, 0),
    (0, 152), (0, 11)], [(0, 27349488), (125203, 0), (0, 65), (1, 0)], [(38267, 0), (0, 199)]], 3, 4⟩, 68719476736,
    152756816, 1318110406429855855421478187875686106863207849417292908869582870298506761724385777890480660912, ⟨0, 2,
    66909043870261, [29458673173, 10830395, 5309]⟩⟩)))) (.sy (.sx (.leaf ⟨241, 16, 41, 24, 16, 49, ⟨[[(0,
    137438953472)], [(352187318272, 0)]], 3, 4⟩, ⟨[[(0, 85781818100), (4649507023492, 0), (0, 76231438363),
    (2084907916, 0), (0, 46677239)], [(44555996857, 0), (242456667, 0), (10371757, 0), (244871, 0), (5695, 0)], [(0,
    27947749), (10135, 0), (1127, 0), (99, 0), (5, 0)], [(24817, 0), (1, 0)]], 3, 4⟩, 1099511627776, 0, 1399744364,
    ⟨[[(67827045622210, 0), (0, 458282421045), (1319968753, 0), (830466, 0), (4549, 0)], [(57950282488, 0), (0,
    258900301), (330233, 0), (0, 51), (19, 0)], [(0, 101691793), (526069, 0), (0, 146), (0, 5)], [(258974, 0), (0,
    1507)]], 3, 4⟩, 68719476736, 283099899,
    1533847019244986648256291293582765586040550303391828037969340094489916588060667143466401136640, ⟨0, 3,
    56066436610414, [42105481732, 27995666, 24819]⟩⟩) (.leaf ⟨272, 16, 41, 28, 16, 49, ⟨[[(0, 412316860416)],
    [(352187318272, 0)]], 3, 4⟩, ⟨[[(0, 443970958420), (4672876887564, 0), (0, 75225226214), (2109331796, 0), (0,
    46086874)], [(39798483749, 0), (244421779, 0), (10592381, 0), (264039, 0), (6614, 0)], [(0, 21968475), (10332,
    0), (1170, 0), (101, 0), (5, 0)], [(17306, 0), (1, 0)]], 3, 4⟩, 1099511627776, 0, 1208245620, ⟨[[(67690807865214,
    0), (0, 455162003199), (1340459718, 0), (905590, 0), (5172, 0)], [(51395213873, 0), (0, 227536381), (320265, 0),
    (0, 61), (13, 0)], [(0, 79760752), (409181, 0), (0, 154), (0, 4)], [(179442, 0), (0, 1022)]], 3, 4⟩, 68719476736,
    219236064, 1604462836556642804125121509524369904225426735250789914441187114269038566352983803471285190656, ⟨0, 3,
    59870604674243, [37338823422, 22015816, 17308]⟩⟩)) (.sx (.leaf ⟨241, 16, 41, 55, 16, 57, ⟨[[(0, 137438953472)],
    [(352187318272, 0)]], 3, 4⟩, ⟨[[(0, 151517814172), (4569288090663, 0), (0, 53608943619), (1616867049, 0), (0,
    16860375)], [(54031153345, 0), (466787303, 0), (19854875, 0), (669897, 0), (29098, 0)], [(0, 32357673), (47396,
    0), (5535, 0), (425, 0), (23, 0)], [(28885, 0), (6, 0), (1, 0)]], 3, 4⟩, 1099511627776, 0, 1190669206,
    ⟨[[(57885386766886, 0), (0, 339710463362), (1035102673, 0), (1097328, 0), (10851, 0)], [(52104477722, 0), (0,
    209072375), (246604, 0), (0, 690), (0, 32)], [(0, 89583134), (440509, 0), (0, 242), (3, 0)], [(224328, 0), (0,
    1263)]], 3, 4⟩, 68719476736, 395968202,
    1332888167034072415256958296964202368241656759430680188557063765619941330259119104940984376051, ⟨0, 3,
    65220140546808, [48979846096, 32566387, 28871]⟩⟩) (.leaf ⟨272, 16, 41, 59, 16, 57, ⟨[[(0, 412316860416)],
    [(352187318272, 0)]], 3, 4⟩, ⟨[[(362553333407, 0), (4614541547613, 0), (0, 51651115617), (1685164815, 0), (0,
    13848945)], [(48526708447, 0), (476045244, 0), (20940932, 0), (753693, 0), (33686, 0)], [(0, 25397716), (49027,
    0), (5776, 0), (448, 0), (25, 0)], [(20147, 0), (6, 0), (1, 0)]], 3, 4⟩, 1099511627776, 0, 1007399647,
    ⟨[[(58054209633762, 0), (0, 337407831216), (1056492407, 0), (1254462, 0), (11968, 0)], [(46391397075, 0), (0,
    183131899), (223744, 0), (0, 960), (0, 30)], [(0, 70583761), (341967, 0), (0, 178), (4, 0)], [(156531, 0), (0,
    856)]], 3, 4⟩, 68719476736, 297928229,
    1425411341126263391377478648276208717886733580961170502237464892164059205636377984808211006303, ⟨0, 3,
    69645397274119, [43434957859, 25610235, 20134]⟩⟩)))
theorem c0 : checkC job ⟨6, 8, 7, 8, 9, 13⟩ 3 100 lims t0 176 48 32 3 3 32 = true := by decide +kernel

def t1 : CTree :=
  .sy (.sx (.sx (.leaf ⟨302, 16, 41, 32, 16, 50, ⟨[[(412316860416, 0)], [(352187318272, 0)]], 3, 4⟩, ⟨[[(0,
    516345285594), (4792282812249, 0), (0, 75711677273), (2179202200, 0), (0, 46332204)], [(36745252496, 0),
    (251451896, 0), (11041888, 0), (289459, 0), (7745, 0)], [(0, 18080579), (10725, 0), (1236, 0), (106, 0), (5, 0)],
    [(12800, 0), (1, 0)]], 3, 4⟩, 1099511627776, 0, 1139016891, ⟨[[(67629525225447, 0), (0, 443491443170),
    (1305572754, 0), (921569, 0), (5784, 0)], [(46361927719, 0), (0, 199303071), (297819, 0), (0, 126), (7, 0)], [(0,
    64693932), (323423, 0), (0, 146), (0, 3)], [(131249, 0), (0, 721)]], 3, 4⟩, 68719476736, 219626915,
    1945189702671758164933644651520658805422187686269515191412839195065883010549219011108454531072, ⟨0, 3,
    64557504554094, [34226178509, 18128273, 12802]⟩⟩) (.leaf ⟨333, 16, 41, 35, 16, 50, ⟨[[(137438953472, 0)],
    [(352187318272, 0)]], 3, 4⟩, ⟨[[(0, 443440795396), (4816521549615, 0), (0, 74640147105), (2207970159, 0), (0,
    45538566)], [(33595009313, 0), (253527051, 0), (11282889, 0), (309948, 0), (8799, 0)], [(0, 14888925), (10889,
    0), (1274, 0), (108, 0), (6, 0)], [(9572, 0), (1, 0)]], 3, 4⟩, 1099511627776, 0, 1099131294, ⟨[[(67671942765155,
    0), (0, 441465519141), (1323249735, 0), (992406, 0), (6960, 0)], [(42155312837, 0), (0, 179400900), (287430, 0),
    (0, 225), (3, 0)], [(0, 53250982), (264834, 0), (0, 138), (0, 2)], [(98048, 0), (0, 534)]], 3, 4⟩, 68719476736,
    226518973, 2267340572192640846442484062487648613836171779061802338651135493762857522339462099188999782400, ⟨0, 3,
    67686675218746, [31066838954, 14935980, 9574]⟩⟩)) (.sy (.leaf ⟨185, 16, 20, 50, 16, 78, ⟨[[], [(343597383680,
    0)]], 3, 4⟩, ⟨[[(0, 153498259949), (3968708944980, 0), (0, 32681407294), (500301152, 0), (0, 5883912)],
    [(91946718811, 0), (349286110, 0), (7988360, 0), (113934, 0), (1211, 0)], [(0, 71708813), (24335, 0), (1397, 0),
    (65, 0), (1, 0)], [(80943, 0), (1, 0)]], 3, 4⟩, 1099511627776, 0, 2417129289, ⟨[[(70852846010580, 0), (0,
    293012809943), (545687052, 0), (236660, 0), (1070, 0)], [(78420877896, 0), (0, 209669325), (236031, 0), (0, 255),
    (2, 0)], [(0, 178677293), (550357, 0), (0, 155), (0, 2)], [(593554, 0), (0, 2006), (1, 0)]], 3, 4⟩, 68719476736,
    440788033, 1743749199495573538104637456612056211590077973249700750981482553563513378795382243715687907328, ⟨0, 3,
    112127343858697, [85139931621, 71908726, 80978]⟩⟩) (.leaf ⟨185, 16, 20, 75, 16, 83, ⟨[[], [(343597383680, 0)]],
    3, 4⟩, ⟨[[(67478267199, 0), (3858636541805, 0), (0, 26302320313), (420899625, 0), (0, 3291356)], [(100405103994,
    0), (488259025, 0), (11088949, 0), (174721, 0), (3381, 0)], [(0, 76079368), (52870, 0), (3193, 0), (131, 0), (4,
    0)], [(86150, 0), (6, 0), (1, 0)]], 3, 4⟩, 1099511627776, 0, 2553856218, ⟨[[(65082544689376, 0), (0,
    254034487919), (497699833, 0), (297641, 0), (1612, 0)], [(74223531050, 0), (0, 188214942), (196270, 0), (0, 228),
    (0, 3)], [(0, 167485397), (509175, 0), (0, 223), (0, 1)], [(552764, 0), (0, 1855), (1, 0)]], 3, 4⟩, 68719476736,
    423516568, 632455472783540607970288334967148180721047381715287327014817157676437992545169613644552230854, ⟨0, 3,
    119314994106050, [90597619545, 76518260, 86169]⟩⟩))) (.sx (.sx (.leaf ⟨302, 16, 41, 64, 16, 58, ⟨[[(412316860416,
    0)], [(352187318272, 0)]], 3, 4⟩, ⟨[[(528293433241, 0), (4742465174201, 0), (0, 50456775771), (1792619895, 0),
    (0, 10565796)], [(44925312460, 0), (494127485, 0), (22459640, 0), (856522, 0), (39231, 0)], [(0, 20808994),
    (51458, 0), (6114, 0), (478, 0), (27, 0)], [(14863, 0), (5, 0), (1, 0)]], 3, 4⟩, 1099511627776, 0, 961340469,
    ⟨[[(58067552754023, 0), (0, 328508812191), (1041610807, 0), (1343852, 0), (11982, 0)], [(41901599998, 0), (0,
    160250041), (195131, 0), (0, 1129), (0, 26)], [(0, 57305360), (270656, 0), (0, 123), (3, 0)], [(114791, 0), (0,
    605)]], 3, 4⟩, 68719476736, 217010391,
    1568387362744126239481637658157976305573774911867754482594039784139761358375739741466348762598, ⟨0, 3,
    74886705282749, [39702367070, 21028796, 14851]⟩⟩) (.leaf ⟨333, 16, 41, 68, 16, 58, ⟨[[(137438953472, 0)],
    [(352187318272, 0)]], 3, 4⟩, ⟨[[(263523530726, 0), (4790380275661, 0), (0, 48243606581), (1879316802, 0), (0,
    6550192)], [(41302996282, 0), (504151226, 0), (23655279, 0), (950361, 0), (44477, 0)], [(0, 17102700), (52941,
    0), (6339, 0), (500, 0), (28, 0)], [(11117, 0), (5, 0), (1, 0)]], 3, 4⟩, 1099511627776, 0, 967558879,
    ⟨[[(57998540278286, 0), (0, 324786895161), (1064407077, 0), (1502400, 0), (12534, 0)], [(38073667553, 0), (0,
    143597366), (174058, 0), (0, 1315), (0, 24)], [(0, 47091334), (221365, 0), (0, 84), (3, 0)], [(85631, 0), (0,
    448)]], 3, 4⟩, 68719476736, 167700076,
    1430435645000428740553950370847052679415345498382978768627408964928343865655987351018684422899, ⟨0, 3,
    78516543253746, [36037533187, 17325737, 11106]⟩⟩)) (.sx (.leaf ⟨364, 16, 41, 72, 16, 58, ⟨[[(0, 137438953472)],
    [(352187318272, 0)]], 3, 4⟩, ⟨[[(0, 317852137948), (4839271039652, 0), (0, 45913604856), (1975221741, 0), (0,
    2016374)], [(38300679117, 0), (514450902, 0), (24893336, 0), (1048344, 0), (50030, 0)], [(0, 14295222), (54333,
    0), (6555, 0), (521, 0), (30, 0)], [(8531, 0), (5, 0), (1, 0)]], 3, 4⟩, 1099511627776, 0, 1019055732,
    ⟨[[(57837024522538, 0), (0, 320406993577), (1088466343, 0), (1662080, 0), (12782, 0)], [(34859551779, 0), (0,
    129764014), (153152, 0), (0, 1473), (0, 22)], [(0, 39318825), (184322, 0), (0, 51), (3, 0)], [(65317, 0), (0,
    343)]], 3, 4⟩, 68719476736, 123574868,
    1602296585654504492889887745263482680162824264531519738363302789951928354218969232891342046047, ⟨0, 3,
    81825664924331, [32992107847, 14521174, 8522]⟩⟩) (.leaf ⟨395, 16, 41, 75, 16, 58, ⟨[[(0, 412316860416)],
    [(352187318272, 0)]], 3, 4⟩, ⟨[[(0, 64166491113), (4889163123124, 0), (0, 43462788807), (2080729689, 0),
    (3066204, 0)], [(35773502572, 0), (525009146, 0), (26171935, 0), (1150417, 0), (55914, 0)], [(0, 12117758),
    (55634, 0), (6762, 0), (542, 0), (32, 0)], [(6689, 0), (4, 0), (1, 0)]], 3, 4⟩, 1099511627776, 0, 1103809188,
    ⟨[[(57918818209043, 0), (0, 317658138656), (1108400805, 0), (1767947, 0), (12590, 0)], [(32239733750, 0), (0,
    118386600), (137037, 0), (0, 1528), (0, 19)], [(0, 33433770), (155782, 0), (0, 33), (3, 0)], [(51071, 0), (0,
    269)]], 3, 4⟩, 68719476736, 87409832,
    1981095280159022689402125482070928689154421744224028228046778105644406027939219226533967719371, ⟨0, 3,
    84866172018359, [30421294249, 12346304, 6681]⟩⟩)))
theorem c1 : checkC job ⟨6, 8, 7, 8, 9, 13⟩ 3 100 lims t1 272 48 32 3 3 32 = true := by decide +kernel

def t2 : CTree :=
  .sx (.sy (.sx (.sy (.leaf ⟨215, 16, 20, 60, 16, 81, ⟨[[], [(343597383680, 0)]], 3, 4⟩, ⟨[[(0, 493625277283),
    (4156406356059, 0), (0, 33128390405), (531526915, 0), (0, 5976386)], [(83185063288, 0), (367593791, 0), (8581735,
    0), (131383, 0), (1534, 0)], [(0, 55091956), (25474, 0), (1527, 0), (69, 0), (1, 0)], [(53538, 0)]], 3, 4⟩,
    1099511627776, 0, 1383961281, ⟨[[(70768153516887, 0), (0, 279467060859), (517789576, 0), (237492, 0), (1166, 0)],
    [(67693207387, 0), (0, 171243012), (204468, 0), (0, 264), (1, 0)], [(0, 132284841), (388497, 0), (0, 138), (0,
    1)], [(377316, 0), (0, 1231)]], 3, 4⟩, 68719476736, 218591133,
    2012186256778589587322926965880368591332599261817275312347541043180441573575869635904996900864, ⟨0, 3,
    124305916453225, [76077631207, 55288976, 53575]⟩⟩) (.leaf ⟨215, 16, 20, 86, 16, 86, ⟨[[], [(343597383680, 0)]],
    3, 4⟩, ⟨[[(287151728359, 0), (4047182167074, 0), (0, 26119025360), (454760530, 0), (0, 3035691)], [(91022470430,
    0), (516575301, 0), (12139642, 0), (207678, 0), (4312, 0)], [(0, 58253590), (56287, 0), (3458, 0), (142, 0), (4,
    0)], [(56856, 0), (5, 0)]], 3, 4⟩, 1099511627776, 0, 1452429743, ⟨[[(65130146446458, 0), (0, 242392698293),
    (475980586, 0), (310513, 0), (1657, 0)], [(64184831536, 0), (0, 153534611), (165298, 0), (0, 314), (0, 3)], [(0,
    124196062), (359357, 0), (0, 162)], [(351662, 0), (0, 1141)]], 3, 4⟩, 68719476736, 206817886,
    658128430024454358697824885963287810935304408535549688201232860851594908942517752170944210067, ⟨0, 3,
    131979121172560, [80773781281, 58701876, 56882]⟩⟩)) (.sy (.leaf ⟨245, 16, 20, 68, 16, 83, ⟨[[], [(343597383680,
    0)]], 3, 4⟩, ⟨[[(33642812694, 0), (4295434919404, 0), (0, 33087558523), (558228522, 0), (0, 5958643)],
    [(75731084095, 0), (381691631, 0), (9100387, 0), (148277, 0), (1876, 0)], [(0, 43438176), (26182, 0), (1628, 0),
    (72, 0), (2, 0)], [(37061, 0)]], 3, 4⟩, 1099511627776, 0, 857576925, ⟨[[(70901966495912, 0), (0, 270902483976),
    (503314894, 0), (243002, 0), (1263, 0)], [(59704677338, 0), (0, 144807495), (181970, 0), (0, 284)], [(0,
    102129983), (288520, 0), (0, 121), (0, 1)], [(255352, 0), (0, 809)]], 3, 4⟩, 68719476736, 123419403,
    2194449547005392394686406193079911123382728710148937380547491166527620354671888153982414094336, ⟨0, 4,
    134380853875148, [68410447412, 43629112, 37100]⟩⟩) (.leaf ⟨245, 16, 20, 96, 16, 88, ⟨[[], [(343597383680, 0)]],
    3, 4⟩, ⟨[[(0, 63621996859), (4192581860653, 0), (0, 25500915070), (487097562, 0), (0, 2640454)], [(83105897280,
    0), (539764787, 0), (13114026, 0), (241052, 0), (5301, 0)], [(0, 45806893), (58760, 0), (3667, 0), (152, 0), (5,
    0)], [(39303, 0), (3, 0)]], 3, 4⟩, 1099511627776, 0, 894078217, ⟨[[(65053332123459, 0), (0, 233692155665),
    (466526212, 0), (330966, 0), (1681, 0)], [(56528991597, 0), (0, 129286656), (141581, 0), (0, 377), (0, 3)], [(0,
    95691997), (266426, 0), (0, 121)], [(237249, 0), (0, 751)]], 3, 4⟩, 68719476736, 113555975,
    649111401515481302390484717923724459842281239058266709411983007607764440649476670674520281674, ⟨0, 4,
    142476086036302, [72531558701, 46257372, 39334]⟩⟩))) (.sx (.sy (.leaf ⟨215, 16, 20, 111, 16, 89, ⟨[[],
    [(343597383680, 0)]], 3, 4⟩, ⟨[[(363313326388, 0), (3912717161349, 0), (0, 19036960049), (428583066, 0), (0,
    358870)], [(97910747442, 0), (713287744, 0), (17692481, 0), (373686, 0), (9151, 0)], [(0, 59768724), (121842, 0),
    (7497, 0), (307, 0), (9, 0)], [(58893, 0), (14, 0), (1, 0)]], 3, 4⟩, 1099511627776, 0, 1504338853,
    ⟨[[(60195719404242, 0), (0, 214191261457), (467793586, 0), (437066, 0), (2068, 0)], [(60991838554, 0), (0,
    142126958), (124848, 0), (0, 654), (0, 6)], [(0, 116626102), (341318, 0), (0, 98), (2, 0)], [(327584, 0), (0,
    1089)]], 3, 4⟩, 68719476736, 187075181,
    942310395767364367332752088087447047049905729702011906381253509410767655105173057097254498951, ⟨0, 3,
    136583044004161, [83591471326, 60749616, 58866]⟩⟩) (.leaf ⟨215, 16, 20, 135, 16, 91, ⟨[[], [(343597383680, 0)]],
    3, 4⟩, ⟨[[(123886629315, 0), (3814729090682, 0), (0, 11436377671), (466703841, 0), (2864973, 0)], [(105234511879,
    0), (997211319, 0), (27491373, 0), (694740, 0), (17489, 0)], [(0, 60006356), (260354, 0), (15961, 0), (651, 0),
    (20, 0)], [(60369, 0), (41, 0), (4, 0)]], 3, 4⟩, 1099511627776, 0, 1551507084, ⟨[[(55902068234258, 0), (0,
    189593454842), (479237908, 0), (575487, 0), (1823, 0)], [(58050514292, 0), (0, 134924183), (65437, 0), (0, 1053),
    (0, 4)], [(0, 109469197), (332954, 0), (71, 0), (3, 0)], [(304577, 0), (0, 1081), (0, 1)]], 3, 4⟩, 68719476736,
    180422625, 1123753488077746707092822357342091861163981404584398900802011091944406857990669241973479008806, ⟨0, 3,
    139652325891895, [85469931356, 62114776, 60189]⟩⟩)) (.sy (.leaf ⟨245, 16, 20, 122, 16, 91, ⟨[[], [(343597383680,
    0)]], 3, 4⟩, ⟨[[(115156242426, 0), (4071818303531, 0), (0, 17656393305), (477844062, 0), (621179, 0)],
    [(89838443757, 0), (753616408, 0), (19594981, 0), (444126, 0), (11257, 0)], [(0, 46826026), (128405, 0), (8003,
    0), (332, 0), (10, 0)], [(40685, 0), (12, 0), (1, 0)]], 3, 4⟩, 1099511627776, 0, 929281292, ⟨[[(60146521677447,
    0), (0, 205618722941), (461732437, 0), (453136, 0), (1831, 0)], [(53751077391, 0), (0, 119686396), (98635, 0),
    (0, 676), (0, 4)], [(0, 89888091), (253554, 0), (0, 53), (2, 0)], [(220832, 0), (0, 720)]], 3, 4⟩, 68719476736,
    97048925, 846316699975359142646002917471895559916271708895290499165323133645952339667775318536233046232, ⟨0, 4,
    147333225332994, [75004225475, 47834327, 40675]⟩⟩) (.leaf ⟨245, 16, 20, 145, 16, 92, ⟨[[], [(343597383680, 0)]],
    3, 4⟩, ⟨[[(464627486137, 0), (3955894629981, 0), (0, 8741988799), (545539473, 0), (4797852, 0)], [(96224147080,
    0), (1059801429, 0), (30991013, 0), (835559, 0), (22087, 0)], [(0, 46181826), (274399, 0), (17174, 0), (732, 0),
    (26, 0)], [(41264, 0), (37, 0), (4, 0)]], 3, 4⟩, 1099511627776, 0, 962884162, ⟨[[(55958129562219, 0), (0,
    183127333602), (485024758, 0), (579901, 0), (1343, 0)], [(51224647533, 0), (0, 115290917), (42833, 0), (0, 974),
    (0, 2)], [(0, 84462751), (251079, 0), (73, 0), (2, 0)], [(205296, 0), (0, 726), (0, 1)]], 3, 4⟩, 68719476736,
    110589279, 1157497356028100534808758535410656052970638309060810750500181255112778159713792537985454785711, ⟨0, 4,
    148952271765224, [75828447733, 48359979, 41122]⟩⟩)))) (.sy (.sx (.sy (.leaf ⟨275, 16, 20, 75, 16, 84, ⟨[[],
    [(343597383680, 0)]], 3, 4⟩, ⟨[[(221303731588, 0), (4384515167439, 0), (0, 32586703616), (580032646, 0), (0,
    5832597)], [(69126663047, 0), (391375186, 0), (9531060, 0), (164107, 0), (2227, 0)], [(0, 34864424), (26448, 0),
    (1694, 0), (74, 0), (2, 0)], [(26511, 0)]], 3, 4⟩, 1099511627776, 0, 567120473, ⟨[[(70947058627817, 0), (0,
    265567019074), (501106413, 0), (257719, 0), (1384, 0)], [(53411095124, 0), (0, 125819296), (165429, 0), (0,
    306)], [(0, 81199297), (223291, 0), (0, 110)], [(180769, 0), (0, 560)]], 3, 4⟩, 68719476736, 76562248,
    2319805409597901597959152807225317997679772473606791064821001080031511576051546159029094973440, ⟨0, 4,
    142269937628029, [61681796615, 35046475, 26550]⟩⟩) (.leaf ⟨275, 16, 20, 104, 16, 89, ⟨[[], [(343597383680, 0)]],
    3, 4⟩, ⟨[[(13124704523, 0), (4293181522446, 0), (0, 24482924075), (517468861, 0), (0, 2110488)], [(76134380280,
    0), (557391441, 0), (13985623, 0), (273804, 0), (6312, 0)], [(0, 36686911), (60228, 0), (3814, 0), (159, 0), (5,
    0)], [(28093, 0), (2, 0)]], 3, 4⟩, 1099511627776, 0, 587841404, ⟨[[(65069607560767, 0), (0, 228277857695),
    (467016770, 0), (353696, 0), (1683, 0)], [(50582051812, 0), (0, 112044163), (123955, 0), (0, 422), (0, 3)], [(0,
    76089108), (205841, 0), (0, 93)], [(167880, 0), (0, 522)]], 3, 4⟩, 68719476736, 67795609,
    677126995953571342847305048988631506345746723576096763352280988292378876202237124040361950764, ⟨0, 4,
    150738386296364, [65353332128, 37132575, 28131]⟩⟩)) (.sy (.leaf ⟨305, 16, 20, 82, 16, 85, ⟨[[], [(343597383680,
    0)]], 3, 4⟩, ⟨[[(0, 78964865414), (4474977280969, 0), (0, 32032857995), (603569708, 0), (0, 5669001)],
    [(63844585954, 0), (401157890, 0), (9976951, 0), (180468, 0), (2605, 0)], [(0, 28657537), (26585, 0), (1746, 0),
    (75, 0), (2, 0)], [(19653, 0), (0, 1)]], 3, 4⟩, 1099511627776, 0, 401685759, ⟨[[(70874905200726, 0), (0,
    259924481284), (498834230, 0), (273632, 0), (1473, 0)], [(48300851137, 0), (0, 110580040), (149662, 0), (0, 322),
    (0, 1)], [(0, 66043997), (176915, 0), (0, 101)], [(132475, 0), (0, 401)]], 3, 4⟩, 68719476736, 49665781,
    2362953336247672774235530495559658136926526958454104990523236174464244469265463106074541293568, ⟨0, 4,
    149650720426738, [56276814827, 28830335, 19693]⟩⟩) (.leaf ⟨305, 16, 20, 112, 16, 90, ⟨[[], [(343597383680, 0)]],
    3, 4⟩, ⟨[[(0, 425641865734), (4396093248372, 0), (0, 23364491538), (551360761, 0), (0, 1473552)], [(70574835734,
    0), (575395686, 0), (14891549, 0), (308220, 0), (7387, 0)], [(0, 30087209), (61339, 0), (3939, 0), (165, 0), (5,
    0)], [(20808, 0), (1, 0)]], 3, 4⟩, 1099511627776, 0, 414838140, ⟨[[(64980701936548, 0), (0, 222558446566),
    (467459626, 0), (373416, 0), (1627, 0)], [(45751337616, 0), (0, 98310397), (107509, 0), (0, 455), (0, 3)], [(0,
    61892945), (162821, 0), (0, 72), (1, 0)], [(122998, 0), (0, 374)]], 3, 4⟩, 68719476736, 41997281,
    654813825152583340679658283082056371946241587382640901938019356140861472823372557347711907080, ⟨0, 4,
    158453703981252, [59587215699, 30526238, 20851]⟩⟩))) (.sx (.sy (.leaf ⟨275, 16, 20, 131, 16, 92, ⟨[[],
    [(343597383680, 0)]], 3, 4⟩, ⟨[[(11204925344, 0), (4190912111745, 0), (0, 15873130153), (529348862, 0), (1819791,
    0)], [(82749313648, 0), (787127468, 0), (21392569, 0), (515170, 0), (13481, 0)], [(0, 37364594), (132854, 0),
    (8383, 0), (353, 0), (11, 0)], [(29071, 0), (9, 0), (1, 0)]], 3, 4⟩, 1099511627776, 0, 617393339,
    ⟨[[(60127119528978, 0), (0, 199686501798), (464824963, 0), (469998, 0), (1607, 0)], [(48093660158, 0), (0,
    103728985), (78752, 0), (0, 690), (0, 4)], [(0, 71450245), (196239, 0), (0, 26), (1, 0)], [(156066, 0), (0,
    503)]], 3, 4⟩, 68719476736, 61296865,
    612962203679612191727347447615068994752136168698536072906228540009431706418666932911629264142, ⟨0, 4,
    155819455497365, [67556253435, 38384235, 29079]⟩⟩) (.leaf ⟨275, 16, 20, 155, 16, 93, ⟨[[], [(343597383680, 0)]],
    3, 4⟩, ⟨[[(148993271657, 0), (4104328485536, 0), (0, 5666249881), (639642909, 0), (7250718, 0)], [(89334269872,
    0), (1125563873, 0), (34764366, 0), (995269, 0), (27906, 0)], [(0, 36564427), (287459, 0), (18446, 0), (833, 0),
    (33, 0)], [(29497, 0), (33, 0), (4, 0)]], 3, 4⟩, 1099511627776, 0, 662778021, ⟨[[(55904914504924, 0), (0,
    176238539673), (489939124, 0), (569426, 0), (814, 0)], [(45807818255, 0), (0, 100296966), (22901, 0), (0, 896),
    (0, 1)], [(0, 67065093), (195075, 0), (70, 0), (1, 0)], [(144743, 0), (0, 509)]], 3, 4⟩, 68719476736, 77093533,
    785596236729771764160010600180743043549560154346348571628928229023308515035349737757402643282, ⟨0, 4,
    157513145231032, [68290560538, 38801455, 29395]⟩⟩)) (.sy (.leaf ⟨305, 16, 20, 139, 16, 93, ⟨[[], [(343597383680,
    0)]], 3, 4⟩, ⟨[[(487066943514, 0), (4314096286593, 0), (0, 13890763214), (588439763, 0), (3258179, 0)],
    [(77129167903, 0), (821696281, 0), (23276566, 0), (590962, 0), (15966, 0)], [(0, 30517970), (136533, 0), (8721,
    0), (374, 0), (13, 0)], [(21520, 0), (6, 0), (1, 0)]], 3, 4⟩, 1099511627776, 0, 445526021, ⟨[[(60211226740523,
    0), (0, 194384466725), (466138214, 0), (472818, 0), (1348, 0)], [(43586270985, 0), (0, 91264236), (62678, 0), (0,
    682), (0, 3)], [(0, 58254621), (155619, 0), (0, 11), (1, 0)], [(114577, 0), (0, 363)]], 3, 4⟩, 68719476736,
    43111874, 359688702278576705184187773689860642243936128469917459986522440897802452401388516686212656075, ⟨0, 4,
    163735494113960, [61573456223, 31543779, 21546]⟩⟩) (.leaf ⟨305, 16, 20, 163, 16, 93, ⟨[[], [(343597383680, 0)]],
    3, 4⟩, ⟨[[(0, 383856854094), (4215060322877, 0), (0, 2155359806), (743197003, 0), (10256619, 0)], [(83049130087,
    0), (1181638464, 0), (38416533, 0), (1165806, 0), (35007, 0)], [(0, 29283059), (296495, 0), (19614, 0), (948, 0),
    (42, 0)], [(21609, 0), (30, 0), (4, 0)]], 3, 4⟩, 1099511627776, 0, 508357826, ⟨[[(55821434770471, 0), (0,
    171127923161), (503967792, 0), (561096, 0), (284, 0)], [(41421766110, 0), (0, 89567195), (6030, 0), (0, 842)],
    [(0, 54511221), (156934, 0), (63, 0), (1, 0)], [(105785, 0), (0, 372)]], 3, 4⟩, 68719476736, 61442106,
    1019111597896611458442476729762914697973258957066361889499815407036448407646917423229694748822, ⟨0, 4,
    163735494113960, [61573456223, 31543779, 21546]⟩⟩))))
theorem c2 : checkC job ⟨6, 8, 7, 8, 9, 13⟩ 3 100 lims t2 208 48 16 3 3 32 = true := by decide +kernel

def t3 : CTree :=
  .sy (.sx (.sy (.sx (.leaf ⟨335, 16, 20, 88, 16, 86, ⟨[[], [(343597383680, 0)]], 3, 4⟩, ⟨[[(334100167267, 0),
    (4566835343668, 0), (0, 31424320503), (628905748, 0), (0, 5464863)], [(59529143637, 0), (411014230, 0),
    (10435237, 0), (197334, 0), (3010, 0)], [(0, 24015876), (26590, 0), (1782, 0), (77, 0), (2, 0)], [(14996, 0), (0,
    1)]], 3, 4⟩, 1099511627776, 0, 303234021, ⟨[[(70970989252163, 0), (0, 255062678304), (495666533, 0), (283918, 0),
    (1501, 0)], [(44166739870, 0), (0, 98381629), (135642, 0), (0, 328), (0, 1)], [(0, 54869907), (143123, 0), (0,
    93)], [(100115, 0), (0, 294)]], 3, 4⟩, 68719476736, 33615811,
    2339714872376784658272995998660269113870548849479904933302779192461551416763103362206304043008, ⟨0, 4,
    156625046920089, [51839889479, 24179053, 15037]⟩⟩) (.leaf ⟨365, 16, 20, 93, 16, 86, ⟨[[], [(343597383680, 0)]],
    3, 4⟩, ⟨[[(342443065679, 0), (4606536525989, 0), (0, 30406099807), (648562876, 0), (0, 5157277)], [(55298534195,
    0), (416079872, 0), (10777708, 0), (212209, 0), (3401, 0)], [(0, 20216330), (26157, 0), (1783, 0), (78, 0), (2,
    0)], [(11584, 0), (0, 2)]], 3, 4⟩, 1099511627776, 0, 240357612, ⟨[[(70972214136249, 0), (0, 252874892108),
    (503991373, 0), (304619, 0), (1569, 0)], [(40674426142, 0), (0, 89242738), (125168, 0), (0, 341), (0, 1)], [(0,
    46286695), (119104, 0), (0, 89)], [(77390, 0), (0, 223)]], 3, 4⟩, 68719476736, 24270151,
    2264442187233509692635893616969549419234831047544079001455669293057348593769432319423848382464, ⟨0, 4,
    161391311745339, [47579076645, 20367755, 11625]⟩⟩)) (.leaf ⟨175, 16, 10, 102, 16, 76, ⟨[[], [(343597383680, 0)]],
    3, 4⟩, ⟨[[(0, 417933316547), (3783299670495, 0), (0, 17849712002), (506004835, 0), (0, 251705)], [(106462841879,
    0), (1001638104, 0), (27086591, 0), (602411, 0), (15113, 0)], [(0, 76887060), (207052, 0), (13559, 0), (577, 0),
    (19, 0)], [(92870, 0), (0, 7), (1, 0)]], 3, 4⟩, 1099511627776, 0, 2965096224, ⟨[[(64968642896706, 0), (0,
    258509762110), (676215684, 0), (677429, 0), (3034, 0)], [(80185368541, 0), (0, 198829094), (250775, 0), (0,
    1660), (0, 11)], [(0, 188449784), (572385, 0), (0, 289), (4, 0)], [(651465, 0), (0, 2309)]], 3, 4⟩, 68719476736,
    535546441, 774012747842119877580987668968923604558172971915513110080024789373966780700272698967097980636, ⟨0, 4,
    140563999066927, [87697248248, 78301115, 93216]⟩⟩)) (.sy (.leaf ⟨205, 16, 10, 87, 16, 75, ⟨[[], [(343597383680,
    0)]], 3, 4⟩, ⟨[[(423135707103, 0), (4070048379604, 0), (0, 25131345846), (593666726, 0), (0, 4032262)],
    [(87414231614, 0), (738650575, 0), (19688319, 0), (409349, 0), (7004, 0)], [(0, 55843661), (88180, 0), (6123, 0),
    (273, 0), (8, 0)], [(56936, 0), (0, 16), (0, 1)]], 3, 4⟩, 1099511627776, 0, 1577213180, ⟨[[(71003617391506, 0),
    (0, 286367215889), (678124017, 0), (500725, 0), (2777, 0)], [(72792090779, 0), (0, 179299453), (290090, 0), (0,
    1056), (0, 5)], [(0, 147142206), (426013, 0), (0, 449), (2, 0)], [(436566, 0), (0, 1405)]], 3, 4⟩, 68719476736,
    273327895, 2281821221010312896007724262670968799697442870638532068922344537573060671709410574519400136704, ⟨0, 4,
    146382683477812, [73878458489, 56309801, 57225]⟩⟩) (.leaf ⟨205, 16, 10, 113, 16, 78, ⟨[[], [(343597383680, 0)]],
    3, 4⟩, ⟨[[(264649992804, 0), (3983496125035, 0), (0, 15522045093), (584175391, 0), (1407885, 0)], [(96361186556,
    0), (1068439730, 0), (30481156, 0), (733244, 0), (19209, 0)], [(0, 57223487), (207964, 0), (13962, 0), (603, 0),
    (19, 0)], [(59088, 0), (0, 24)]], 3, 4⟩, 1099511627776, 0, 1645400351, ⟨[[(65126338581991, 0), (0, 246326291027),
    (664450030, 0), (663714, 0), (2298, 0)], [(69033398160, 0), (0, 162027336), (184853, 0), (0, 1613), (0, 10)],
    [(0, 138097578), (395294, 0), (0, 195), (4, 0)], [(405946, 0), (0, 1369)]], 3, 4⟩, 68719476736, 264863595,
    942884989445298583055487178712366676568332747184354634417864899976361433789115913286812868843, ⟨0, 4,
    152237990816925, [76833596828, 58562193, 59514]⟩⟩))) (.sx (.sy (.leaf ⟨175, 16, 10, 122, 16, 76, ⟨[[],
    [(343597383680, 0)]], 3, 4⟩, ⟨[[(0, 240814311436), (3624519546297, 0), (0, 8462945302), (556900061, 0), (4771365,
    0)], [(113600954356, 0), (1407751088, 0), (42218933, 0), (1147924, 0), (32672, 0)], [(0, 75003317), (452185, 0),
    (29431, 0), (1306, 0), (50, 0)], [(92873, 0), (13, 0), (4, 0)]], 3, 4⟩, 1099511627776, 0, 3003716186,
    ⟨[[(60074829291724, 0), (0, 230553953587), (723791994, 0), (896606, 0), (2127, 0)], [(76293951893, 0), (0,
    191164268), (123129, 0), (0, 2576), (0, 10)], [(0, 177077650), (567017, 0), (36, 0), (6, 0)], [(605166, 0), (0,
    2327), (0, 1)]], 3, 4⟩, 68719476736, 556850536,
    889932319448833261015066191310741319441933728962853136662839923965118303229413785848234804925, ⟨0, 4,
    140563999066927, [87697248248, 78301115, 93216]⟩⟩) (.sx (.leaf ⟨335, 16, 20, 170, 16, 93, ⟨[[], [(343597383680,
    0)]], 3, 4⟩, ⟨[[(0, 359788499890), (4331255866795, 0), (1717255869, 0), (864270301, 0), (14035316, 0)],
    [(77970533122, 0), (1239364220, 0), (42304311, 0), (1361134, 0), (44084, 0)], [(0, 23873766), (304692, 0),
    (20907, 0), (1091, 0), (53, 0)], [(16286, 0), (27, 0), (5, 0), (1, 0)]], 3, 4⟩, 1099511627776, 0, 444187850,
    ⟨[[(55826812725721, 0), (0, 166545151953), (515500508, 0), (537480, 0), (0, 233)], [(37845842281, 0), (0,
    81050413), (0, 7584), (0, 786), (1, 0)], [(0, 45239926), (128708, 0), (53, 0)], [(79735, 0), (0, 279)]], 3, 4⟩,
    68719476736, 52781694,
    1218573973605827883492153459910138427428214735710682338022977347072752344459753956679936197807, ⟨0, 4,
    169373597250794, [56059415367, 26147115, 16261]⟩⟩) (.leaf ⟨365, 16, 20, 173, 16, 91, ⟨[[], [(343597383680, 0)]],
    3, 4⟩, ⟨[[(0, 548186678333), (4357301618146, 0), (5846973969, 0), (983881868, 0), (18394387, 0)], [(72212663229,
    0), (1270671624, 0), (45456077, 0), (1552684, 0), (54400, 0)], [(0, 19325468), (305523, 0), (21878, 0), (1237,
    0), (66, 0)], [(12291, 0), (25, 0), (5, 0), (1, 0)]], 3, 4⟩, 1099511627776, 0, 433869186, ⟨[[(55798832730174, 0),
    (0, 165342097672), (549063783, 0), (534970, 0), (0, 836)], [(34826471420, 0), (0, 75817970), (0, 21115), (0,
    780), (2, 0)], [(0, 38131021), (109685, 0), (44, 0)], [(61498, 0), (0, 219)]], 3, 4⟩, 68719476736, 50701655,
    1161691179968229703434085941161768710634466406295980199077560587510877867225756350575305907625, ⟨0, 4,
    170774527544487, [50345302031, 21551927, 12301]⟩⟩))) (.sy (.leaf ⟨205, 16, 10, 135, 16, 78, ⟨[[], [(343597383680,
    0)]], 3, 4⟩, ⟨[[(0, 452825408016), (3862882905875, 0), (0, 4244837942), (697384811, 0), (8631314, 0)],
    [(104056980810, 0), (1533931869, 0), (49211426, 0), (1447345, 0), (44772, 0)], [(0, 55311896), (462612, 0),
    (30969, 0), (1467, 0), (67, 0)], [(58935, 0), (0, 24), (2, 0)]], 3, 4⟩, 1099511627776, 0, 1721124942,
    ⟨[[(60036313998970, 0), (0, 216039902554), (713837564, 0), (809260, 0), (674, 0)], [(65538777303, 0), (0,
    156652847), (50573, 0), (0, 2400), (0, 6)], [(0, 129447664), (393206, 0), (93, 0), (4, 0)], [(375564, 0), (0,
    1394), (0, 1)]], 3, 4⟩, 68719476736, 293604709,
    829634812345318804076983813920615741034558001006375686350648063148115391540583903152342992573, ⟨0, 4,
    152237990816925, [76833596828, 58562193, 59514]⟩⟩) (.leaf ⟨205, 16, 10, 148, 16, 74, ⟨[[], [(343597383680, 0)]],
    3, 4⟩, ⟨[[(0, 335302183004), (3697304871259, 0), (10459707184, 0), (1004401247, 0), (22562653, 0)],
    [(109498001759, 0), (2212115410, 0), (84736167, 0), (3174311, 0), (124602, 0)], [(0, 48367134), (1026932, 0),
    (79154, 0), (5022, 0), (290, 0)], [(56069, 0), (147, 0), (40, 0), (5, 0)]], 3, 4⟩, 1099511627776, 0, 1886233160,
    ⟨[[(55821789245514, 0), (0, 194990661861), (848642313, 0), (850139, 0), (0, 3752)], [(62248522352, 0), (0,
    166321991), (0, 114642), (0, 2598), (16, 0)], [(0, 121126846), (421278, 0), (161, 0), (0, 4)], [(346010, 0), (0,
    1494)]], 3, 4⟩, 68719476736, 371353106,
    1255957794935134771000726177909819056875086280281720611650274286031718737415228763027010511848, ⟨0, 4,
    144430914364775, [72893412376, 55559003, 56462]⟩⟩)))
theorem c3 : checkC job ⟨6, 8, 7, 8, 9, 13⟩ 3 100 lims t3 304 48 16 3 3 32 = true := by decide +kernel

def t4 : CTree :=
  .sy (.sx (.sy (.leaf ⟨235, 16, 10, 96, 16, 76, ⟨[[], [(343597383680, 0)]], 3, 4⟩, ⟨[[(0, 163253264496),
    (4196979195866, 0), (0, 23494748509), (643958808, 0), (0, 3332169)], [(79105267362, 0), (765144823, 0),
    (21116168, 0), (468055, 0), (8620, 0)], [(0, 43034439), (83766, 0), (5902, 0), (277, 0), (8, 0)], [(38198, 0),
    (0, 22), (0, 1)]], 3, 4⟩, 1099511627776, 0, 964465686, ⟨[[(70852461132644, 0), (0, 276992571173), (680047086, 0),
    (532254, 0), (2536, 0)], [(63799296147, 0), (0, 151106909), (232689, 0), (0, 1020), (0, 6)], [(0, 112250230),
    (313618, 0), (0, 425), (3, 0)], [(288844, 0), (0, 884), (0, 1)]], 3, 4⟩, 68719476736, 143820891,
    2204595997315511077516076827013870941936475380475582516882858030426388736451417694599617970176, ⟨0, 5,
    155041739805743, [65306461461, 43421849, 38495]⟩⟩) (.leaf ⟨235, 16, 10, 121, 16, 78, ⟨[[], [(343597383680, 0)]],
    3, 4⟩, ⟨[[(238945878031, 0), (4087957952014, 0), (0, 12467834527), (660127034, 0), (3428684, 0)], [(86797269175,
    0), (1107550802, 0), (33138727, 0), (848951, 0), (22874, 0)], [(0, 43358243), (198671, 0), (13665, 0), (599, 0),
    (19, 0)], [(39015, 0), (0, 40), (0, 2)]], 3, 4⟩, 1099511627776, 0, 1003886735, ⟨[[(65119273989006, 0), (0,
    240024717285), (685398280, 0), (678198, 0), (1642, 0)], [(60589660954, 0), (0, 139038765), (135507, 0), (0,
    1661), (0, 10)], [(0, 105547543), (292891, 0), (0, 142), (5, 0)], [(269139, 0), (0, 892), (0, 1)]], 3, 4⟩,
    68719476736, 158836035,
    996611486341880590549237731926672461090547506173398881307366682671444811724770367852790692484, ⟨0, 5,
    159121785590104, [67025052552, 44564530, 39508]⟩⟩)) (.sy (.leaf ⟨265, 16, 10, 104, 16, 77, ⟨[[], [(343597383680,
    0)]], 3, 4⟩, ⟨[[(0, 249193331155), (4327384055325, 0), (0, 21696336856), (700542746, 0), (0, 2461096)],
    [(72722674383, 0), (790835564, 0), (22497546, 0), (528035, 0), (10334, 0)], [(0, 34290924), (77617, 0), (5486,
    0), (279, 0), (8, 0)], [(26894, 0), (0, 28), (0, 2)]], 3, 4⟩, 1099511627776, 0, 652452148, ⟨[[(70832849280825,
    0), (0, 268530817624), (679316191, 0), (544514, 0), (2129, 0)], [(56875299341, 0), (0, 130045460), (182323, 0),
    (0, 934), (0, 6)], [(0, 88678895), (239592, 0), (0, 419), (4, 0)], [(201159, 0), (0, 582), (0, 1)]], 3, 4⟩,
    68719476736, 94167144,
    1876844421913535352517198338285304099501130994149744569307751246340337884847114255200417742848, ⟨0, 5,
    163059741083940, [58675293950, 34596282, 27198]⟩⟩) (.leaf ⟨265, 16, 10, 130, 16, 79, ⟨[[], [(343597383680, 0)]],
    3, 4⟩, ⟨[[(118579558522, 0), (4249870621432, 0), (0, 9279737049), (756675858, 0), (5868604, 0)], [(80445221821,
    0), (1159114567, 0), (36164675, 0), (974605, 0), (26708, 0)], [(0, 34426024), (187262, 0), (13199, 0), (586, 0),
    (18, 0)], [(27343, 0), (0, 56), (0, 3)]], 3, 4⟩, 1099511627776, 0, 697157394, ⟨[[(65092038197291, 0), (0,
    230752132011), (685954577, 0), (639914, 0), (781, 0)], [(54003238502, 0), (0, 120440374), (88936, 0), (0, 1610),
    (0, 9)], [(0, 83405277), (221468, 0), (0, 105), (5, 0)], [(187482, 0), (0, 606), (0, 1)]], 3, 4⟩, 68719476736,
    109053353, 942942685795211517377003431313737044060352025753020321782908854813427863154198014055726246415, ⟨0, 5,
    167295059034172, [60199327559, 35494887, 27905]⟩⟩))) (.sy (.sx (.leaf ⟨235, 16, 10, 143, 16, 78, ⟨[[],
    [(343597383680, 0)]], 3, 4⟩, ⟨[[(277714010524, 0), (4014374865476, 0), (766005795, 0), (850291474, 0), (13609793,
    0)], [(94854427682, 0), (1621766349, 0), (55189100, 0), (1743055, 0), (59658, 0)], [(0, 41512897), (450611, 0),
    (31218, 0), (1618, 0), (89, 0)], [(38710, 0), (0, 59), (0, 0), (1, 0)]], 3, 4⟩, 1099511627776, 0, 1143253561,
    ⟨[[(60177994805677, 0), (0, 208830008743), (733251877, 0), (739919, 0), (0, 547)], [(57576472180, 0), (0,
    135888166), (0, 443), (0, 2381), (0, 4)], [(0, 99126061), (292829, 0), (118, 0), (3, 0)], [(249196, 0), (0,
    918)]], 3, 4⟩, 68719476736, 188094533,
    856863092984696175051132102552450815862255312595269213550115001216462146513230460523590451200, ⟨0, 5,
    159121785590104, [67025052552, 44564530, 39508]⟩⟩) (.leaf ⟨265, 16, 10, 149, 16, 77, ⟨[[], [(343597383680, 0)]],
    3, 4⟩, ⟨[[(303679744723, 0), (4120642115226, 0), (6270098109, 0), (1019827033, 0), (19981216, 0)], [(86702596092,
    0), (1684443168, 0), (60384462, 0), (2044066, 0), (78356, 0)], [(0, 31840309), (422998, 0), (30593, 0), (1775,
    0), (115, 0)], [(26207, 0), (0, 93), (0, 2), (1, 0)]], 3, 4⟩, 1099511627776, 0, 921803384, ⟨[[(60181248141009,
    0), (0, 203511945630), (768477116, 0), (655673, 0), (0, 1942)], [(51273534769, 0), (0, 122421156), (0, 50517),
    (0, 2468), (0, 3)], [(0, 78344956), (228761, 0), (146, 0), (2, 0)], [(173276, 0), (0, 648)]], 3, 4⟩, 68719476736,
    138944449, 1113267403025922461243083816995693508125070039011580397026911223355000880453510950588844219123, ⟨0, 5,
    163059741083940, [58675293950, 34596282, 27198]⟩⟩)) (.sx (.leaf ⟨235, 16, 10, 153, 16, 72, ⟨[[], [(343597383680,
    0)]], 3, 4⟩, ⟨[[(0, 384446245388), (3813331809869, 0), (18837317399, 0), (1323264745, 0), (36506781, 0)],
    [(98813730273, 0), (2347941560, 0), (98361270, 0), (4167789, 0), (185177, 0)], [(0, 34307820), (1037441, 0),
    (88994, 0), (6373, 0), (381, 0)], [(35680, 0), (121, 0), (43, 0), (5, 0)]], 3, 4⟩, 1099511627776, 0, 1507767763,
    ⟨[[(55814987816450, 0), (0, 188919611301), (913222728, 0), (648348, 0), (0, 6667)], [(54456446361, 0), (0,
    151247821), (0, 185605), (0, 2415), (25, 0)], [(0, 92392788), (323401, 0), (38, 0), (0, 8)], [(228254, 0), (0,
    990), (1, 0)]], 3, 4⟩, 68719476736, 268877772,
    980602785558372753423176734924446160220260792385825727691092294442325863052685497433067567154, ⟨0, 5,
    146881648237019, [61869279279, 41136489, 36469]⟩⟩) (.leaf ⟨265, 16, 10, 157, 16, 70, ⟨[[], [(343597383680, 0)]],
    3, 4⟩, ⟨[[(0, 501644652830), (3935938823126, 0), (28328867162, 0), (1736909531, 0), (56412561, 0)],
    [(90509209024, 0), (2479285137, 0), (113390404, 0), (5373431, 0), (257563, 0)], [(0, 25090825), (1036678, 0),
    (98257, 0), (7500, 0), (425, 0)], [(23550, 0), (70, 0), (37, 0), (4, 0)]], 3, 4⟩, 1099511627776, 0, 1553750116,
    ⟨[[(55797513758127, 0), (0, 182754917857), (972510007, 0), (349335, 0), (0, 9609)], [(48311114434, 0), (0,
    141767551), (0, 257680), (0, 2224), (35, 0)], [(0, 72845131), (257147, 0), (0, 79), (0, 12)], [(158114, 0), (0,
    678), (2, 0)]], 3, 4⟩, 68719476736, 205971015,
    1488906700269025089490948546831801532387920714364636129080412054863714393806891841326019970623, ⟨0, 5,
    148236128258127, [53341176318, 31451165, 24726]⟩⟩)))
theorem c4 : checkC job ⟨6, 8, 7, 8, 9, 13⟩ 3 100 lims t4 400 48 16 3 3 32 = true := by decide +kernel

def t5 : CTree :=
  .sx (.sx (.sy (.sx (.leaf ⟨295, 16, 10, 111, 16, 78, ⟨[[], [(343597383680, 0)]], 3, 4⟩, ⟨[[(310162355958, 0),
    (4461188591119, 0), (0, 19741009360), (763585513, 0), (0, 1409259)], [(67673490959, 0), (815376382, 0),
    (23795075, 0), (588821, 0), (12111, 0)], [(0, 28060003), (69785, 0), (4889, 0), (279, 0), (9, 0)], [(19661, 0),
    (0, 33), (0, 3)]], 3, 4⟩, 1099511627776, 0, 486480766, ⟨[[(70967493665426, 0), (0, 261155813836), (675767152, 0),
    (539906, 0), (1644, 0)], [(51396996117, 0), (0, 113914281), (138063, 0), (0, 804), (0, 6)], [(0, 72038855),
    (188815, 0), (0, 431), (4, 0)], [(146001, 0), (0, 394), (0, 1)]], 3, 4⟩, 68719476736, 69762946,
    1481717734946870878443451550648381827440309616259816231917330387576030308849102739931593179136, ⟨0, 5,
    170582879314648, [53392838474, 28280105, 19972]⟩⟩) (.leaf ⟨325, 16, 10, 117, 16, 78, ⟨[[], [(343597383680, 0)]],
    3, 4⟩, ⟨[[(0, 32705972945), (4540077508324, 0), (0, 17414030705), (822661012, 0), (0, 168278)], [(62778553535,
    0), (827816050, 0), (24657523, 0), (641708, 0), (13735, 0)], [(0, 23170006), (59579, 0), (4073, 0), (272, 0), (8,
    0)], [(14622, 0), (0, 38), (0, 3)]], 3, 4⟩, 1099511627776, 0, 390719626, ⟨[[(70886344295525, 0), (0,
    256201741971), (689137994, 0), (550768, 0), (1117, 0)], [(46816938604, 0), (0, 102273185), (98107, 0), (0, 697),
    (0, 7)], [(0, 59639426), (153734, 0), (0, 450), (5, 0)], [(109191, 0), (0, 276), (0, 1)]], 3, 4⟩, 68719476736,
    61748647, 1460953763614824821925082751504403899597477156484855165187344399874073847593824868745552592896, ⟨0, 5,
    175464385551506, [48464268769, 23300129, 14936]⟩⟩)) (.sx (.leaf ⟨295, 16, 10, 137, 16, 79, ⟨[[], [(343597383680,
    0)]], 3, 4⟩, ⟨[[(0, 150275074633), (4362818689115, 0), (0, 5689027116), (855528941, 0), (8590892, 0)],
    [(74512407688, 0), (1193388066, 0), (38610637, 0), (1083573, 0), (29945, 0)], [(0, 27743945), (169077, 0),
    (12226, 0), (546, 0), (16, 0)], [(19609, 0), (0, 70), (0, 4)]], 3, 4⟩, 1099511627776, 0, 539415426,
    ⟨[[(65036438051345, 0), (0, 224453864110), (701106198, 0), (601420, 0), (0, 113)], [(48700021875, 0), (0,
    107691482), (49643, 0), (0, 1599), (0, 10)], [(0, 67646351), (173833, 0), (0, 81), (5, 0)], [(135851, 0), (0,
    436), (0, 1)]], 3, 4⟩, 68719476736, 83945576,
    1251169996221572529365644188383443280462162170708944410683416867004130949596824972487961331069, ⟨0, 5,
    172769839305861, [54077362044, 28642671, 20228]⟩⟩) (.leaf ⟨325, 16, 10, 141, 16, 78, ⟨[[], [(343597383680, 0)]],
    3, 4⟩, ⟨[[(372896537371, 0), (4422182578603, 0), (0, 1849754870), (952212644, 0), (11457281, 0)], [(68793645310,
    0), (1208300926, 0), (40321755, 0), (1168138, 0), (32335, 0)], [(0, 22596114), (145154, 0), (10792, 0), (481, 0),
    (13, 0)], [(14275, 0), (0, 82), (0, 5)]], 3, 4⟩, 1099511627776, 0, 466023288, ⟨[[(65142310927579, 0), (0,
    222135019828), (730473898, 0), (562774, 0), (0, 1049)], [(44406645336, 0), (0, 99219731), (18202, 0), (0, 1593),
    (0, 11)], [(0, 56140027), (140922, 0), (0, 74), (5, 0)], [(101934, 0), (0, 327), (0, 1)]], 3, 4⟩, 68719476736,
    72878046, 1413429719492831419633439155878483887017166728512862160874242516012128441852628138213918772897, ⟨0, 5,
    175464385551506, [48464268769, 23300129, 14936]⟩⟩))) (.sy (.leaf ⟨296, 25, 8, 106, 16, 66, ⟨[[], [(549755813888,
    0)]], 3, 4⟩, ⟨[[(0, 448053798308), (3943416583228, 0), (0, 11667182943), (778984555, 0), (1673470, 0)],
    [(96295981726, 0), (1425779395, 0), (43369962, 0), (1215300, 0), (27129, 0)], [(0, 60865561), (142214, 0), (8887,
    0), (873, 0), (25, 0)], [(66384, 0), (0, 294), (0, 24)]], 3, 4⟩, 1099511627776, 0, 2173172617,
    ⟨[[(70773935092530, 0), (0, 294208936427), (985949902, 0), (900437, 0), (253, 0)], [(51620154317, 0), (0,
    131552532), (72020, 0), (0, 990), (0, 18)], [(0, 72436037), (215962, 0), (0, 1061), (14, 0)], [(144779, 0), (0,
    378), (0, 3)]], 3, 4⟩, 68719476736, 604240133,
    1537965006725632914666716346858479443837323030363309316773474052227797240783506804256949665792, ⟨0, 5,
    154000436673734, [72041480602, 60845845, 68520]⟩⟩) (.sx (.leaf ⟨355, 16, 10, 147, 16, 78, ⟨[[], [(343597383680,
    0)]], 3, 4⟩, ⟨[[(183538222785, 0), (4539442213530, 0), (2115957222, 0), (1068561428, 0), (14672725, 0)],
    [(64814548317, 0), (1233800625, 0), (42246509, 0), (1253265, 0), (34550, 0)], [(0, 19021298), (119927, 0), (9207,
    0), (402, 0), (10, 0)], [(10756, 0), (0, 93), (0, 6)]], 3, 4⟩, 1099511627776, 0, 457107803, ⟨[[(65103038396134,
    0), (0, 216167002847), (739939424, 0), (478556, 0), (0, 2076)], [(40742690084, 0), (0, 91571911), (0, 13876), (0,
    1528), (0, 11)], [(0, 47323855), (114407, 0), (0, 58), (6, 0)], [(78417, 0), (0, 249), (0, 1)]], 3, 4⟩,
    68719476736, 63578770,
    1448748230170745668880201196296970509858638909001180096674173532394204610735365510979667451670, ⟨0, 5,
    179914583660224, [44368696760, 19528476, 11460]⟩⟩) (.leaf ⟨385, 16, 10, 151, 16, 77, ⟨[[], [(343597383680, 0)]],
    3, 4⟩, ⟨[[(0, 310854578579), (4599178089734, 0), (6170777632, 0), (1176999774, 0), (17836956, 0)], [(60647166479,
    0), (1238079617, 0), (43276265, 0), (1304128, 0), (35606, 0)], [(0, 16095777), (90490, 0), (7232, 0), (296, 0),
    (6, 0)], [(8138, 0), (0, 102), (0, 7)]], 3, 4⟩, 1099511627776, 0, 485811112, ⟨[[(65006715236336, 0), (0,
    212683941809), (766232279, 0), (386403, 0), (0, 3302)], [(37590284253, 0), (0, 86802075), (0, 44506), (0, 1510),
    (0, 13)], [(0, 40442489), (95228, 0), (0, 37), (6, 0)], [(61657, 0), (0, 197), (0, 1)]], 3, 4⟩, 68719476736,
    59159123, 1560514980747356362513644768775182169080935940865851468084596200471098537153921922093031440853, ⟨0, 5,
    181644521713814, [40386890641, 16390784, 8869]⟩⟩)))) (.sx (.sy (.leaf ⟨344, 25, 8, 114, 16, 66, ⟨[[],
    [(549755813888, 0)]], 3, 4⟩, ⟨[[(0, 508468808582), (4081332261490, 0), (0, 7444081927), (903445664, 0), (4492518,
    0)], [(86180785913, 0), (1444561020, 0), (44372261, 0), (1374765, 0), (31361, 0)], [(0, 45685695), (51580, 0),
    (1431, 0), (783, 0), (18, 0)], [(41518, 0), (0, 333), (0, 27)]], 3, 4⟩, 1099511627776, 0, 1279634403,
    ⟨[[(70762288883831, 0), (0, 284106318507), (1007365053, 0), (834879, 0), (0, 2703)], [(44627889445, 0), (0,
    113585445), (0, 50795), (0, 151), (0, 19)], [(0, 54227112), (159470, 0), (0, 1201), (16, 0)], [(92650, 0), (0,
    175), (0, 4)]], 3, 4⟩, 68719476736, 396840937,
    1315872149270434674301464738138240565471310888559013778495688134685857831492532557830166675456, ⟨0, 5,
    160409755703903, [61989180983, 45050277, 43653]⟩⟩) (.leaf ⟨344, 25, 8, 132, 16, 64, ⟨[[], [(549755813888, 0)]],
    3, 4⟩, ⟨[[(0, 398309635717), (3972176803293, 0), (10415132193, 0), (1138433701, 0), (19144564, 0)],
    [(93854229294, 0), (2090494986, 0), (74634239, 0), (2264918, 0), (60158, 0)], [(0, 43785226), (146218, 0),
    (13038, 0), (329, 0), (0, 7)], [(37205, 0), (0, 752), (0, 56), (0, 4)]], 3, 4⟩, 1099511627776, 0, 1569580523,
    ⟨[[(64977638422376, 0), (0, 245945103387), (1115019909, 0), (340267, 0), (0, 10132)], [(42082718179, 0), (0,
    120763712), (0, 144516), (0, 2865), (0, 36)], [(0, 51099872), (136139, 0), (0, 21), (20, 0)], [(87123, 0), (0,
    328), (0, 3)]], 3, 4⟩, 68719476736, 374433218,
    1731758031375145105670194424261133299809938773276439701374230514821553501804443597641047080960, ⟨0, 5,
    155548854015906, [60110720953, 43685117, 42331]⟩⟩)) (.sy (.leaf ⟨392, 25, 8, 121, 16, 66, ⟨[[], [(549755813888,
    0)]], 3, 4⟩, ⟨[[(0, 319635320166), (4220185444021, 0), (0, 3195108598), (1042291169, 0), (7633167, 0)],
    [(78409407686, 0), (1445036167, 0), (43898731, 0), (1513941, 0), (33657, 0)], [(0, 35940403), (0, 47626), (0,
    6345), (661, 0), (5, 0)], [(27391, 0), (0, 353), (0, 27)]], 3, 4⟩, 1099511627776, 0, 844850856,
    ⟨[[(70813739295222, 0), (0, 275058826613), (1018670514, 0), (733901, 0), (0, 5891)], [(39284121139, 0), (0,
    101540034), (0, 165812), (951, 0), (0, 20)], [(0, 42224461), (125767, 0), (0, 1358), (18, 0)], [(62847, 0), (0,
    55), (0, 4)]], 3, 4⟩, 68719476736, 312844678,
    1852501782703988595774440303858989959070887528799453148326121875799129710107489927574981705728, ⟨0, 6,
    165980517935909, [54398669026, 34693029, 29501]⟩⟩) (.leaf ⟨392, 25, 8, 137, 16, 63, ⟨[[], [(549755813888, 0)]],
    3, 4⟩, ⟨[[(343499565482, 0), (4108317552828, 0), (17372506422, 0), (1334320107, 0), (24328781, 0)],
    [(84981918922, 0), (2064301484, 0), (74308006, 0), (2184001, 0), (53425, 0)], [(0, 34695288), (0, 79590), (0,
    4648), (0, 865), (0, 57)], [(22960, 0), (0, 804), (0, 66), (0, 5)]], 3, 4⟩, 1099511627776, 0, 1412306500,
    ⟨[[(65141646424233, 0), (0, 239283132923), (1144713731, 0), (0, 124311), (0, 14557)], [(36917423559, 0), (0,
    113919895), (0, 203003), (0, 2032), (0, 43)], [(0, 39855466), (99588, 0), (28, 0), (24, 0)], [(59848, 0), (0,
    215), (0, 3)]], 3, 4⟩, 68719476736, 245537767,
    1377265668357528430952059741871611455667981733923615992886388630910698588329988051387496417573, ⟨0, 6,
    158435948938822, [51926002252, 33116073, 28160]⟩⟩)))
theorem c5 : checkC job ⟨6, 8, 7, 8, 9, 13⟩ 3 100 lims t5 160 48 4 3 3 64 = true := by decide +kernel

def t6 : CTree :=
  .sx (.sy (.sx (.leaf ⟨295, 16, 10, 155, 16, 76, ⟨[[], [(343597383680, 0)]], 3, 4⟩, ⟨[[(0, 478244627540),
    (4230493193711, 0), (12186782417, 0), (1216981878, 0), (28283286, 0)], [(80180545211, 0), (1739894057, 0),
    (65337576, 0), (2371784, 0), (101933, 0)], [(0, 25144197), (386409, 0), (29478, 0), (1938, 0), (142, 0)],
    [(18292, 0), (0, 124), (0, 3), (1, 0)]], 3, 4⟩, 1099511627776, 0, 911454768, ⟨[[(60039027248165, 0), (0,
    197112574616), (800860273, 0), (516366, 0), (0, 3522)], [(46106013377, 0), (0, 112874163), (0, 103085), (0,
    2568), (0, 2)], [(0, 63440493), (183971, 0), (180, 0), (1, 0)], [(124974, 0), (0, 477)]], 3, 4⟩, 68719476736,
    109677774, 1710029281942880628242582353983246543212458293351963708741509445699597920723212378936985380110, ⟨0, 5,
    166208959332221, [52023791334, 27554974, 19460]⟩⟩) (.leaf ⟨325, 16, 10, 157, 16, 74, ⟨[[], [(343597383680, 0)]],
    3, 4⟩, ⟨[[(134143851713, 0), (4285152001994, 0), (18234453410, 0), (1424556523, 0), (38414090, 0)],
    [(73812350207, 0), (1762704366, 0), (69014425, 0), (2687221, 0), (127987, 0)], [(0, 20110393), (336775, 0),
    (27388, 0), (2039, 0), (159, 0)], [(12861, 0), (0, 153), (0, 6)]], 3, 4⟩, 1099511627776, 0, 1023208646,
    ⟨[[(60148665367946, 0), (0, 195478278570), (849374266, 0), (365855, 0), (0, 5127)], [(41960974190, 0), (0,
    107275233), (0, 147006), (0, 2770), (0, 3)], [(0, 52664106), (153149, 0), (223, 0), (1, 0)], [(93540, 0), (0,
    369)]], 3, 4⟩, 68719476736, 92022163,
    2291251439926798041135423039390272861057698455429777183572849121456590564140425421083051280923, ⟨0, 5,
    166466211933480, [45978921652, 22105251, 14170]⟩⟩)) (.sx (.sy (.leaf ⟨295, 16, 10, 258, 16, 114, ⟨[[],
    [(343597383680, 0)]], 3, 4⟩, ⟨[[(358524879543, 0), (3320429390281, 0), (12513336148, 0), (382966637, 0),
    (6482975, 0)], [(134402569725, 0), (1891021208, 0), (43279974, 0), (1043050, 0), (25740, 0)], [(0, 33834845),
    (630238, 0), (30555, 0), (1203, 0), (33, 0)], [(26636, 0), (0, 64), (5, 0)]], 3, 4⟩, 1099511627776, 0, 581412228,
    ⟨[[(56921754765478, 0), (0, 113013087709), (364151456, 0), (51400, 0), (0, 1301)], [(44144827130, 0), (0,
    79045567), (0, 101355), (0, 624), (4, 0)], [(0, 60263635), (126040, 0), (22, 0), (0, 2)], [(117011, 0), (0, 301),
    (1, 0)]], 3, 4⟩, 68719476736, 47025030,
    847583030316239688436307800529668043023754438032728500461626066989163445322335498340827027307, ⟨0, 5,
    249313438998332, [78035687000, 41332461, 29190]⟩⟩) (.leaf ⟨295, 16, 10, 258, 16, 106, ⟨[[], [(343597383680, 0)]],
    3, 4⟩, ⟨[[(0, 544487476803), (3271554069709, 0), (19638533322, 0), (551938949, 0), (10762015, 0)],
    [(137213911058, 0), (2370001206, 0), (64016711, 0), (1744998, 0), (42537, 0)], [(0, 26637448), (1076515, 0),
    (55917, 0), (1984, 0), (44, 0)], [(24602, 0), (0, 0), (2, 0), (0, 1)]], 3, 4⟩, 1099511627776, 0, 604238019,
    ⟨[[(54859444474702, 0), (0, 106272796474), (420851953, 0), (0, 83272), (0, 2302)], [(42563275044, 0), (0,
    89872501), (0, 146220), (0, 216), (11, 0)], [(0, 57821233), (132861, 0), (0, 205), (0, 6)], [(111525, 0), (0,
    277), (2, 0)]], 3, 4⟩, 68719476736, 46517056,
    1365675405242403449350840397077744347439512794185583898145625367783983223878348685966514428314, ⟨0, 5,
    231817759068624, [72559498439, 38431938, 27141]⟩⟩)) (.sy (.leaf ⟨325, 16, 10, 265, 16, 112, ⟨[[], [(343597383680,
    0)]], 3, 4⟩, ⟨[[(70076236922, 0), (3446164663706, 0), (16655554524, 0), (485587618, 0), (9074900, 0)],
    [(126306933233, 0), (1974330133, 0), (48363455, 0), (1252186, 0), (30746, 0)], [(0, 26903066), (590355, 0),
    (30440, 0), (1150, 0), (22, 0)], [(18298, 0), (0, 143), (0, 3), (0, 1)]], 3, 4⟩, 1099511627776, 0, 426688909,
    ⟨[[(56892087659296, 0), (0, 108707005710), (374194579, 0), (0, 32520), (0, 1516)], [(39956101647, 0), (0,
    76147670), (0, 125821), (0, 612), (4, 0)], [(0, 49826038), (105420, 0), (17, 0), (0, 3)], [(87116, 0), (0, 217),
    (1, 0)]], 3, 4⟩, 68719476736, 30738339,
    1659498397334579108456705944180048966271045311383045355919921715312541355635082053304401405303, ⟨0, 5,
    251948861304726, [69589719258, 33456596, 21447]⟩⟩) (.leaf ⟨325, 16, 10, 259, 16, 102, ⟨[[], [(343597383680, 0)]],
    3, 4⟩, ⟨[[(130118698778, 0), (3376528112481, 0), (25303123796, 0), (708937517, 0), (14621442, 0)],
    [(127689915675, 0), (2477208896, 0), (71742341, 0), (2011522, 0), (47348, 0)], [(0, 20027138), (998962, 0),
    (50369, 0), (1469, 0), (24, 0)], [(15580, 0), (0, 281), (0, 28), (0, 2)]], 3, 4⟩, 1099511627776, 0, 486970659,
    ⟨[[(54924283265886, 0), (0, 103519769861), (444531918, 0), (0, 210465), (0, 2472)], [(38428418545, 0), (0,
    89548181), (0, 178004), (0, 89), (14, 0)], [(0, 47799703), (112030, 0), (0, 268), (0, 8)], [(83369, 0), (0, 179),
    (2, 0)]], 3, 4⟩, 68719476736, 31533058,
    2988017341611456963915508325672245150756060580487594718020554730421373186691013731359904337294, ⟨0, 5,
    229453427259661, [63376351467, 30469400, 19532]⟩⟩)))) (.sy (.sy (.leaf ⟨296, 25, 8, 201, 16, 93, ⟨[[],
    [(549755813888, 0)]], 3, 4⟩, ⟨[[(494178276261, 0), (2809532416474, 0), (6629751879, 0), (243306956, 0), (3346171,
    0)], [(166134170623, 0), (2060940459, 0), (40046688, 0), (758173, 0), (18614, 0)], [(0, 80534358), (504728, 0),
    (20508, 0), (781, 0), (36, 0)], [(83844, 0), (0, 856), (0, 27)]], 3, 4⟩, 1099511627776, 0, 2912833929,
    ⟨[[(61358156944976, 0), (0, 155216884080), (535059909, 0), (90692, 0), (0, 2332)], [(46805912824, 0), (0,
    95765595), (0, 118344), (0, 1646), (0, 4)], [(0, 65210723), (140582, 0), (243, 0), (3, 0)], [(127002, 0), (0,
    396)]], 3, 4⟩, 68719476736, 410050730,
    1662018882020999359063845796231975590812468556782243580583860157968388887998528765729721755756, ⟨0, 5,
    217000615312989, [101512995394, 85737327, 96551]⟩⟩) (.leaf ⟨296, 25, 8, 203, 16, 87, ⟨[[], [(549755813888, 0)]],
    3, 4⟩, ⟨[[(51853393007, 0), (2730524981117, 0), (11161485295, 0), (335380280, 0), (6116340, 0)], [(168512230550,
    0), (2472638376, 0), (55165601, 0), (1328101, 0), (34814, 0)], [(0, 71607387), (815239, 0), (41086, 0), (1736,
    0), (40, 0)], [(72648, 0), (0, 1154), (0, 39), (0, 2)]], 3, 4⟩, 1099511627776, 0, 2810533769, ⟨[[(59011872608819,
    0), (0, 147587835859), (611936222, 0), (0, 94013), (0, 3725)], [(45236427967, 0), (0, 107817209), (0, 229386),
    (0, 2098), (3, 0)], [(0, 62891083), (159939, 0), (329, 0), (0, 2)], [(120723, 0), (0, 407), (1, 0)]], 3, 4⟩,
    68719476736, 405815856,
    2027816697627498650046846905277596547768315244409301112788714907478473001456521734791418125196, ⟨0, 5,
    203000575615377, [94963769885, 80205887, 90322]⟩⟩)) (.sy (.sx (.leaf ⟨355, 16, 10, 268, 16, 109, ⟨[[],
    [(343597383680, 0)]], 3, 4⟩, ⟨[[(538885616075, 0), (3543463317073, 0), (20995509777, 0), (599197548, 0),
    (11838954, 0)], [(118333835113, 0), (2026890654, 0), (52554176, 0), (1409484, 0), (31939, 0)], [(0, 21896348),
    (518019, 0), (26847, 0), (814, 0), (0, 3)], [(12220, 0), (0, 261), (0, 17), (0, 2)]], 3, 4⟩, 1099511627776, 0,
    331998757, ⟨[[(56937213760110, 0), (0, 106079112433), (388413523, 0), (0, 122525), (0, 1637)], [(36439442390, 0),
    (0, 75144563), (0, 151189), (0, 632), (5, 0)], [(0, 41951184), (91644, 0), (27, 0), (0, 3)], [(66759, 0), (0,
    160), (1, 0)]], 3, 4⟩, 68719476736, 20395839,
    2302853757000607719926827157450316642321716921898489730558240669530575571076317522580567253992, ⟨0, 5,
    251419097679031, [62002409575, 27289793, 16015]⟩⟩) (.sy (.leaf ⟨385, 16, 10, 419, 16, 167, ⟨[[], [(343597383680,
    0)]], 3, 4⟩, ⟨[[(192284647249, 0), (2810311072211, 0), (8859247219, 0), (125761924, 0), (1255217, 0)],
    [(170634651478, 0), (1498620337, 0), (19401531, 0), (256876, 0), (2623, 0)], [(0, 30046397), (278323, 0), (6906,
    0), (65, 0), (0, 3)], [(12959, 0), (0, 261), (0, 10)]], 3, 4⟩, 1099511627776, 0, 286916259, ⟨[[(57412712262336,
    0), (0, 67920636723), (162437083, 0), (0, 49045), (0, 264)], [(33701460132, 0), (0, 46817145), (0, 67633), (0,
    192), (1, 0)], [(0, 36134238), (51907, 0), (36, 0), (0, 1)], [(52857, 0), (0, 81)]], 3, 4⟩, 68719476736,
    13120985, 1975744947790091961232553779263670389236621409366219979184536275845463838614314419629939727385, ⟨0, 5,
    393956300340350, [87592347233, 35548842, 19236]⟩⟩) (.sy (.leaf ⟨385, 16, 10, 560, 16, 217, ⟨[[], [(343597383680,
    0)]], 3, 4⟩, ⟨[[(0, 167094241603), (1882938382095, 0), (3482101458, 0), (24445313, 0), (121765, 0)],
    [(231028092451, 0), (1097865066, 0), (7533498, 0), (49484, 0), (218, 0)], [(0, 37227037), (223048, 0), (2400,
    0)], [(15002, 0), (0, 246), (0, 6)]], 3, 4⟩, 1099511627776, 0, 376888338, ⟨[[(56623031563145, 0), (0,
    49296147762), (95031762, 0), (0, 27854), (0, 83)], [(33131167755, 0), (0, 37334102), (0, 43641), (0, 65)], [(0,
    35509269), (40334, 0), (3, 0)], [(51958, 0), (0, 52)]], 3, 4⟩, 68719476736, 12676343,
    1965397164237300290855761207050788455459381994922785744272295230608413199989421809674128239537, ⟨0, 5,
    511907288466203, [113817600896, 46192208, 24996]⟩⟩) (.out ⟨385, 16, 10, 547, 16, 208, ⟨[[], [(343597383680, 0)]],
    1, 1⟩, ⟨[[(0, 449119515410), (1847530841987, 0)], [(228030747009, 0), (1144289018, 0)]], 1, 1⟩, 1099511627776, 0,
    279645260991, ⟨[], 0, 0⟩, 0, 0, 0, ⟨0, 5, 490676110603549, [109097055237]⟩⟩ 0 1 622)))) (.sy (.sx (.leaf ⟨355,
    16, 10, 395, 16, 152, ⟨[[], [(343597383680, 0)]], 3, 4⟩, ⟨[[(271525263893, 0), (2631136396364, 0), (10714562965,
    0), (150078814, 0), (1544613, 0)], [(179417588074, 0), (1811405001, 0), (26435531, 0), (361268, 0), (3827, 0)],
    [(0, 26426821), (561786, 0), (12737, 0), (102, 0), (0, 1)], [(14636, 0), (0, 392), (0, 19), (0, 1)]], 3, 4⟩,
    1099511627776, 0, 391712014, ⟨[[(55408694183527, 0), (0, 67648916679), (195687979, 0), (0, 81305), (0, 403)],
    [(35255899738, 0), (0, 57444446), (0, 87618), (0, 57), (3, 0)], [(0, 40559819), (64347, 0), (0, 89), (0, 2)],
    [(64645, 0), (0, 81), (1, 0)]], 3, 4⟩, 68719476736, 17525933,
    3475452343921375187546673473278960695169212036601407271331901849846962205937661005916455166434, ⟨0, 5,
    350602778414796, [86462075738, 38055491, 22333]⟩⟩) (.out ⟨385, 16, 10, 400, 16, 148, ⟨[[], [(343597383680, 0)]],
    1, 1⟩, ⟨[[(0, 117778938790), (2735855466071, 0)], [(170076862786, 0), (1855566389, 0)]], 1, 1⟩, 1099511627776, 0,
    324398191089, ⟨[], 0, 0⟩, 0, 0, 0, ⟨0, 5, 349134924852526, [77626750842]⟩⟩ 0 1 1194)) (.out ⟨296, 26, 8, 253, 16,
    92, ⟨[[], [(549755813888, 0)]], 1, 1⟩, ⟨[[(195116278096, 0), (1745079375542, 0)], [(229056842029, 0),
    (2706303484, 0)]], 1, 1⟩, 1099511627776, 0, 647964478678, ⟨[], 0, 0⟩, 0, 0, 0, ⟨0, 5, 214667275363387,
    [100421457809]⟩⟩ 0 1 1566))))
theorem c6 : checkC job ⟨6, 8, 7, 8, 9, 13⟩ 3 100 lims t6 272 48 8 9 3 64 = true := by decide +kernel

def t7 : CTree :=
  .sx (.sy (.leaf ⟨344, 25, 8, 215, 16, 93, ⟨[[], [(549755813888, 0)]], 3, 4⟩, ⟨[[(372229635051, 0), (3011223388345,
    0), (10636209747, 0), (322807392, 0), (5445712, 0)], [(152599115446, 0), (2131949089, 0), (43100861, 0), (890367,
    0), (24719, 0)], [(0, 62213105), (223300, 0), (10462, 0), (535, 0), (23, 0)], [(46972, 0), (0, 1099), (0, 44),
    (0, 2)]], 3, 4⟩, 1099511627776, 0, 1629811343, ⟨[[(61337681300197, 0), (0, 144709476055), (527535815, 0), (0,
    135598), (0, 2897)], [(40104962123, 0), (0, 88175885), (0, 157862), (0, 1585), (0, 5)], [(0, 48858856), (102473,
    0), (357, 0), (4, 0)], [(81361, 0), (0, 262)]], 3, 4⟩, 68719476736, 202374964,
    1693111701437065155336150228418009904947519178193476842649520226149558072561920246668544525151, ⟨0, 5,
    226031928491864, [87348391385, 63479936, 61512]⟩⟩) (.sx (.leaf ⟨415, 16, 10, 280, 16, 114, ⟨[[], [(343597383680,
    0)]], 3, 4⟩, ⟨[[(118105288338, 0), (3816128292050, 0), (20084231112, 0), (574965492, 0), (11422753, 0)],
    [(104278766852, 0), (1683605504, 0), (39457346, 0), (996736, 0), (23252, 0)], [(0, 19427942), (168770, 0), (8911,
    0), (252, 0), (0, 14)], [(7085, 0), (0, 270), (0, 15), (0, 1)]], 3, 4⟩, 1099511627776, 0, 208090129,
    ⟨[[(59016493159959, 0), (0, 105656248704), (347214344, 0), (0, 145612), (0, 1211)], [(32049425545, 0), (0,
    62741783), (0, 125121), (0, 735), (1, 0)], [(0, 32225496), (64074, 0), (166, 0)], [(43830, 0), (0, 112), (1,
    0)]], 3, 4⟩, 68719476736, 15280996,
    2258664016177922255105232609078826598049718174145840167699571903759443430850242054776232249370, ⟨0, 5,
    274455771563290, [55471151000, 20885223, 10485]⟩⟩) (.leaf ⟨445, 16, 10, 284, 16, 112, ⟨[[], [(343597383680, 0)]],
    3, 4⟩, ⟨[[(0, 18278349257), (3909248510504, 0), (23518963866, 0), (660002102, 0), (13207446, 0)], [(98954755500,
    0), (1677976735, 0), (39957609, 0), (988826, 0), (17554, 0)], [(0, 17423882), (80042, 0), (3280, 0), (0, 180),
    (0, 43)], [(4680, 0), (0, 332), (0, 23), (0, 2)]], 3, 4⟩, 1099511627776, 0, 174952322, ⟨[[(59003214996141, 0),
    (0, 103103178476), (350685903, 0), (0, 219725), (0, 1093)], [(29680302642, 0), (0, 62531670), (0, 138741), (0,
    761), (1, 0)], [(0, 28115701), (59442, 0), (210, 0)], [(35580, 0), (0, 91), (1, 0)]], 3, 4⟩, 68719476736,
    19397021, 3789546630898732146059962194316684607913166004331460338479874312831557807706348194979452551168, ⟨0, 5,
    274692108204698, [50823952267, 17845489, 8355]⟩⟩))) (.sy (.leaf ⟨392, 25, 8, 226, 16, 92, ⟨[[], [(549755813888,
    0)]], 3, 4⟩, ⟨[[(0, 307758023447), (3182332029220, 0), (14666596913, 0), (406959586, 0), (7815985, 0)],
    [(140207477940, 0), (2119168968, 0), (43199227, 0), (920954, 0), (24455, 0)], [(0, 51445936), (0, 126801), (0,
    5696), (0, 216), (0, 31)], [(25466, 0), (0, 1327), (0, 69), (0, 4)]], 3, 4⟩, 1099511627776, 0, 992674246,
    ⟨[[(61250680561796, 0), (0, 136323200400), (520347129, 0), (0, 378967), (0, 2959)], [(34814451487, 0), (0,
    84909872), (0, 182253), (0, 1518), (0, 6)], [(0, 37950616), (83162, 0), (525, 0), (5, 0)], [(55338, 0), (0,
    189)]], 3, 4⟩, 68719476736, 146714492,
    1964135457213908922649904551516303332884157684334652093487862342287883571003594734670297473456, ⟨0, 6,
    231366782577328, [75828447733, 48359979, 41122]⟩⟩) (.sy (.sx (.leaf ⟨475, 16, 10, 456, 16, 178, ⟨[[],
    [(343597383680, 0)]], 3, 4⟩, ⟨[[(103959889998, 0), (3173450722552, 0), (9603482271, 0), (132767006, 0), (1319830,
    0)], [(148252608066, 0), (1247473272, 0), (14278396, 0), (167259, 0), (1211, 0)], [(0, 25931500), (0, 13162), (0,
    803), (0, 81), (0, 5)], [(5413, 0), (0, 258), (0, 9)]], 3, 4⟩, 1099511627776, 0, 130906010, ⟨[[(59565661414733,
    0), (0, 64751431402), (136409458, 0), (0, 63430), (0, 153)], [(27910016800, 0), (0, 37722122), (0, 52030), (0,
    188)], [(0, 25023659), (33436, 0), (101, 0)], [(29730, 0), (0, 50)]], 3, 4⟩, 68719476736, 6150266,
    2569487658845148362790272897239141859793287426384796605896568334644850661787032093495388384192, ⟨0, 6,
    444068329865906, [75672279306, 24892197, 10918]⟩⟩) (.sy (.leaf ⟨505, 16, 10, 665, 16, 255, ⟨[[], [(343597383680,
    0)]], 3, 4⟩, ⟨[[(250280971498, 0), (2335794917205, 0), (3693135509, 0), (24993855, 0), (120336, 0)],
    [(202820575469, 0), (857265507, 0), (4732857, 0), (25133, 0), (33, 0)], [(0, 35193310), (0, 59896), (0, 1083),
    (0, 27), (0, 1)], [(5234, 0), (0, 193), (0, 4)]], 3, 4⟩, 1099511627776, 0, 140793454, ⟨[[(59850490735672, 0), (0,
    44434752272), (64898299, 0), (0, 24969), (0, 28)], [(26187726522, 0), (0, 25569537), (0, 24366), (0, 61)], [(0,
    22306227), (21659, 0), (57, 0)], [(24987, 0), (0, 30)]], 3, 4⟩, 68719476736, 3856337,
    3370478037248544540161803170628937443272529655530735650703277286054123114692066546237622492044, ⟨0, 6,
    646256937569107, [101966902112, 31549165, 13015]⟩⟩) (.out ⟨505, 16, 10, 654, 16, 246, ⟨[[], [(343597383680, 0)]],
    1, 1⟩, ⟨[[(183641970760, 0), (2298814257289, 0)], [(200793883475, 0), (884427262, 0)]], 1, 1⟩, 1099511627776, 0,
    196663028887, ⟨[], 0, 0⟩, 0, 0, 0, ⟨0, 6, 623447869184315, [98368070273]⟩⟩ 0 1 847))) (.out ⟨392, 26, 8, 316, 16,
    117, ⟨[[], [(549755813888, 0)]], 1, 1⟩, ⟨[[(0, 165818501358), (2217146529363, 0)], [(202196061652, 0),
    (1881346583, 0)]], 1, 1⟩, 1099511627776, 0, 425105380245, ⟨[], 0, 0⟩, 0, 0, 0, ⟨0, 6, 294238190886384,
    [96434004183]⟩⟩ 0 1 1180)))
theorem c7 : checkC job ⟨6, 8, 7, 8, 9, 13⟩ 3 100 lims t7 368 48 8 15 3 128 = true := by decide +kernel

def t8 : CTree :=
  .sy (.sx (.sy (.sx (.leaf ⟨415, 16, 10, 429, 16, 165, ⟨[[], [(343597383680, 0)]], 3, 4⟩, ⟨[[(0, 401128402692),
    (2921081096754, 0), (10646306584, 0), (148794370, 0), (1453668, 0)], [(163197102144, 0), (1525313011, 0),
    (20152054, 0), (252498, 0), (1724, 0)], [(0, 26739778), (184287, 0), (3081, 0), (0, 89), (0, 7)], [(7826, 0), (0,
    377), (0, 17), (0, 1)]], 3, 4⟩, 1099511627776, 0, 220202326, ⟨[[(57376390721452, 0), (0, 65225596661),
    (161454499, 0), (0, 71305), (0, 202)], [(30983677108, 0), (0, 46573428), (0, 75480), (0, 188), (1, 0)], [(0,
    31133734), (47477, 0), (48, 0), (0, 1)], [(42184, 0), (0, 59), (1, 0)]], 3, 4⟩, 68719476736, 10933934,
    3904022430908205565845627229233893334573056797932914439100935123778726234260462634828232207286, ⟨0, 5,
    397238616736341, [80287192237, 30228612, 15175]⟩⟩) (.out ⟨445, 16, 10, 432, 16, 161, ⟨[[], [(343597383680, 0)]],
    1, 1⟩, ⟨[[(0, 72386884371), (2994449914787, 0)], [(154403473989, 0), (1511468108, 0)]], 1, 1⟩, 1099511627776, 0,
    262771871414, ⟨[], 0, 0⟩, 0, 0, 0, ⟨0, 5, 394869905544254, [73059431384]⟩⟩ 0 1 1041)) (.out ⟨344, 26, 8, 285, 16,
    104, ⟨[[], [(549755813888, 0)]], 1, 1⟩, ⟨[[(205544452834, 0), (1987231711024, 0)], [(215191729254, 0),
    (2282516981, 0)]], 1, 1⟩, 1099511627776, 0, 493861794577, ⟨[], 0, 0⟩, 0, 0, 0, ⟨0, 5, 252766887775848,
    [97679921549]⟩⟩ 0 1 1490)) (.sx (.out ⟨475, 16, 10, 276, 16, 98, ⟨[[], [(343597383680, 0)]], 1, 1⟩,
    ⟨[[(314731134939, 0), (3931571334651, 0)], [(94017199518, 0), (1973253405, 0)]], 1, 1⟩, 1099511627776, 0,
    547714385805, ⟨[], 0, 0⟩, 0, 0, 0, ⟨0, 6, 244487058016061, [41662266135]⟩⟩ 0 1 2087) (.sy (.out ⟨505, 16, 10,
    447, 16, 157, ⟨[[], [(343597383680, 0)]], 1, 1⟩, ⟨[[(0, 323102740014), (3201027059150, 0)], [(141534203568, 0),
    (1429676160, 0)]], 1, 1⟩, 1099511627776, 0, 272163913830, ⟨[], 0, 0⟩, 0, 0, 0, ⟨0, 6, 397891526268039,
    [62779622085]⟩⟩ 0 1 2329) (.out ⟨505, 16, 10, 438, 16, 148, ⟨[[], [(343597383680, 0)]], 1, 1⟩, ⟨[[(83774609177,
    0), (3211536959940, 0)], [(142021194693, 0), (1517833891, 0)]], 1, 1⟩, 1099511627776, 0, 299864514539, ⟨[], 0,
    0⟩, 0, 0, 0, ⟨0, 6, 375082457883247, [59180790246]⟩⟩ 0 1 3211)))) (.sx (.sx (.out ⟨415, 16, 10, 260, 16, 91,
    ⟨[[], [(343597383680, 0)]], 1, 1⟩, ⟨[[(0, 141374527350), (3709898478907, 0)], [(105638722811, 0), (2561409758,
    0)]], 1, 1⟩, 1099511627776, 0, 641389242502, ⟨[], 0, 0⟩, 0, 0, 0, ⟨0, 5, 219083115897012, [44279602991]⟩⟩ 0 1
    2407) (.out ⟨445, 16, 10, 260, 16, 88, ⟨[[], [(343597383680, 0)]], 1, 1⟩, ⟨[[(125074058672, 0), (3825101249713,
    0)], [(99597508524, 0), (2455155890, 0)]], 1, 1⟩, 1099511627776, 0, 678058313440, ⟨[], 0, 0⟩, 0, 0, 0, ⟨0, 5,
    215829513589406, [39933105352]⟩⟩ 0 1 3172)) (.sy (.out ⟨392, 26, 8, 295, 16, 97, ⟨[[], [(549755813888, 0)]], 1,
    1⟩, ⟨[[(0, 398307876213), (2206943502773, 0)], [(202334995494, 0), (2315244797, 0)]], 1, 1⟩, 1099511627776, 0,
    493082386672, ⟨[], 0, 0⟩, 0, 0, 0, ⟨0, 6, 243941064239139, [79949559023]⟩⟩ 0 1 3853) (.out ⟨392, 26, 8, 285, 16,
    90, ⟨[[], [(549755813888, 0)]], 1, 1⟩, ⟨[[(7663738158, 0), (2222067390454, 0)], [(201390853163, 0), (2405989477,
    0)]], 1, 1⟩, 1099511627776, 0, 559239993581, ⟨[], 0, 0⟩, 0, 0, 0, ⟨0, 6, 226337069912603, [74180003217]⟩⟩ 0 1
    4838)))
theorem c8 : checkC job ⟨6, 8, 7, 8, 9, 13⟩ 3 100 lims t8 368 48 8 21 3 128 = true := by decide +kernel

def t9 : CTree :=
  .sx (.sx (.sx (.sx (.leaf ⟨343, 16, 82, 79, 16, 69, ⟨[[(412316860416, 0)], [(352187318272, 0)]], 3, 4⟩,
    ⟨[[(73956218183, 0), (4752164292658, 0), (0, 41104185218), (1487323989, 0), (0, 144835)], [(46688365772, 0),
    (444850560, 0), (19897864, 0), (809839, 0), (32854, 0)], [(0, 19172170), (50305, 0), (5455, 0), (370, 0), (17,
    0)], [(12082, 0), (5, 0), (1, 0)]], 3, 4⟩, 1099511627776, 0, 619894308, ⟨[[(50535119474407, 0), (0,
    248817829209), (725714792, 0), (1070763, 0), (9477, 0)], [(33018374900, 0), (0, 120204388), (58586, 0), (0,
    1450), (0, 17)], [(0, 38994884), (179318, 0), (113, 0), (5, 0)], [(56196, 0), (0, 284), (0, 1)]], 3, 4⟩,
    68719476736, 120665722,
    1440382726745974402371906796396869782455597702291847904680475043642455650711586873986558602892, ⟨0, 2,
    63853398722157, [41592469466, 19399473, 12064]⟩⟩) (.leaf ⟨374, 16, 82, 83, 16, 69, ⟨[[(137438953472, 0)],
    [(352187318272, 0)]], 3, 4⟩, ⟨[[(0, 8677925147), (4795337915068, 0), (0, 39143169634), (1568522462, 0), (3169449,
    0)], [(43313926249, 0), (454645171, 0), (20962382, 0), (882258, 0), (36225, 0)], [(0, 16109310), (51720, 0),
    (5634, 0), (384, 0), (18, 0)], [(9344, 0), (5, 0), (1, 0)]], 3, 4⟩, 1099511627776, 0, 617179433,
    ⟨[[(50525115423220, 0), (0, 246507592810), (740857301, 0), (1177467, 0), (9434, 0)], [(30327456032, 0), (0,
    109455374), (48004, 0), (0, 1440), (0, 14)], [(0, 33088262), (153876, 0), (107, 0), (4, 0)], [(53015, 0), (0,
    271), (0, 1)]], 3, 4⟩, 68719476736, 90132365,
    1454843189727711247808319229421395926951721911866322232026942482245501267853642316030882420550, ⟨0, 2,
    67677494919160, [38173910332, 16341571, 9327]⟩⟩)) (.leaf ⟨210, 16, 41, 78, 16, 61, ⟨[[(137438953472, 0)],
    [(352187318272, 0)]], 3, 4⟩, ⟨[[(150410809140, 0), (4298195976946, 0), (0, 31831283958), (1506166046, 0),
    (7754279, 0)], [(69296087265, 0), (830736572, 0), (40002146, 0), (1761507, 0), (73661, 0)], [(0, 44951611),
    (190301, 0), (20887, 0), (1441, 0), (70, 0)], [(46661, 0), (34, 0), (4, 0)]], 3, 4⟩, 1099511627776, 0,
    1763372483, ⟨[[(50561585581930, 0), (0, 275288774217), (975311887, 0), (1890713, 0), (14841, 0)], [(54166410620,
    0), (0, 218094282), (90360, 0), (0, 4017), (0, 33)], [(0, 104622109), (551478, 0), (516, 0), (17, 0)], [(300294,
    0), (0, 1871), (0, 4)]], 3, 4⟩, 68719476736, 359915510,
    1705811247758614356574924776175338755560912551097523459815406142829952086736359630026922762985, ⟨0, 2,
    64413511987262, [60087812904, 45798638, 46543]⟩⟩)) (.sx (.leaf ⟨241, 16, 41, 85, 16, 62, ⟨[[(0, 137438953472)],
    [(352187318272, 0)]], 3, 4⟩, ⟨[[(240487098896, 0), (4451529384606, 0), (0, 28250230990), (1716604068, 0),
    (15754527, 0)], [(62804104453, 0), (882444414, 0), (44861467, 0), (2083330, 0), (89502, 0)], [(0, 34528470),
    (203320, 0), (22566, 0), (1590, 0), (82, 0)], [(31518, 0), (34, 0), (5, 0)]], 3, 4⟩, 1099511627776, 0,
    1413865000, ⟨[[(50594647032590, 0), (0, 266013620840), (978856255, 0), (1990555, 0), (12560, 0)], [(47377644322,
    0), (0, 184596421), (53892, 0), (0, 3536), (0, 18)], [(0, 79420505), (408122, 0), (459, 0), (12, 0)], [(194737,
    0), (0, 1216), (0, 3)]], 3, 4⟩, 68719476736, 270932184,
    1707000640638375927601368133199775557784813901432070227194405356956552661053208006763089160379, ⟨0, 3,
    70941205507055, [53276323824, 35423088, 31403]⟩⟩) (.leaf ⟨272, 16, 41, 90, 16, 62, ⟨[[(0, 412316860416)],
    [(352187318272, 0)]], 3, 4⟩, ⟨[[(479378548720, 0), (4538148018870, 0), (0, 23731307972), (1931687368, 0),
    (25143974, 0)], [(56947726875, 0), (922424372, 0), (49327703, 0), (2402288, 0), (106586, 0)], [(0, 26929638),
    (213131, 0), (23971, 0), (1737, 0), (97, 0)], [(22011, 0), (34, 0), (5, 0), (1, 0)]], 3, 4⟩, 1099511627776, 0,
    1339495549, ⟨[[(50660246878789, 0), (0, 261419935479), (1011019435, 0), (2120836, 0), (10812, 0)], [(42145685971,
    0), (0, 161827621), (30108, 0), (0, 3187), (0, 9)], [(0, 62473608), (318658, 0), (402, 0), (8, 0)], [(135861, 0),
    (0, 833), (0, 2)]], 3, 4⟩, 68719476736, 269769634,
    1553531363634774771161119112355127130499484165468107200110777888286498736321016478525802533237, ⟨0, 3,
    75754642649042, [47245041881, 27856746, 21900]⟩⟩))) (.sx (.sx (.leaf ⟨302, 16, 41, 95, 16, 62, ⟨[[(412316860416,
    0)], [(352187318272, 0)]], 3, 4⟩, ⟨[[(218582612634, 0), (4628695109117, 0), (0, 18770380899), (2178839273, 0),
    (36325537, 0)], [(52324180671, 0), (964287730, 0), (54073312, 0), (2752426, 0), (127005, 0)], [(0, 21520565),
    (222958, 0), (25484, 0), (1916, 0), (117, 0)], [(15982, 0), (34, 0), (5, 0), (1, 0)]], 3, 4⟩, 1099511627776, 0,
    1460603011, ⟨[[(50567330807328, 0), (0, 255728765957), (1044215040, 0), (2225115, 0), (8598, 0)], [(38008430935,
    0), (0, 144428571), (7461, 0), (0, 2855)], [(0, 50561805), (258418, 0), (355, 0), (6, 0)], [(99399, 0), (0, 606),
    (0, 1)]], 3, 4⟩, 68719476736, 291836725,
    1988409242535495832549651962671536525186173548145917520046931094686482682491676260981641957749, ⟨0, 3,
    80051305647077, [42440461351, 22479058, 15875]⟩⟩) (.leaf ⟨333, 16, 41, 100, 16, 62, ⟨[[(137438953472, 0)],
    [(352187318272, 0)]], 3, 4⟩, ⟨[[(0, 441039241689), (4723351978672, 0), (0, 13339504824), (2461370239, 0),
    (49671802, 0)], [(48593564875, 0), (1008049342, 0), (59123212, 0), (3140662, 0), (151896, 0)], [(0, 17531699),
    (232928, 0), (27149, 0), (2136, 0), (144, 0)], [(11976, 0), (35, 0), (6, 0), (1, 0)]], 3, 4⟩, 1099511627776, 0,
    1745552842, ⟨[[(50426290856695, 0), (0, 249362322354), (1078035210, 0), (2287764, 0), (5887, 0)], [(34486220372,
    0), (0, 129914755), (0, 12283), (0, 2501), (7, 0)], [(0, 41406781), (212877, 0), (305, 0), (3, 0)], [(73847, 0),
    (0, 454), (0, 1)]], 3, 4⟩, 68719476736, 314561686,
    2282382409561061237392806303618932895796250552902501090151250046834141402529743454570428283439, ⟨0, 3,
    83931477271245, [38522880303, 18520616, 11872]⟩⟩)) (.sy (.leaf ⟨185, 16, 20, 142, 16, 89, ⟨[[], [(343597383680,
    0)]], 3, 4⟩, ⟨[[(117666395536, 0), (3520698903961, 0), (0, 5984593515), (464659566, 0), (4495759, 0)],
    [(122656743046, 0), (1289913545, 0), (37735386, 0), (1009104, 0), (24962, 0)], [(0, 77913858), (497617, 0),
    (29747, 0), (1197, 0), (40, 0)], [(93071, 0), (121, 0), (11, 0), (1, 0)]], 3, 4⟩, 1099511627776, 0, 2764784909,
    ⟨[[(52215639225855, 0), (0, 179224628921), (519755078, 0), (727593, 0), (1553, 0)], [(63956033686, 0), (0,
    161079371), (16935, 0), (0, 1514), (0, 1)], [(0, 138711919), (471529, 0), (356, 0), (5, 0)], [(446513, 0), (0,
    1799), (0, 3)]], 3, 4⟩, 68719476736, 372061362,
    988693588747352944244206925122419505712288414089375656337762845779034631332284208860191880286, ⟨0, 3,
    127940174402873, [97146845054, 82049700, 92398]⟩⟩) (.leaf ⟨185, 16, 20, 158, 16, 87, ⟨[[], [(343597383680, 0)]],
    3, 4⟩, ⟨[[(0, 441952079695), (3425146319673, 0), (3590646238, 0), (615761817, 0), (9745403, 0)], [(129043728785,
    0), (1835644225, 0), (61499340, 0), (1868043, 0), (55342, 0)], [(0, 71880206), (1007913, 0), (63126, 0), (2993,
    0), (138, 0)], [(92323, 0), (392, 0), (43, 0), (4, 0)]], 3, 4⟩, 1099511627776, 0, 2795615739, ⟨[[(48903074096121,
    0), (0, 161574014732), (590895718, 0), (818086, 0), (0, 1002)], [(60789034639, 0), (0, 165815379), (0, 66661),
    (0, 1104), (15, 0)], [(0, 129289973), (500358, 0), (492, 0), (0, 2)], [(410117, 0), (0, 1947), (0, 2)]], 3, 4⟩,
    68719476736, 414781164,
    1219393532336053699974766606462532236327444517231697106890670700306256766625292540273806049978, ⟨0, 3,
    125065114303932, [94963769885, 80205887, 90322]⟩⟩)))
theorem c9 : checkC job ⟨6, 8, 7, 8, 9, 13⟩ 3 100 lims t9 112 48 16 15 3 64 = true := by decide +kernel

def t10 : CTree :=
  .sx (.sx (.sy (.leaf ⟨215, 16, 20, 156, 16, 91, ⟨[[], [(343597383680, 0)]], 3, 4⟩, ⟨[[(0, 383657257009),
    (3731229461484, 0), (0, 2124478670), (586184752, 0), (7471524, 0)], [(112383446576, 0), (1420040838, 0),
    (44749842, 0), (1291043, 0), (34930, 0)], [(0, 57696782), (544927, 0), (33932, 0), (1492, 0), (58, 0)], [(60818,
    0), (128, 0), (13, 0), (1, 0)]], 3, 4⟩, 1099511627776, 0, 1593623566, ⟨[[(52137602063366, 0), (0, 168644527966),
    (519496357, 0), (684474, 0), (524, 0)], [(55235545892, 0), (0, 133685578), (0, 7897), (0, 1180), (2, 0)], [(0,
    102415871), (340160, 0), (262, 0), (2, 0)], [(281368, 0), (0, 1135), (0, 2)]], 3, 4⟩, 68719476736, 204962027,
    951622930007943119144345926743778813671758384837805692022963273520576822353372431899474097246, ⟨0, 3,
    139652325891895, [85469931356, 62114776, 60189]⟩⟩) (.leaf ⟨215, 16, 20, 166, 16, 86, ⟨[[], [(343597383680, 0)]],
    3, 4⟩, ⟨[[(433452800155, 0), (3569516863885, 0), (10001885075, 0), (816785849, 0), (16389543, 0)],
    [(116098046449, 0), (2017353530, 0), (74104965, 0), (2530087, 0), (88908, 0)], [(0, 49882343), (1120899, 0),
    (77116, 0), (4248, 0), (226, 0)], [(59017, 0), (484, 0), (60, 0), (5, 0)]], 3, 4⟩, 1099511627776, 0, 1703956531,
    ⟨[[(49029361484914, 0), (0, 156006901442), (626219207, 0), (747908, 0), (0, 2625)], [(52597120488, 0), (0,
    143074758), (0, 71670), (0, 693), (16, 0)], [(0, 95620838), (371863, 0), (294, 0), (0, 3)], [(258499, 0), (0,
    1256), (0, 1)]], 3, 4⟩, 68719476736, 256580277,
    1102899571146165906387305779197721314799215507048365300097951848023226773243822104169300205046, ⟨0, 3,
    131979121172560, [80773781281, 58701876, 56882]⟩⟩)) (.sy (.leaf ⟨245, 16, 20, 165, 16, 91, ⟨[[], [(343597383680,
    0)]], 3, 4⟩, ⟨[[(26596796316, 0), (3872690263198, 0), (2496824515, 0), (724941014, 0), (11435436, 0)],
    [(102782939955, 0), (1528276479, 0), (51666131, 0), (1611713, 0), (48476, 0)], [(0, 43241932), (582997, 0),
    (38275, 0), (1868, 0), (84, 0)], [(41260, 0), (138, 0), (17, 0), (2, 0)]], 3, 4⟩, 1099511627776, 0, 1033661926,
    ⟨[[(52200589683520, 0), (0, 162867112084), (537172782, 0), (655788, 0), (0, 345)], [(48719712134, 0), (0,
    116125712), (0, 23429), (0, 969), (4, 0)], [(0, 78930233), (259856, 0), (190, 0), (1, 0)], [(189095, 0), (0,
    770), (0, 1)]], 3, 4⟩, 68719476736, 135830374,
    938960360575055904826434214509372042613142475946066616587963859242073384938876443608083905071, ⟨0, 4,
    147333225332994, [75004225475, 47834327, 40675]⟩⟩) (.leaf ⟨245, 16, 20, 174, 16, 85, ⟨[[], [(343597383680, 0)]],
    3, 4⟩, ⟨[[(118424857075, 0), (3730084397172, 0), (17676682553, 0), (1091249918, 0), (27059362, 0)],
    [(106706609414, 0), (2220941365, 0), (89717907, 0), (3474344, 0), (142554, 0)], [(0, 35320051), (1263385, 0),
    (96446, 0), (6049, 0), (354, 0)], [(40369, 0), (607, 0), (82, 0), (8, 0), (1, 0)]], 3, 4⟩, 1099511627776, 0,
    1349835868, ⟨[[(48983839307592, 0), (0, 148973936553), (659648568, 0), (614520, 0), (0, 4594)], [(46229600305,
    0), (0, 126524999), (0, 74565), (0, 253), (17, 0)], [(0, 73313660), (286425, 0), (149, 0), (0, 4)], [(172320, 0),
    (0, 858)]], 3, 4⟩, 68719476736, 189964480,
    1582370558775875669873133971324727467796331451987788388780524898937485342059400114428707306823, ⟨0, 4,
    137618946739610, [70058891928, 44680416, 37994]⟩⟩))) (.sy (.sx (.leaf ⟨275, 16, 20, 172, 16, 90, ⟨[[],
    [(343597383680, 0)]], 3, 4⟩, ⟨[[(0, 266184908206), (3980672853329, 0), (7739326403, 0), (888456531, 0),
    (16779401, 0)], [(94448853111, 0), (1626080901, 0), (58864447, 0), (1994561, 0), (67122, 0)], [(0, 32845524),
    (617897, 0), (43246, 0), (2348, 0), (118, 0)], [(28998, 0), (152, 0), (21, 0), (2, 0)]], 3, 4⟩, 1099511627776, 0,
    785194564, ⟨[[(52158452769289, 0), (0, 158162212393), (565478431, 0), (620966, 0), (0, 1359)], [(43529060588, 0),
    (0, 103981783), (0, 37836), (0, 788), (6, 0)], [(0, 62580723), (206543, 0), (133, 0)], [(132916, 0), (0, 551),
    (0, 1)]], 3, 4⟩, 68719476736, 107836781,
    1112171316512250868928446576869776872453444692430540157041928880430748567913152847553977575611, ⟨0, 4,
    152432076030031, [66087639230, 37549795, 28447]⟩⟩) (.leaf ⟨305, 16, 20, 178, 16, 89, ⟨[[], [(343597383680, 0)]],
    3, 4⟩, ⟨[[(0, 271088522291), (4096580659806, 0), (13654982137, 0), (1091184837, 0), (24169625, 0)],
    [(87879349759, 0), (1729657502, 0), (67036190, 0), (2477178, 0), (92881, 0)], [(0, 25379966), (657077, 0),
    (49400, 0), (2960, 0), (161, 0)], [(21154, 0), (170, 0), (25, 0), (2, 0)]], 3, 4⟩, 1099511627776, 0, 732373544,
    ⟨[[(52158893019615, 0), (0, 153674079309), (591254426, 0), (560237, 0), (0, 2413)], [(39355052208, 0), (0,
    94612853), (0, 49089), (0, 607), (8, 0)], [(0, 50861805), (167712, 0), (81, 0), (0, 1)], [(97047, 0), (0, 406)]],
    3, 4⟩, 68719476736, 93607572,
    1399561874749371398001179443393159687545515684363921015068460631241525407105095079525685252469, ⟨0, 4,
    156693107270349, [58925135525, 30187057, 20620]⟩⟩)) (.sx (.leaf ⟨275, 16, 20, 177, 16, 82, ⟨[[], [(343597383680,
    0)]], 3, 4⟩, ⟨[[(0, 336503697449), (3815902063111, 0), (26294062425, 0), (1435254694, 0), (42954145, 0)],
    [(97367628568, 0), (2394093595, 0), (106810675, 0), (4695737, 0), (219197, 0)], [(0, 24473256), (1408638, 0),
    (119173, 0), (8284, 0), (519, 0)], [(28562, 0), (736, 0), (103, 0), (10, 0), (1, 0)]], 3, 4⟩, 1099511627776, 0,
    1410110588, ⟨[[(48923215885154, 0), (0, 145044305768), (722171063, 0), (451883, 0), (0, 7365)], [(41188131939,
    0), (0, 116840587), (0, 75254), (223, 0), (20, 0)], [(0, 57924477), (231443, 0), (35, 0), (0, 4)], [(120404, 0),
    (0, 625)]], 3, 4⟩, 68719476736, 168040308,
    2014587902192504247731193405512295174433066311904380723589121659944140180761065214742577444821, ⟨0, 4,
    138882558160695, [60213182410, 34212035, 25918]⟩⟩) (.leaf ⟨305, 16, 20, 178, 16, 79, ⟨[[], [(343597383680, 0)]],
    3, 4⟩, ⟨[[(267081035182, 0), (3910889918145, 0), (36362556280, 0), (1899554057, 0), (66951220, 0)],
    [(89974960888, 0), (2588140737, 0), (127934088, 0), (6342877, 0), (329353, 0)], [(0, 16621907), (1584339, 0),
    (147187, 0), (11110, 0), (747, 0)], [(21255, 0), (870, 0), (126, 0), (12, 0), (1, 0)]], 3, 4⟩, 1099511627776, 0,
    1878047006, ⟨[[(49002119585477, 0), (0, 142322345258), (784160574, 0), (236204, 0), (0, 10410)], [(37194018517,
    0), (0, 109578407), (0, 70982), (733, 0), (25, 0)], [(0, 47058655), (190235, 0), (0, 65), (0, 4)], [(87755, 0),
    (0, 470)]], 3, 4⟩, 68719476736, 164228479,
    2398432141303154392112095882032386395224424972703680363415248166247642413614233941365159920314, ⟨0, 4,
    139087140161321, [52304333780, 26795253, 18303]⟩⟩)))
theorem c10 : checkC job ⟨6, 8, 7, 8, 9, 13⟩ 3 100 lims t10 208 48 16 15 3 64 = true := by decide +kernel

def t11 : CTree :=
  .sy (.sx (.sx (.leaf ⟨335, 16, 20, 181, 16, 87, ⟨[[], [(343597383680, 0)]], 3, 4⟩, ⟨[[(73686031516, 0),
    (4172910262952, 0), (20107120468, 0), (1328033688, 0), (33944390, 0)], [(81662875760, 0), (1818925308, 0),
    (75534254, 0), (3048079, 0), (125818, 0)], [(0, 19610899), (693544, 0), (56154, 0), (3655, 0), (209, 0)],
    [(15734, 0), (189, 0), (30, 0), (3, 0)]], 3, 4⟩, 1099511627776, 0, 806581114, ⟨[[(52206900328037, 0), (0,
    151243053061), (628625712, 0), (495686, 0), (0, 3617)], [(35928928499, 0), (0, 88258781), (0, 59414), (0, 446),
    (11, 0)], [(0, 42187775), (140092, 0), (32, 0), (0, 1)], [(73063, 0), (0, 309)]], 3, 4⟩, 68719476736, 89696038,
    1646742507888706022877038815082706067659772830197636750950755167482881062113009645527147383715, ⟨0, 4,
    158446268395904, [52442678892, 24460205, 15212]⟩⟩) (.leaf ⟨365, 16, 20, 182, 16, 84, ⟨[[], [(343597383680, 0)]],
    3, 4⟩, ⟨[[(0, 483406023530), (4203950459550, 0), (26941018487, 0), (1599824678, 0), (46464512, 0)],
    [(75598168320, 0), (1890036099, 0), (84172052, 0), (3700618, 0), (165558, 0)], [(0, 15065648), (725517, 0),
    (63090, 0), (4380, 0), (258, 0)], [(11867, 0), (205, 0), (33, 0), (3, 0)]], 3, 4⟩, 1099511627776, 0, 993028660,
    ⟨[[(52130818762083, 0), (0, 149447857176), (682691945, 0), (401712, 0), (0, 5363)], [(32972149843, 0), (0,
    84467778), (0, 71305), (0, 230), (14, 0)], [(0, 35460556), (120051, 0), (0, 23), (0, 2)], [(56142, 0), (0,
    243)]], 3, 4⟩, 68719476736, 92441124,
    1557044101676922112438154339867844248866007620386528782573480152504217837188540676501224578328, ⟨0, 4,
    157638025425680, [46472586491, 19894087, 11355]⟩⟩)) (.sy (.leaf ⟨205, 16, 10, 229, 16, 104, ⟨[[], [(343597383680,
    0)]], 3, 4⟩, ⟨[[(263550785784, 0), (2714211554212, 0), (9705494447, 0), (284415164, 0), (4386489, 0)],
    [(170784107600, 0), (2266440388, 0), (52185565, 0), (1201091, 0), (27731, 0)], [(0, 58375629), (1535251, 0),
    (69755, 0), (2505, 0), (73, 0)], [(81764, 0), (691, 0), (60, 0), (3, 0)]], 3, 4⟩, 1099511627776, 0, 2129340623,
    ⟨[[(53100259345357, 0), (0, 120339569634), (445310889, 0), (172170, 0), (0, 2283)], [(59730079713, 0), (0,
    121806159), (0, 100094), (0, 295), (11, 0)], [(0, 114816161), (299887, 0), (0, 116), (0, 5)], [(323672, 0), (0,
    1061)]], 3, 4⟩, 68719476736, 226202369,
    754423394183311008385813709984676921533120960983625503012208973148354768622097609054761826863, ⟨0, 4,
    202983987755900, [102444795771, 78082924, 79353]⟩⟩) (.leaf ⟨205, 16, 10, 226, 16, 96, ⟨[[], [(343597383680, 0)]],
    3, 4⟩, ⟨[[(0, 408791725378), (2645370220561, 0), (14762279641, 0), (395995265, 0), (7521236, 0)], [(172211407410,
    0), (2816417908, 0), (75198344, 0), (2001693, 0), (52923, 0)], [(0, 42461086), (2511882, 0), (125532, 0), (4844,
    0), (161, 0)], [(81973, 0), (1671, 0), (127, 0), (6, 0)]], 3, 4⟩, 1099511627776, 0, 2024623300,
    ⟨[[(51307045748478, 0), (0, 114995008964), (527532502, 0), (0, 10044), (0, 4693)], [(57776017072, 0), (0,
    135406991), (0, 110064), (793, 0), (24, 0)], [(0, 110120232), (315939, 0), (0, 501), (0, 10)], [(306993, 0), (0,
    1132), (1, 0)]], 3, 4⟩, 68719476736, 234340949,
    1411901120302219735530746680545429705816007991179835599904167958672283892562431030934941394607, ⟨0, 4,
    187369834851600, [94564426866, 72076545, 73249]⟩⟩))) (.sx (.sy (.leaf ⟨175, 16, 10, 212, 16, 91, ⟨[[],
    [(343597383680, 0)]], 3, 4⟩, ⟨[[(0, 75589054318), (2398059021057, 0), (13235622802, 0), (347768275, 0), (6676277,
    0)], [(189123311483, 0), (3028938301, 0), (80273820, 0), (2134477, 0), (58205, 0)], [(0, 52343797), (3421990, 0),
    (168598, 0), (6624, 0), (232, 0)], [(132292, 0), (3289, 0), (245, 0), (13, 0), (1, 0)]], 3, 4⟩, 1099511627776, 0,
    3698983640, ⟨[[(49728517021250, 0), (0, 119322945361), (590396573, 0), (8583, 0), (0, 6387)], [(65708036116, 0),
    (0, 166325786), (0, 98352), (1323, 0), (30, 0)], [(0, 145363023), (478838, 0), (0, 476), (0, 10)], [(472226, 0),
    (0, 2085), (0, 1)]], 3, 4⟩, 68719476736, 474385583,
    1549689135475607595432066329968366602616106714030104618038755635663457389680020711465415829374, ⟨0, 4,
    168306893619610, [105005915666, 93755282, 111613]⟩⟩) (.sx (.leaf ⟨335, 16, 20, 286, 16, 118, ⟨[[],
    [(343597383680, 0)]], 3, 4⟩, ⟨[[(505111883168, 0), (3244551960067, 0), (23732914024, 0), (634657932, 0),
    (14597694, 0)], [(137566094229, 0), (2587951089, 0), (77600437, 0), (2376078, 0), (76040, 0)], [(0, 11734926),
    (1899270, 0), (102856, 0), (4620, 0), (201, 0)], [(28638, 0), (1233, 0), (99, 0), (6, 0)]], 3, 4⟩, 1099511627776,
    0, 540189426, ⟨[[(48260184800115, 0), (0, 83246880648), (349678796, 0), (0, 114710), (0, 2778)], [(33238706065,
    0), (0, 67496487), (0, 12132), (564, 0), (5, 0)], [(0, 38032795), (100218, 0), (0, 96), (0, 1)], [(63679, 0), (0,
    237)]], 3, 4⟩, 68719476736, 31602476,
    1589978537719355681707916373680337756736363199218215592822148769832940018787256109920510860721, ⟨0, 4,
    214904134146169, [71129150680, 33175910, 20632]⟩⟩) (.leaf ⟨365, 16, 20, 283, 16, 112, ⟨[[], [(343597383680, 0)]],
    3, 4⟩, ⟨[[(243853460375, 0), (3333089471404, 0), (30587483718, 0), (865576520, 0), (22983616, 0)],
    [(129150121403, 0), (2837164312, 0), (95323134, 0), (3303848, 0), (123639, 0)], [(0, 3822385), (2177133, 0),
    (130047, 0), (6779, 0), (369, 0)], [(23889, 0), (1445, 0), (135, 0), (11, 0), (1, 0)]], 3, 4⟩, 1099511627776, 0,
    615710254, ⟨[[(48240208004794, 0), (0, 80869223976), (380934786, 0), (0, 275868), (0, 3705)], [(30359842998, 0),
    (0, 65578313), (5720, 0), (908, 0), (6, 0)], [(0, 31930569), (82922, 0), (0, 155)], [(48712, 0), (0, 191)]], 3,
    4⟩, 68719476736, 26995560,
    1986537857720950109346024210677143318605282573517371386256886383034051027381972347881563030180, ⟨0, 4,
    210184033900907, [61963448654, 26525449, 15140]⟩⟩))) (.sy (.leaf ⟨205, 16, 10, 216, 16, 86, ⟨[[], [(343597383680,
    0)]], 3, 4⟩, ⟨[[(0, 473747622284), (2573825528845, 0), (21481833876, 0), (592278812, 0), (14279563, 0)],
    [(172296862876, 0), (3576477345, 0), (113600672, 0), (3626140, 0), (120376, 0)], [(0, 19313095), (4238148, 0),
    (238303, 0), (11061, 0), (520, 0)], [(88223, 0), (3841, 0), (328, 0), (24, 0), (2, 0)]], 3, 4⟩, 1099511627776, 0,
    2094415900, ⟨[[(49688995216700, 0), (0, 110649431697), (647884483, 0), (0, 472398), (0, 9547)], [(55708079039,
    0), (0, 153863994), (0, 47657), (3379, 0), (45, 0)], [(0, 105494668), (327796, 0), (0, 1214), (0, 14)], [(289987,
    0), (0, 1255), (0, 1)]], 3, 4⟩, 68719476736, 258816481,
    2652497795343490974824417747749591610387066300529979085380762594539643346646203943621631549615, ⟨0, 4,
    167852143721225, [84713965734, 64568571, 65618]⟩⟩) (.sx (.sy (.leaf ⟨395, 16, 20, 427, 16, 165, ⟨[[],
    [(343597383680, 0)]], 3, 4⟩, ⟨[[(0, 364796679657), (2586711909658, 0), (13221437647, 0), (193612980, 0),
    (2752569, 0)], [(183228361556, 0), (2177057809, 0), (38629560, 0), (710810, 0), (14446, 0)], [(0, 1252765),
    (1604965, 0), (50446, 0), (1427, 0), (43, 0)], [(28896, 0), (992, 0), (51, 0), (2, 0)]], 3, 4⟩, 1099511627776, 0,
    287798485, ⟨[[(48574938488019, 0), (0, 52669142540), (172707611, 0), (0, 108827), (0, 787)], [(28149091248, 0),
    (0, 41405734), (7028, 0), (332, 0), (2, 0)], [(0, 27512555), (44483, 0), (0, 92)], [(38743, 0), (0, 98)]], 3, 4⟩,
    68719476736, 9916381,
    1767744823035180076995908848807899935781915341214645044391263551742775661297705317096513974484, ⟨0, 4,
    318067975682544, [84352366528, 33367234, 17599]⟩⟩) (.out ⟨395, 16, 20, 404, 16, 151, ⟨[[], [(343597383680, 0)]],
    1, 1⟩, ⟨[[(0, 199810009591), (2534069651083, 0)], [(181068901129, 0), (2500698814, 0)]], 1, 1⟩, 1099511627776, 0,
    455840899240, ⟨[], 0, 0⟩, 0, 0, 0, ⟨0, 4, 291080389867055, [77195196035]⟩⟩ 0 1 981)) (.sy (.leaf ⟨425, 16, 20,
    421, 16, 157, ⟨[[], [(343597383680, 0)]], 3, 4⟩, ⟨[[(236629808414, 0), (2675120408043, 0), (16599792549, 0),
    (264019754, 0), (4419847, 0)], [(174854539845, 0), (2393003009, 0), (47546499, 0), (1014728, 0), (25044, 0)],
    [(6408195, 0), (1834759, 0), (65758, 0), (2259, 0), (81, 0)], [(25492, 0), (1215, 0), (77, 0), (4, 0)]], 3, 4⟩,
    1099511627776, 0, 255297350, ⟨[[(48604037504336, 0), (0, 51091699797), (184626336, 0), (0, 169547), (0, 944)],
    [(25995864134, 0), (0, 40661648), (19978, 0), (486, 0), (2, 0)], [(0, 23791975), (35234, 0), (0, 130)], [(30979,
    0), (0, 79)]], 3, 4⟩, 68719476736, 6755822,
    3921065136321277390303265789753597414038367061814548478502121593812207579188923592390942792293, ⟨0, 4,
    310073120250187, [74596962713, 27425354, 13444]⟩⟩) (.out ⟨425, 16, 20, 395, 16, 142, ⟨[[], [(343597383680, 0)]],
    1, 1⟩, ⟨[[(0, 309030963755), (2629592262998, 0)], [(172916506936, 0), (2804161266, 0)]], 1, 1⟩, 1099511627776, 0,
    496121945957, ⟨[], 0, 0⟩, 0, 0, 0, ⟨0, 4, 280448299844118, [67469864364]⟩⟩ 0 1 1815)))))
theorem c11 : checkC job ⟨6, 8, 7, 8, 9, 13⟩ 3 100 lims t11 304 48 16 15 3 64 = true := by decide +kernel

def t12 : CTree :=
  .sx (.sy (.leaf ⟨235, 16, 10, 239, 16, 102, ⟨[[], [(343597383680, 0)]], 3, 4⟩, ⟨[[(37702698293, 0), (2889894663126,
    0), (15115204364, 0), (417068481, 0), (7650333, 0)], [(158445291966, 0), (2531006491, 0), (65952226, 0),
    (1723669, 0), (43299, 0)], [(0, 38341266), (1704089, 0), (85312, 0), (3206, 0), (95, 0)], [(53426, 0), (673, 0),
    (56, 0), (2, 0)]], 3, 4⟩, 1099511627776, 0, 1265925701, ⟨[[(53075146267605, 0), (0, 112855624542), (463956181,
    0), (18092, 0), (0, 3083)], [(52027759155, 0), (0, 111772514), (0, 122116), (101, 0), (16, 0)], [(0, 87347604),
    (222683, 0), (0, 324), (0, 8)], [(213090, 0), (0, 658), (1, 0)]], 3, 4⟩, 68719476736, 130014899,
    853312940452440494874123703833806987089144199656416995522797795442661760708128499833880850060, ⟨0, 5,
    208082335002444, [87648145646, 58276693, 51664]⟩⟩) (.leaf ⟨235, 16, 10, 230, 16, 92, ⟨[[], [(343597383680, 0)]],
    3, 4⟩, ⟨[[(388263239174, 0), (2817871440150, 0), (22283436595, 0), (612031723, 0), (13799733, 0)],
    [(159145283644, 0), (3205902448, 0), (98585569, 0), (2989199, 0), (90504, 0)], [(0, 21828144), (2870010, 0),
    (156048, 0), (6626, 0), (279, 0)], [(54243, 0), (1552, 0), (125, 0), (8, 0), (1, 0)]], 3, 4⟩, 1099511627776, 0,
    1298618222, ⟨[[(51388087580700, 0), (0, 108707447741), (564901857, 0), (0, 288182), (0, 6134)], [(50209666802,
    0), (0, 127852330), (0, 110188), (1810, 0), (34, 0)], [(0, 83901916), (228034, 0), (0, 938), (0, 14)], [(202943,
    0), (0, 675), (2, 0)]], 3, 4⟩, 68719476736, 136556925,
    1796701328581777990645514381238638631786345980367039811062382244804046757616222544231446921036, ⟨0, 5,
    187682106080636, [79055190190, 52563291, 46599]⟩⟩)) (.sy (.leaf ⟨265, 16, 10, 245, 16, 99, ⟨[[], [(343597383680,
    0)]], 3, 4⟩, ⟨[[(172800303690, 0), (3056518858032, 0), (21623193487, 0), (595854893, 0), (12384823, 0)],
    [(147906447833, 0), (2790818322, 0), (81245880, 0), (2323446, 0), (62142, 0)], [(0, 24814457), (1817633, 0),
    (95622, 0), (3615, 0), (119, 0)], [(35278, 0), (440, 0), (31, 0), (1, 0)]], 3, 4⟩, 1099511627776, 0, 883902802,
    ⟨[[(53087971143204, 0), (0, 106834749718), (485652054, 0), (0, 160085), (0, 3731)], [(45935537478, 0), (0,
    106838300), (0, 143271), (554, 0), (21, 0)], [(0, 68761386), (170138, 0), (0, 538), (0, 10)], [(147873, 0), (0,
    403), (2, 0)]], 3, 4⟩, 68719476736, 77962357,
    1487388472593798521829417612883167923922433831205266683243655920775111746550837262393263593286, ⟨0, 5,
    209648238536494, [75439663649, 44480934, 34969]⟩⟩) (.sy (.leaf ⟨265, 16, 10, 334, 16, 128, ⟨[[], [(343597383680,
    0)]], 3, 4⟩, ⟨[[(0, 296669443024), (2128495922566, 0), (10177342477, 0), (144469556, 0), (1782727, 0)],
    [(209908888129, 0), (2385631787, 0), (39519402, 0), (640041, 0), (10744, 0)], [(0, 18498140), (1911563, 0),
    (53820, 0), (1247, 0), (33, 0)], [(49260, 0), (577, 0), (28, 0), (2, 0)]], 3, 4⟩, 1099511627776, 0, 1035507323,
    ⟨[[(51749834280605, 0), (0, 72711771945), (284185180, 0), (0, 173130), (0, 1519)], [(44488155061, 0), (0,
    85190461), (0, 57445), (869, 0), (10, 0)], [(0, 66615785), (115788, 0), (0, 608), (0, 6)], [(142942, 0), (0,
    259), (2, 0)]], 3, 4⟩, 68719476736, 56372277,
    1515972281663351673015140193003177214540615580501794288947125438395457547025382239537464817012, ⟨0, 5,
    271060348814861, [97538150981, 57510702, 45213]⟩⟩) (.out ⟨265, 16, 10, 319, 16, 118, ⟨[[], [(343597383680, 0)]],
    1, 1⟩, ⟨[[(0, 329088822410), (2090776472378, 0)], [(208158924121, 0), (2710273634, 0)]], 1, 1⟩, 1099511627776, 0,
    552082139203, ⟨[], 0, 0⟩, 0, 0, 0, ⟨0, 5, 249883759063700, [89917982936]⟩⟩ 0 1 1200)))
theorem c12 : checkC job ⟨6, 8, 7, 8, 9, 13⟩ 3 100 lims t12 400 48 16 27 3 128 = true := by decide +kernel

def t13 : CTree :=
  .sx (.sy (.leaf ⟨235, 16, 10, 306, 16, 116, ⟨[[], [(343597383680, 0)]], 3, 4⟩, ⟨[[(0, 466900345981),
    (1930085649167, 0), (10286856030, 0), (151281751, 0), (2116949, 0)], [(221767460256, 0), (2720758321, 0),
    (48450459, 0), (875755, 0), (17417, 0)], [(0, 6306451), (3037371, 0), (94084, 0), (2611, 0), (79, 0)], [(81845,
    0), (2254, 0), (124, 0), (6, 0)]], 3, 4⟩, 1099511627776, 0, 1469581272, ⟨[[(50098838758530, 0), (0, 74997545791),
    (344494937, 0), (0, 311452), (0, 2774)], [(48574150148, 0), (0, 102689592), (0, 3570), (1865, 0), (16, 0)], [(0,
    81189410), (156297, 0), (0, 947), (0, 7)], [(194661, 0), (0, 504), (1, 0)]], 3, 4⟩, 68719476736, 97368037,
    2594849822706457985065913405831843713856534139217830558366746748232207517882895749955634621680, ⟨0, 5,
    236642655492976, [99678283283, 66275454, 58755]⟩⟩) (.out ⟨235, 16, 10, 289, 16, 106, ⟨[[], [(343597383680, 0)]],
    1, 1⟩, ⟨[[(213943163150, 0), (1893350734825, 0)], [(219357586162, 0), (3120620739, 0)]], 1, 1⟩, 1099511627776, 0,
    685427042312, ⟨[], 0, 0⟩, 0, 0, 0, ⟨0, 5, 216242426571167, [91085327828]⟩⟩ 0 1 1381)) (.sy (.sx (.out ⟨515, 16,
    20, 444, 16, 161, ⟨[[], [(343597383680, 0)]], 1, 1⟩, ⟨[[(295117537390, 0), (2973767784143, 0)], [(154087661615,
    0), (2216895731, 0)]], 1, 1⟩, 1099511627776, 0, 383532688433, ⟨[], 0, 0⟩, 0, 0, 0, ⟨0, 5, 337956192322410,
    [63129023234]⟩⟩ 0 1 1627) (.out ⟨545, 16, 20, 438, 16, 154, ⟨[[], [(343597383680, 0)]], 1, 1⟩, ⟨[[(0,
    158644969252), (3059300186088, 0)], [(148272856421, 0), (2359187322, 0)]], 1, 1⟩, 1099511627776, 0, 412919960833,
    ⟨[], 0, 0⟩, 0, 0, 0, ⟨0, 5, 328896777731620, [57060377602]⟩⟩ 0 1 2305)) (.sx (.out ⟨515, 16, 20, 421, 16, 147,
    ⟨[[], [(343597383680, 0)]], 1, 1⟩, ⟨[[(122139408972, 0), (2969525864372, 0)], [(154520685592, 0), (2630236368,
    0)]], 1, 1⟩, 1099511627776, 0, 459856749617, ⟨[], 0, 0⟩, 0, 0, 0, ⟨0, 5, 308568697337853, [57639542953]⟩⟩ 0 1
    2461) (.out ⟨545, 16, 20, 408, 16, 138, ⟨[[], [(343597383680, 0)]], 1, 1⟩, ⟨[[(105685129597, 0), (3041447936891,
    0)], [(147514460232, 0), (2826699000, 0)]], 1, 1⟩, 1099511627776, 0, 508984282205, ⟨[], 0, 0⟩, 0, 0, 0, ⟨0, 5,
    294725683941322, [51132026683]⟩⟩ 0 1 3188)))
theorem c13 : checkC job ⟨6, 8, 7, 8, 9, 13⟩ 3 100 lims t13 400 48 16 63 3 256 = true := by decide +kernel

end PyX.Kron.S2b
