import Verif.Lemmas.T2cJob

/-!
# Temperature from pressure and enthalpy in subregion 2c, part C of the certificate
-/

namespace PyX.Kron.T2c

set_option Elab.async false

def t31 : CTree :=
  .sx (.sy (.leaf ⟨775, 16, 20, 187, 16, 472, ⟨[[], [(343597383680, 0)]], 3, 4⟩, ⟨[[(0, 86170254270), (2197257922562,
    0), (21131367641, 0), (504322221, 0), (12165447, 0)], [(184695915040, 0), (5157007809, 0), (156962261, 0),
    (5057399, 0), (168232, 0)], [(176712199, 0), (13099512, 0), (678831, 0), (30420, 0), (1532, 0)], [(285815, 0),
    (34243, 0), (2444, 0), (163, 0), (13, 0)]], 3, 4⟩, 1099511627776, 0, 16177995059, ⟨[[(43275030605776, 0), (0,
    49279011501), (293017104, 0), (0, 9184), (0, 827)], [(26533382181, 0), (53547001, 0), (0, 541905), (0, 692), (0,
    2)], [(0, 33035096), (0, 180344), (1115, 0), (3, 0)], [(55364, 0), (477, 0), (0, 3)]], 3, 4⟩, 68719476736,
    21833561, 2893946338748112485118346656526569230589673974198676504558128682547336179632629175486825185130, lc0⟩)
    (.sx (.leaf ⟨1573, 16, 41, 254, 16, 615, ⟨[[(412316860416, 0)], [(352187318272, 0)]], 3, 4⟩, ⟨[[(91801172318, 0),
    (3056531909069, 0), (35815208808, 0), (968078585, 0), (31127576, 0)], [(136686096620, 0), (4346234320, 0),
    (153938441, 0), (6253824, 0), (323331, 0)], [(81009170, 0), (6790024, 0), (426679, 0), (28319, 0), (2193, 0)],
    [(81444, 0), (11406, 0), (1161, 0), (120, 0), (11, 0)]], 3, 4⟩, 1099511627776, 0, 2965733326, ⟨[[(42693314559216,
    0), (0, 34523932245), (174837492, 0), (0, 14892), (0, 359)], [(13396692262, 0), (17736980, 0), (0, 166036), (0,
    179)], [(0, 8519269), (0, 31517), (175, 0)], [(7332, 0), (42, 0)]], 3, 4⟩, 68719476736, 4014527,
    1806131661908423553504879583077719885789497303629960300315548481608821101962379139352129920468, lc0⟩) (.leaf
    ⟨1604, 16, 41, 226, 16, 522, ⟨[[(137438953472, 0)], [(352187318272, 0)]], 3, 4⟩, ⟨[[(473281368281, 0),
    (3012205099144, 0), (47502808505, 0), (1689053110, 0), (83108582, 0)], [(131504226671, 0), (5155302350, 0),
    (243362295, 0), (14839618, 0), (1108379, 0)], [(95011901, 0), (10174955, 0), (932614, 0), (91266, 0), (8384, 0)],
    [(120976, 0), (23945, 0), (3588, 0), (446, 0), (43, 0)]], 3, 4⟩, 1099511627776, 0, 8728352712,
    ⟨[[(42709111067153, 0), (0, 35166854108), (234226995, 0), (0, 66899), (0, 902)], [(13059954111, 0), (14138900,
    0), (0, 225036), (0, 303), (0, 1)], [(0, 8199511), (0, 28219), (231, 0)], [(6826, 0), (36, 0)]], 3, 4⟩,
    68719476736, 6506961,
    3393182364094196125989644782157785538867733384815115197757598195118051717658205228728866597522, lc0⟩))) (.sy (.sx
    (.leaf ⟨1635, 16, 41, 237, 16, 560, ⟨[[(0, 137438953472)], [(352187318272, 0)]], 3, 4⟩, ⟨[[(267472156442, 0),
    (3146702667174, 0), (44174534188, 0), (1344055097, 0), (49973254, 0)], [(127896129959, 0), (4599743112, 0),
    (187395706, 0), (8847597, 0), (540525, 0)], [(77457844, 0), (7335166, 0), (533701, 0), (42402, 0), (3750, 0)],
    [(78964, 0), (12701, 0), (1559, 0), (186, 0), (19, 0)]], 3, 4⟩, 1099511627776, 0, 4032010530, ⟨[[(43288799167428,
    0), (0, 34556443298), (198524992, 0), (0, 46731), (0, 642)], [(12501545755, 0), (13625051, 0), (0, 180207), (0,
    208), (0, 1)], [(0, 7471079), (0, 25340), (175, 0)], [(5843, 0), (31, 0)]], 3, 4⟩, 68719476736, 5219155,
    2450734401427589159893312607937608535779234608179546829085918307508615130705138998640165735810, lc0⟩) (.sy (.leaf
    ⟨1666, 16, 41, 330, 16, 757, ⟨[[(0, 412316860416)], [(352187318272, 0)]], 3, 4⟩, ⟨[[(203657577259, 0),
    (2352200209629, 0), (19654115875, 0), (349438096, 0), (8283014, 0)], [(184373841175, 0), (3760557559, 0),
    (90270096, 0), (2691359, 0), (101291, 0)], [(122521191, 0), (6688862, 0), (303314, 0), (14992, 0), (723, 0)],
    [(139253, 0), (13773, 0), (1050, 0), (68, 0), (4, 0)]], 3, 4⟩, 1099511627776, 0, 3069976973, ⟨[[(43435854739818,
    0), (0, 23240542695), (104939603, 0), (0, 29586), (0, 222)], [(12132275139, 0), (7166761, 0), (0, 95354), (0,
    86)], [(0, 7112868), (0, 15098), (89, 0)], [(5359, 0), (18, 0)]], 3, 4⟩, 68719476736, 1570540,
    2226270413984161459887835030727988176572263392909262973407277321256112065313471899252320394738, lc0⟩) (.leaf
    ⟨1666, 16, 41, 297, 16, 654, ⟨[[(0, 412316860416)], [(352187318272, 0)]], 3, 4⟩, ⟨[[(0, 28418367850),
    (2276585784127, 0), (24631642783, 0), (598487390, 0), (19973088, 0)], [(182236194853, 0), (4539660618, 0),
    (148784115, 0), (6291698, 0), (279075, 0)], [(153803409, 0), (11070221, 0), (704199, 0), (41674, 0), (2026, 0)],
    [(242192, 0), (32774, 0), (2974, 0), (196, 0), (10, 0)]], 3, 4⟩, 1099511627776, 0, 7807984810,
    ⟨[[(43135538597876, 0), (0, 23576467478), (138622534, 0), (0, 64248), (0, 334)], [(12212671528, 0), (5195363, 0),
    (0, 132813), (0, 146)], [(0, 7303695), (0, 14571), (125, 0)], [(5581, 0), (17, 0)]], 3, 4⟩, 68719476736, 8044386,
    2866806353734789944310887620433318764924743569372275255337126104678443219805959661572449862752, lc0⟩))) (.sx (.sy
    (.leaf ⟨1635, 16, 41, 306, 16, 682, ⟨[[(0, 137438953472)], [(352187318272, 0)]], 3, 4⟩, ⟨[[(0, 253762634243),
    (2223815042393, 0), (22001340535, 0), (496288624, 0), (15565121, 0)], [(186961907870, 0), (4347358801, 0),
    (131230269, 0), (5177937, 0), (220786, 0)], [(155208674, 0), (10349431, 0), (612657, 0), (34751, 0), (1653, 0)],
    [(238966, 0), (30126, 0), (2619, 0), (169, 0), (8, 0)]], 3, 4⟩, 1099511627776, 0, 7565943956, ⟨[[(42836201590074,
    0), (0, 23755277814), (131935193, 0), (0, 48034), (0, 316)], [(12658566876, 0), (6855703, 0), (0, 128123), (0,
    137)], [(0, 7796027), (0, 16563), (126, 0)], [(6241, 0), (20, 0)]], 3, 4⟩, 68719476736, 3994861,
    2423136696910310096388032985997829608348364121895064655670512018535639389843272079824555782756, lc0⟩) (.sx (.leaf
    ⟨3254, 16, 82, 407, 16, 883, ⟨[[(412316860416, 0)], [(352187318272, 0)]], 3, 4⟩, ⟨[[(0, 383933821693),
    (3120143763921, 0), (38428559568, 0), (1110986892, 0), (40864096, 0)], [(134758163225, 0), (3726273104, 0),
    (144904103, 0), (6843574, 0), (303285, 0)], [(69257227, 0), (5797240, 0), (411303, 0), (24486, 0), (1137, 0)],
    [(70053, 0), (10418, 0), (949, 0), (60, 0), (3, 0)]], 3, 4⟩, 1099511627776, 0, 1614401534, ⟨[[(42544777351634,
    0), (0, 16683319583), (78548507, 0), (0, 25798), (0, 72)], [(6417431972, 0), (1900164, 0), (0, 39880), (0, 32)],
    [(0, 2020404), (0, 2867), (20, 0)], [(827, 0), (2, 0)]], 3, 4⟩, 68719476736, 2161886,
    3508101387332898862560470344807906332566201130499293079203644786396786926120061396935462749633, lc0⟩) (.leaf
    ⟨3285, 16, 82, 364, 16, 766, ⟨[[(137438953472, 0)], [(352187318272, 0)]], 3, 4⟩, ⟨[[(0, 511267688014),
    (3072875583963, 0), (49564861220, 0), (1784358013, 0), (72310393, 0)], [(130457960080, 0), (4512446252, 0),
    (223181147, 0), (11836171, 0), (535657, 0)], [(83208710, 0), (8700594, 0), (696692, 0), (42562, 0), (1956, 0)],
    [(104499, 0), (17370, 0), (1623, 0), (101, 0), (5, 0)]], 3, 4⟩, 1099511627776, 0, 2722371722, ⟨[[(42544551722089,
    0), (0, 16935817932), (101376156, 0), (0, 41319), (157, 0)], [(6310067751, 0), (852658, 0), (0, 52718), (0, 31),
    (1, 0)], [(0, 1976960), (0, 2556), (27, 0)], [(795, 0), (2, 0)]], 3, 4⟩, 68719476736, 12550765,
    4216770352628873972323770488101674319719324108362191861809592144000022412327591415027753585170, lc0⟩))) (.sy (.sx
    (.leaf ⟨3316, 16, 82, 387, 16, 828, ⟨[[(0, 137438953472)], [(352187318272, 0)]], 3, 4⟩, ⟨[[(106161975494, 0),
    (3162489246677, 0), (43601576415, 0), (1374733724, 0), (53390812, 0)], [(129915074815, 0), (3939706121, 0),
    (168981993, 0), (8487809, 0), (387769, 0)], [(69562123, 0), (6390210, 0), (483568, 0), (29718, 0), (1405, 0)],
    [(73316, 0), (11607, 0), (1091, 0), (70, 0), (3, 0)]], 3, 4⟩, 1099511627776, 0, 1869401194, ⟨[[(42842965223237,
    0), (0, 16753283092), (86052442, 0), (0, 34756), (0, 16)], [(6183743822, 0), (1208390, 0), (0, 43217), (0, 32)],
    [(0, 1889986), (0, 2511), (21, 0)], [(737, 0), (1, 0)]], 3, 4⟩, 68719476736, 5489644,
    3018803858624252075895590867856589390085180790255762508724474030858931179607877831587112291222, lc0⟩) (.leaf
    ⟨3347, 16, 82, 343, 16, 712, ⟨[[(0, 412316860416)], [(352187318272, 0)]], 3, 4⟩, ⟨[[(196997473563, 0),
    (3105731922201, 0), (56261507554, 0), (2181372572, 0), (91969440, 0)], [(125296246562, 0), (4787682879, 0),
    (257823549, 0), (14290970, 0), (661657, 0)], [(83819575, 0), (9509048, 0), (797223, 0), (49840, 0), (2325, 0)],
    [(108305, 0), (18818, 0), (1798, 0), (114, 0), (5, 0)]], 3, 4⟩, 1099511627776, 0, 3060635908, ⟨[[(42846124382806,
    0), (0, 17117433549), (112968279, 0), (0, 45191), (655, 0)], [(6075238256, 0), (57678, 0), (0, 57685), (0, 5),
    (2, 0)], [(0, 1848892), (0, 2207), (28, 0)], [(708, 0), (1, 0)]], 3, 4⟩, 68719476736, 29725229,
    3602373155918840123429874356433580173487524763845492172981719217317980038728648166005806587200, lc0⟩)) (.sx (.sy
    (.leaf ⟨3316, 16, 82, 496, 16, 1024, ⟨[[(0, 137438953472)], [(352187318272, 0)]], 3, 4⟩, ⟨[[(0, 111645209315),
    (2264810197826, 0), (21905645574, 0), (442555971, 0), (9347441, 0)], [(188016182272, 0), (3804460779, 0),
    (107262675, 0), (2990770, 0), (68272, 0)], [(137897170, 0), (8152175, 0), (344075, 0), (10619, 0), (243, 0)],
    [(192439, 0), (16786, 0), (792, 0), (25, 0), (1, 0)]], 3, 4⟩, 1099511627776, 0, 2416286422, ⟨[[(42624294445580,
    0), (0, 11605736170), (55378074, 0), (0, 13358), (185, 0)], [(6192116350, 0), (0, 17373), (0, 28772), (1, 0)],
    [(0, 1921082), (0, 1540), (15, 0)], [(756, 0), (1, 0)]], 3, 4⟩, 68719476736, 5549814,
    3021813446752674730457377065670692729357641898412165900077799962603009418528709351535219098521, lc0⟩) (.leaf
    ⟨3316, 16, 82, 435, 16, 876, ⟨[[(0, 137438953472)], [(352187318272, 0)]], 3, 4⟩, ⟨[[(546300093746, 0),
    (2211189403926, 0), (27638935193, 0), (632893022, 0), (13688583, 0)], [(184310164215, 0), (4690070259, 0),
    (153022406, 0), (4412464, 0), (99581, 0)], [(172669511, 0), (11693196, 0), (511797, 0), (15645, 0), (350, 0)],
    [(280383, 0), (25223, 0), (1177, 0), (36, 0), (1, 0)]], 3, 4⟩, 1099511627776, 0, 3626413540, ⟨[[(42487925283175,
    0), (0, 11954083738), (75339099, 0), (4892, 0), (948, 0)], [(6187424937, 0), (0, 854543), (0, 38427), (61, 0),
    (2, 0)], [(0, 1937946), (0, 1348), (22, 0)], [(765, 0), (1, 0)]], 3, 4⟩, 68719476736, 21276659,
    3973099616919723186555742351169768666786581175493003322690202927256379700116282372437170250802, lc0⟩)) (.sy
    (.leaf ⟨3347, 16, 82, 422, 16, 841, ⟨[[(0, 412316860416)], [(352187318272, 0)]], 3, 4⟩, ⟨[[(0, 158507688669),
    (2236165190746, 0), (29733284425, 0), (700718917, 0), (15370202, 0)], [(181531626620, 0), (4887816874, 0),
    (164883869, 0), (4826965, 0), (109909, 0)], [(175316688, 0), (12260757, 0), (544989, 0), (16805, 0), (379, 0)],
    [(286166, 0), (26126, 0), (1230, 0), (38, 0), (1, 0)]], 3, 4⟩, 1099511627776, 0, 3655993544, ⟨[[(42624774265964,
    0), (0, 11774663072), (80728237, 0), (32857, 0), (1694, 0)], [(6064399865, 0), (0, 1321943), (0, 38905), (127,
    0), (3, 0)], [(0, 1874290), (0, 1121), (25, 0)], [(723, 0), (1, 0)]], 3, 4⟩, 68719476736, 36462231,
    4223658293749315090440458829128217617672744604900974851697375899019376799564645391307776514716, lc0⟩) (.sx (.leaf
    ⟨6719, 16, 165, 540, 16, 1055, ⟨[[(0, 446676598784)], [(354334801920, 0)]], 3, 4⟩, ⟨[[(143366774386, 0),
    (3155556882942, 0), (50349874533, 0), (1260657038, 0), (27704244, 0)], [(129035639612, 0), (4117305450, 0),
    (149534787, 0), (4407410, 0), (98928, 0)], [(75121372, 0), (5626621, 0), (252155, 0), (7672, 0), (170, 0)],
    [(66790, 0), (6131, 0), (285, 0), (9, 0)]], 3, 4⟩, 1099511627776, 0, 551576916, ⟨[[(42483244569806, 0), (0,
    8275175675), (52577681, 0), (55881, 0), (1245, 0)], [(3021695543, 0), (0, 765830), (0, 10850), (70, 0), (1, 0)],
    [(0, 469059), (0, 132), (5, 0)], [(91, 0)]], 3, 4⟩, 68719476736, 17244346,
    4875419276133861845206822509978390487937877218998940964938164223433366981187173560147550277499, lc0⟩)
    (.skip)))))))
theorem c31 : checkC job ⟨6, 8, 8, 10, 9, 13⟩ 1 25 lims t31 464 48 32 93 3 256 = true := by decide +kernel

def t32 : CTree :=
  .sx (.sy (.sx (.sy (.out ⟨655, 16, 40, 2266, 16, 1509, ⟨[[], [(343597383680, 0)]], 1, 1⟩, ⟨[[(295906737054, 0), (0,
    2917942111866)], [(0, 161568005280), (0, 1362856144)]], 1, 1⟩, 1099511627776, 0, 120140831330, ⟨[], 0, 0⟩, 0, 0,
    0, lc0⟩ 0 1 390068381283) (.sx (.out ⟨1311, 16, 81, 2901, 16, 1942, ⟨[[(206158430208, 0)], [(347892350976, 0)]],
    1, 1⟩, ⟨[[(0, 412335200084), (0, 3786751414664)], [(0, 108530567966), (0, 942482382)]], 1, 1⟩, 1099511627776, 0,
    92751805681, ⟨[], 0, 0⟩, 0, 0, 0, lc0⟩ 0 1 271413860499) (.sy (.out ⟨1342, 16, 81, 4364, 16, 2926, ⟨[[(0,
    481036337152)], [(347892350976, 0)]], 1, 1⟩, ⟨[[(0, 106201709825), (0, 2906176624502)], [(0, 164209967261), (0,
    724917523)]], 1, 1⟩, 1099511627776, 0, 62470907793, ⟨[], 0, 0⟩, 0, 0, 0, lc0⟩ 0 1 192839555923) (.sx (.out ⟨2668,
    16, 162, 5659, 16, 3805, ⟨[[(0, 68719476736)], [(347892350976, 0)]], 1, 1⟩, ⟨[[(0, 108222308750), (0,
    3798819862025)], [(0, 109176548583), (0, 489682912)]], 1, 1⟩, 1099511627776, 0, 47478281060, ⟨[], 0, 0⟩, 0, 0, 0,
    lc0⟩ 0 1 132514087287) (.leaf ⟨6873, 16, 165, 1206, 16, 3826, ⟨[[(309237645312, 0)], [(354334801920, 0)]], 3, 4⟩,
    ⟨[[(324321433828, 0), (3867612632789, 0), (3873053011, 0), (17353926, 0), (63560, 0)], [(110775134759, 0),
    (504072800, 0), (2152891, 0), (10404, 0), (57, 0)], [(5236560, 0), (61895, 0), (492, 0), (4, 0)], [(343, 0), (7,
    0)]], 3, 4⟩, 1099511627776, 0, 475161, ⟨[[(46886956070636, 0), (0, 8261570691), (4017191, 0), (78, 0)],
    [(2565795804, 0), (1016992, 0), (0, 723)], [(0, 290416), (0, 310)], [(41, 0)]], 3, 4⟩, 68719476736, 30027,
    4637590938292480547116906419826657586477520477049212290739744720707006258084823120126495192828, lc0⟩))))) (.sy
    (.sx (.out ⟨1372, 16, 81, 2868, 16, 1919, ⟨[[(0, 68719476736)], [(347892350976, 0)]], 1, 1⟩, ⟨[[(441332354149,
    0), (0, 3839584862422)], [(0, 105280471273), (0, 923545141)]], 1, 1⟩, 1099511627776, 0, 93527607544, ⟨[], 0, 0⟩,
    0, 0, 0, lc0⟩ 0 1 208275545514) (.sy (.out ⟨1402, 16, 81, 4351, 16, 2915, ⟨[[(343597383680, 0)], [(347892350976,
    0)]], 1, 1⟩, ⟨[[(221365031358, 0), (0, 2967989424511)], [(0, 160441908632), (0, 714463724)]], 1, 1⟩,
    1099511627776, 0, 61016870223, ⟨[], 0, 0⟩, 0, 0, 0, lc0⟩ 0 1 138606596125) (.leaf ⟨3470, 16, 82, 909, 16, 2906,
    ⟨[[(0, 412316860416)], [(352187318272, 0)]], 3, 4⟩, ⟨[[(299504447282, 0), (2993473416170, 0), (3005029489, 0),
    (13460478, 0), (49062, 0)], [(164328701363, 0), (748978029, 0), (3192306, 0), (15338, 0), (84, 0)], [(14708792,
    0), (174104, 0), (1378, 0), (10, 0)], [(1780, 0), (38, 0)]], 3, 4⟩, 1099511627776, 0, 2253815,
    ⟨[[(47239563102454, 0), (0, 10831105939), (6825819, 0), (169, 0)], [(5020238341, 0), (2555645, 0), (0, 2411)],
    [(0, 1112364), (0, 1535), (1, 0)], [(306, 0), (1, 0)]], 3, 4⟩, 68719476736, 70917,
    4830906258078541972262541759826236832387512324661640617709850548258700595242996338018184801361, lc0⟩))) (.leaf
    ⟨1727, 16, 41, 450, 16, 1410, ⟨[[(137438953472, 0)], [(352187318272, 0)]], 3, 4⟩, ⟨[[(0, 473041034667),
    (2923391532551, 0), (6254604255, 0), (56504634, 0), (433179, 0)], [(164756215707, 0), (1535950849, 0), (13556555,
    0), (136223, 0), (1564, 0)], [(31224375, 0), (756519, 0), (12467, 0), (197, 0), (3, 0)], [(8157, 0), (356, 0),
    (10, 0)]], 3, 4⟩, 1099511627776, 0, 20665973, ⟨[[(46960729313759, 0), (0, 21885600275), (29197817, 0), (1385, 0),
    (0, 4)], [(10206599000, 0), (10366907, 0), (0, 20872), (0, 5)], [(0, 4623719), (0, 12680), (16, 0)], [(2622, 0),
    (13, 0)]], 3, 4⟩, 68719476736, 241629,
    5332745281855434713867051795158648676862877199914946356797391466889670000829952221153856036722, lc0⟩))) (.sx (.sy
    (.sx (.sy (.out ⟨1311, 16, 81, 4277, 16, 2879, ⟨[[(206158430208, 0)], [(347892350976, 0)]], 1, 1⟩, ⟨[[(0,
    10306298367), (0, 2853699184544)], [(0, 167418892665), (0, 752088622)]], 1, 1⟩, 1099511627776, 0, 66746805365,
    ⟨[], 0, 0⟩, 0, 0, 0, lc0⟩ 0 1 133540293744) (.leaf ⟨3377, 16, 82, 917, 16, 2868, ⟨[[(412316860416, 0)],
    [(352187318272, 0)]], 3, 4⟩, ⟨[[(391717933792, 0), (2877138297728, 0), (2979015808, 0), (13406605, 0), (50527,
    0)], [(171391230261, 0), (788695452, 0), (3436964, 0), (17058, 0), (96, 0)], [(17240964, 0), (206240, 0), (1680,
    0), (13, 0)], [(2453, 0), (52, 0), (1, 0)]], 3, 4⟩, 1099511627776, 0, 3156747, ⟨[[(46542357037490, 0), (0,
    10941096116), (7258291, 0), (188, 0)], [(5292067702, 0), (2794143, 0), (0, 2681)], [(0, 1238963), (0, 1753), (1,
    0)], [(368, 0), (1, 0)]], 3, 4⟩, 68719476736, 65204,
    4532170916966481340329999142266938325470507676075278835274218670123421364993009497596216302601, lc0⟩)) (.leaf
    ⟨3408, 16, 82, 599, 16, 1859, ⟨[[(137438953472, 0)], [(352187318272, 0)]], 3, 4⟩, ⟨[[(225022840390, 0),
    (3805186340779, 0), (8275419176, 0), (75028690, 0), (585270, 0)], [(111692298066, 0), (1047000218, 0), (9355200,
    0), (95656, 0), (1114, 0)], [(11227730, 0), (273790, 0), (4584, 0), (73, 0), (1, 0)], [(1592, 0), (70, 0), (2,
    0)]], 3, 4⟩, 1099511627776, 0, 4023470, ⟨[[(46628340472482, 0), (0, 16590853467), (17089094, 0), (629, 0), (0,
    1)], [(5235294032, 0), (4089589, 0), (0, 6244), (0, 1)], [(0, 1217317), (0, 2552), (2, 0)], [(358, 0), (1, 0)]],
    3, 4⟩, 68719476736, 110073,
    4013817834763064161473363492079952668342408322265662835736154131025485324981996825000119327114, lc0⟩)) (.leaf
    ⟨1696, 16, 41, 448, 16, 1355, ⟨[[(412316860416, 0)], [(352187318272, 0)]], 3, 4⟩, ⟨[[(385414734352, 0),
    (2811837377641, 0), (6731306091, 0), (62324799, 0), (524361, 0)], [(170697186025, 0), (1660241917, 0), (15709004,
    0), (172411, 0), (2151, 0)], [(37195440, 0), (944847, 0), (16895, 0), (291, 0), (5, 0)], [(11733, 0), (542, 0),
    (16, 0)]], 3, 4⟩, 1099511627776, 0, 38308174, ⟨[[(46288017039041, 0), (0, 22114458666), (32408999, 0), (1454, 0),
    (0, 5)], [(10676426042, 0), (10903223, 0), (0, 24034), (0, 7)], [(0, 5100018), (0, 13927), (19, 0)], [(3102, 0),
    (15, 0)]], 3, 4⟩, 68719476736, 321829,
    2954001110316974353336015085332626002305972696029479105595226667638354850040956944811008656162, lc0⟩)) (.leaf
    ⟨1727, 16, 41, 289, 16, 861, ⟨[[(137438953472, 0)], [(352187318272, 0)]], 3, 4⟩, ⟨[[(486674360884, 0),
    (3726265624695, 0), (19604797629, 0), (372577816, 0), (6742364, 0)], [(109785893897, 0), (2220751276, 0),
    (44377049, 0), (1040543, 0), (27754, 0)], [(23943538, 0), (1270129, 0), (48316, 0), (1780, 0), (63, 0)], [(7552,
    0), (742, 0), (47, 0), (2, 0)]], 3, 4⟩, 1099511627776, 0, 88836362, ⟨[[(46467170072258, 0), (0, 33611361676),
    (78526138, 0), (4273, 0), (0, 36)], [(10436517324, 0), (15371790, 0), (0, 56994), (0, 25)], [(0, 4910043), (0,
    19518), (45, 0)], [(2912, 0), (20, 0)]], 3, 4⟩, 68719476736, 526851,
    2490766746926404908403827002506109347389269864086848273837085152374717840249006596221637235758, lc0⟩))) (.sy
    (.leaf ⟨865, 16, 20, 216, 16, 656, ⟨[[], [(343597383680, 0)]], 3, 4⟩, ⟨[[(0, 545824781299), (2896195604031, 0),
    (14529356470, 0), (271029141, 0), (4682106, 0)], [(157354951406, 0), (3120317999, 0), (59990119, 0), (1339352,
    0), (34648, 0)], [(60363627, 0), (3122001, 0), (113401, 0), (4030, 0), (144, 0)], [(31718, 0), (3051, 0), (190,
    0), (10, 0)]], 3, 4⟩, 1099511627776, 0, 286826873, ⟨[[(47123104170626, 0), (0, 44330711457), (130788820, 0),
    (9016, 0), (0, 103)], [(20342832437, 0), (38390350, 0), (0, 186256), (0, 98)], [(0, 18647814), (0, 96220), (284,
    0)], [(21166, 0), (189, 0)]], 3, 4⟩, 68719476736, 5055596,
    5065428497000429344231922030525719499009065227591805569413091562092038886815044689826340352820, lc0⟩) (.leaf
    ⟨865, 16, 20, 208, 16, 589, ⟨[[], [(343597383680, 0)]], 3, 4⟩, ⟨[[(180551972426, 0), (2787556764892, 0),
    (18578874104, 0), (388281659, 0), (8447268, 0)], [(160340364590, 0), (3611465985, 0), (84578129, 0), (2371695,
    0), (71781, 0)], [(75667642, 0), (4558131, 0), (205526, 0), (8612, 0), (306, 0)], [(53514, 0), (6127, 0), (433,
    0), (22, 0), (1, 0)]], 3, 4⟩, 1099511627776, 0, 766140615, ⟨[[(46460969539533, 0), (0, 44805558142), (162550703,
    0), (1868, 0), (0, 221)], [(20897973759, 0), (36175935, 0), (0, 237169), (0, 156)], [(0, 20083958), (0, 97031),
    (369, 0)], [(24011, 0), (193, 0), (0, 1)]], 3, 4⟩, 68719476736, 6551158,
    3015066473277303302410547861957418373517237224247339149794172331737718741744174959170579943929, lc0⟩))
theorem c32 : checkC job ⟨6, 8, 8, 10, 9, 13⟩ 1 25 lims t32 560 48 32 75 3 256 = true := by decide +kernel

def t33 : CTree :=
  .sx (.sy (.leaf ⟨895, 16, 20, 208, 16, 593, ⟨[[], [(343597383680, 0)]], 3, 4⟩, ⟨[[(0, 320142899560),
    (2917591554067, 0), (19464223564, 0), (404252996, 0), (8815134, 0)], [(153587044215, 0), (3451878977, 0),
    (79845960, 0), (2223293, 0), (68647, 0)], [(64039243, 0), (3832585, 0), (171487, 0), (7287, 0), (270, 0)],
    [(37878, 0), (4420, 0), (320, 0), (17, 0), (1, 0)]], 3, 4⟩, 1099511627776, 0, 496316723, ⟨[[(47132217235641, 0),
    (0, 43941344994), (153664059, 0), (0, 1171), (0, 219)], [(19710443454, 0), (31230492, 0), (0, 213244), (0, 130)],
    [(0, 17985802), (0, 81943), (309, 0)], [(20001, 0), (152, 0), (0, 1)]], 3, 4⟩, 68719476736, 5558898,
    3392071797211129526798037111596668682504813849668357881624734059853433084911790067066651887535, lc0⟩) (.leaf
    ⟨895, 16, 20, 196, 16, 519, ⟨[[], [(343597383680, 0)]], 3, 4⟩, ⟨[[(397337352559, 0), (2804306705910, 0),
    (25591648277, 0), (632176242, 0), (16595800, 0)], [(155576883663, 0), (4134743298, 0), (122369563, 0), (4180512,
    0), (133959, 0)], [(83314324, 0), (6093574, 0), (331308, 0), (14700, 0), (474, 0)], [(70359, 0), (9316, 0), (673,
    0), (30, 0), (1, 0)]], 3, 4⟩, 1099511627776, 0, 1343410129, ⟨[[(46470579548363, 0), (0, 44612630757), (200041820,
    0), (0, 26786), (0, 537)], [(20153672818, 0), (27792895, 0), (0, 287233), (0, 230), (0, 1)], [(0, 19212622), (0,
    82095), (423, 0)], [(22284, 0), (153, 0), (0, 1)]], 3, 4⟩, 68719476736, 9191589,
    4569134229426694820642621360203894504215570817689126172704305659555985749552219342005045564462, lc0⟩)) (.sy
    (.leaf ⟨925, 16, 20, 198, 16, 529, ⟨[[], [(343597383680, 0)]], 3, 4⟩, ⟨[[(0, 260938064155), (2933791606769, 0),
    (25903275963, 0), (625856292, 0), (16441911, 0)], [(149022762414, 0), (3864803547, 0), (110148066, 0), (3713750,
    0), (122487, 0)], [(68630600, 0), (4878263, 0), (261372, 0), (11838, 0), (396, 0)], [(47053, 0), (6336, 0), (470,
    0), (21, 0), (1, 0)]], 3, 4⟩, 1099511627776, 0, 802067038, ⟨[[(47135482748398, 0), (0, 43676102731), (184761326,
    0), (0, 27842), (0, 493)], [(19016508336, 0), (23711348, 0), (0, 252891), (0, 189), (0, 1)], [(0, 17243710), (0,
    69698), (345, 0)], [(18663, 0), (122, 0), (0, 1)]], 3, 4⟩, 68719476736, 8134139,
    3927187348837708050332198986734853203678194873055463959622306255027926983749511438700644233380, lc0⟩) (.leaf
    ⟨925, 16, 20, 181, 16, 446, ⟨[[], [(343597383680, 0)]], 3, 4⟩, ⟨[[(76338190130, 0), (2807262925851, 0),
    (35283685749, 0), (1029739616, 0), (29960382, 0)], [(149368022659, 0), (4819908214, 0), (178378190, 0), (6842422,
    0), (226751, 0)], [(93121983, 0), (8177588, 0), (492336, 0), (22229, 0), (916, 0)], [(90572, 0), (12559, 0),
    (885, 0), (49, 0), (4, 0)]], 3, 4⟩, 1099511627776, 0, 2536270319, ⟨[[(46458054007413, 0), (0, 44531667236),
    (256596640, 0), (0, 117453), (0, 1620)], [(19340781033, 0), (17911983, 0), (0, 370940), (0, 419), (0, 3)], [(0,
    18308806), (0, 68658), (510, 0), (1, 0)], [(20523, 0), (120, 0), (0, 1)]], 3, 4⟩, 68719476736, 22993108,
    4971793191162772190847688618080479025767293553845852170455715233680042884589398360660086963660, lc0⟩))
theorem c33 : checkC job ⟨6, 8, 8, 10, 9, 13⟩ 1 25 lims t33 656 48 32 75 3 256 = true := by decide +kernel

def t34 : CTree :=
  .sx (.sy (.leaf ⟨835, 16, 20, 210, 16, 592, ⟨[[], [(343597383680, 0)]], 3, 4⟩, ⟨[[(0, 232710805875),
    (2663949158966, 0), (17164363184, 0), (353882868, 0), (7431076, 0)], [(167530832831, 0), (3718068695, 0),
    (85804844, 0), (2346106, 0), (68032, 0)], [(87533784, 0), (5193499, 0), (229124, 0), (9262, 0), (314, 0)],
    [(70831, 0), (7816, 0), (532, 0), (26, 0), (1, 0)]], 3, 4⟩, 1099511627776, 0, 1102692945, ⟨[[(45772392662854, 0),
    (0, 45434100314), (168316071, 0), (6082, 0), (0, 209)], [(22211588096, 0), (41865201, 0), (0, 259096), (0, 184)],
    [(0, 22565921), (0, 115502), (432, 0), (1, 0)], [(29183, 0), (249, 0), (0, 1)]], 3, 4⟩, 68719476736, 7744728,
    2856202475364251510569288581893852011376538112542866848802509594722296181154749873368634758115, lc0⟩) (.leaf
    ⟨835, 16, 20, 196, 16, 517, ⟨[[], [(343597383680, 0)]], 3, 4⟩, ⟨[[(512579511045, 0), (2546447965122, 0),
    (22345453750, 0), (534088819, 0), (12994236, 0)], [(169019122957, 0), (4430155586, 0), (128542919, 0), (4161659,
    0), (123590, 0)], [(113019586, 0), (8094844, 0), (421321, 0), (17584, 0), (560, 0)], [(125434, 0), (15547, 0),
    (1061, 0), (47, 0), (2, 0)]], 3, 4⟩, 1099511627776, 0, 3154183570, ⟨[[(45151702114177, 0), (0, 46460367463),
    (220652838, 0), (0, 12472), (0, 507)], [(22761291579, 0), (39236209, 0), (0, 350932), (0, 318), (0, 1)], [(0,
    24141150), (0, 117540), (601, 0), (1, 0)], [(32599, 0), (256, 0), (0, 1)]], 3, 4⟩, 68719476736, 10503461,
    3724767227316405415493317159587396480195583426085919788360339066288615962838760613945418852774, lc0⟩)) (.sy
    (.leaf ⟨865, 16, 20, 196, 16, 514, ⟨[[], [(343597383680, 0)]], 3, 4⟩, ⟨[[(0, 505847048941), (2671493985350, 0),
    (24378873966, 0), (600127525, 0), (15338837, 0)], [(162033321358, 0), (4327619933, 0), (128961700, 0), (4343110,
    0), (134315, 0)], [(98381201, 0), (7219900, 0), (388577, 0), (16774, 0), (536, 0)], [(97405, 0), (12556, 0),
    (882, 0), (39, 0), (1, 0)]], 3, 4⟩, 1099511627776, 0, 2147746825, ⟨[[(45762010815889, 0), (0, 45162828717),
    (213023325, 0), (0, 24133), (0, 564)], [(21432374353, 0), (32275812, 0), (0, 322525), (0, 278), (0, 1)], [(0,
    21591020), (0, 96750), (513, 0), (1, 0)], [(27029, 0), (195, 0), (0, 1)]], 3, 4⟩, 68719476736, 9883829,
    4455356595375075811798499538893339069349618686762138728955473312061503893969943504949139154249, lc0⟩) (.sx (.leaf
    ⟨1758, 16, 41, 250, 16, 621, ⟨[[(0, 137438953472)], [(352187318272, 0)]], 3, 4⟩, ⟨[[(0, 23366520381),
    (3500149479881, 0), (41125113204, 0), (1136626257, 0), (31058944, 0)], [(112633079723, 0), (3532832085, 0),
    (125532113, 0), (4600149, 0), (154561, 0)], [(43995681, 0), (3730573, 0), (217586, 0), (10071, 0), (484, 0)],
    [(28407, 0), (3798, 0), (280, 0), (18, 0), (2, 0)]], 3, 4⟩, 1099511627776, 0, 713995683, ⟨[[(45130988396790, 0),
    (0, 33697281457), (146802528, 0), (0, 28778), (0, 362)], [(10774161144, 0), (10668218, 0), (0, 113805), (0, 94)],
    [(0, 5532346), (0, 17581), (91, 0)], [(3537, 0), (18, 0)]], 3, 4⟩, 68719476736, 3298756,
    3494871307691189105753142175567070563976248350355221994161823913848115537047400129442032667007, lc0⟩) (.leaf
    ⟨1789, 16, 41, 234, 16, 559, ⟨[[(0, 412316860416)], [(352187318272, 0)]], 3, 4⟩, ⟨[[(250127182993, 0),
    (3490238074345, 0), (49928173571, 0), (1523453951, 0), (47244104, 0)], [(109768796336, 0), (3931201406, 0),
    (159025068, 0), (6544992, 0), (290637, 0)], [(48092448, 0), (4536364, 0), (293421, 0), (17468, 0), (1333, 0)],
    [(33822, 0), (4909, 0), (462, 0), (48, 0), (6, 0)]], 3, 4⟩, 1099511627776, 0, 1550903121, ⟨[[(45141664760822, 0),
    (0, 33927311830), (175463007, 0), (0, 66334), (0, 720)], [(10526022268, 0), (8267275, 0), (0, 137269), (0, 142),
    (0, 1)], [(0, 5370251), (0, 15942), (106, 0)], [(3356, 0), (15, 0)]], 3, 4⟩, 68719476736, 5583308,
    4395338192653149471199526291924356997349228724160093661812885275201277691007283059722374733864, lc0⟩)))
theorem c34 : checkC job ⟨6, 8, 8, 10, 9, 13⟩ 1 25 lims t34 560 48 32 81 3 256 = true := by decide +kernel

def t35 : CTree :=
  .sx (.sy (.sy (.leaf ⟨895, 16, 20, 254, 16, 633, ⟨[[], [(343597383680, 0)]], 3, 4⟩, ⟨[[(152058066719, 0),
    (1878290525396, 0), (11153460593, 0), (157453904, 0), (2218578, 0)], [(216005222820, 0), (3382404268, 0),
    (60558320, 0), (1133049, 0), (18541, 0)], [(145142622, 0), (6202297, 0), (183515, 0), (4134, 0), (84, 0)],
    [(157435, 0), (10755, 0), (384, 0), (11, 0)]], 3, 4⟩, 1099511627776, 0, 2632668544, ⟨[[(45953795998550, 0), (0,
    32571261066), (133446724, 0), (0, 32266), (0, 351)], [(20450714684, 0), (16924969, 0), (0, 199307), (0, 153), (0,
    1)], [(0, 20154359), (0, 58630), (297, 0)], [(24045, 0), (110, 0), (0, 1)]], 3, 4⟩, 68719476736, 7555205,
    3514860544403984654800110643634485619010414266949553911754771884287579959599935031373612185103, lc0⟩) (.leaf
    ⟨895, 16, 20, 239, 16, 571, ⟨[[], [(343597383680, 0)]], 3, 4⟩, ⟨[[(0, 162600784697), (1832307285057, 0),
    (13114570794, 0), (201512741, 0), (3083498, 0)], [(215366563761, 0), (3833711266, 0), (77436821, 0), (1572972,
    0), (32361, 0)], [(171383723, 0), (8071865, 0), (257189, 0), (7128, 0), (251, 0)], [(215498, 0), (15430, 0),
    (676, 0), (33, 0), (2, 0)]], 3, 4⟩, 1099511627776, 0, 5245239548, ⟨[[(45613065006681, 0), (0, 32882864315),
    (162355694, 0), (0, 68066), (0, 692)], [(20611946675, 0), (13858329, 0), (0, 251766), (0, 255), (0, 1)], [(0,
    20760476), (0, 57684), (376, 0)], [(25178, 0), (108, 0), (0, 1)]], 3, 4⟩, 68719476736, 10212725,
    4418474852519431259980909271132166751831837678596167474659535824102012067009240296156296009625, lc0⟩)) (.sx
    (.leaf ⟨1819, 16, 41, 216, 16, 495, ⟨[[(412316860416, 0)], [(352187318272, 0)]], 3, 4⟩, ⟨[[(308394286466, 0),
    (3466165060551, 0), (60575429921, 0), (2100264895, 0), (83522251, 0)], [(106294555395, 0), (4393154903, 0),
    (205951201, 0), (10591141, 0), (697773, 0)], [(52654298, 0), (5617879, 0), (446220, 0), (38996, 0), (3947, 0)],
    [(40867, 0), (7199, 0), (997, 0), (139, 0), (16, 0)]], 3, 4⟩, 1099511627776, 0, 3953983526, ⟨[[(45135037623167,
    0), (0, 34232622552), (215357993, 0), (0, 148213), (0, 1404)], [(10272501655, 0), (5311527, 0), (0, 173022), (0,
    242), (0, 1)], [(0, 5217331), (0, 14313), (128, 0)], [(3188, 0), (13, 0)]], 3, 4⟩, 68719476736, 9227319,
    4609728470579347734936747470283401895279513398840238963724777210524885183126401353103919649219, lc0⟩) (.sy (.leaf
    ⟨1850, 16, 41, 326, 16, 730, ⟨[[(137438953472, 0)], [(352187318272, 0)]], 3, 4⟩, ⟨[[(0, 383039117150),
    (2737542495910, 0), (26387262502, 0), (494666059, 0), (11328376, 0)], [(161894810090, 0), (3588479758, 0),
    (91233816, 0), (2675941, 0), (102447, 0)], [(82452135, 0), (4714098, 0), (212227, 0), (10827, 0), (586, 0)],
    [(65239, 0), (6514, 0), (529, 0), (39, 0), (2, 0)]], 3, 4⟩, 1099511627776, 0, 1083478297, ⟨[[(45281637520086, 0),
    (0, 21678181585), (95424064, 0), (0, 57335), (0, 275)], [(9976228542, 0), (1877925, 0), (0, 77786), (0, 79)],
    [(0, 4997710), (0, 8118), (54, 0)], [(2963, 0), (7, 0)]], 3, 4⟩, 68719476736, 4301767,
    3226800333176353396666367720530846914941528051269884851433870217014623543965878110185680778882, lc0⟩) (.leaf
    ⟨1850, 16, 41, 292, 16, 623, ⟨[[(137438953472, 0)], [(352187318272, 0)]], 3, 4⟩, ⟨[[(0, 546885045678),
    (2663147611332, 0), (33170450948, 0), (836254778, 0), (28938789, 0)], [(159987014062, 0), (4351831754, 0),
    (149668628, 0), (6617518, 0), (324338, 0)], [(103898092, 0), (7826506, 0), (527229, 0), (34754, 0), (1919, 0)],
    [(115993, 0), (17090, 0), (1760, 0), (133, 0), (7, 0)]], 3, 4⟩, 1099511627776, 0, 3273222613, ⟨[[(44956150333721,
    0), (0, 21846298123), (126834694, 0), (0, 100962), (510, 0)], [(9985940689, 0), (0, 813130), (0, 111434), (0,
    64), (4, 0)], [(0, 5114473), (0, 7415), (78, 0)], [(3064, 0), (6, 0)]], 3, 4⟩, 68719476736, 55049651,
    3684585120284758224162914025485371656812363830529590902827906736939986325223157614931377333528, lc0⟩)))) (.sy
    (.sx (.leaf ⟨1881, 16, 41, 218, 16, 501, ⟨[[(0, 137438953472)], [(352187318272, 0)]], 3, 4⟩, ⟨[[(0,
    330070221826), (3586721020166, 0), (61035451380, 0), (2063320290, 0), (74162257, 0)], [(100499785846, 0),
    (4029551485, 0), (182145534, 0), (8534587, 0), (483819, 0)], [(42658518, 0), (4398741, 0), (318755, 0), (24098,
    0), (2350, 0)], [(27311, 0), (4398, 0), (532, 0), (73, 0), (9, 0)]], 3, 4⟩, 1099511627776, 0, 2697813225,
    ⟨[[(45773418944920, 0), (0, 33796429846), (200498800, 0), (0, 153517), (0, 1415)], [(9657852490, 0), (3824041,
    0), (0, 154332), (0, 218), (0, 1)], [(0, 4668041), (0, 12122), (104, 0)], [(2655, 0), (10, 0)]], 3, 4⟩,
    68719476736, 9508334,
    4477350072433547255861684872763448412596067279749581779747458938203299616616727484193509754264, lc0⟩) (.sy (.leaf
    ⟨1912, 16, 41, 336, 16, 760, ⟨[[(0, 412316860416)], [(352187318272, 0)]], 3, 4⟩, ⟨[[(62482951982, 0),
    (2876204103538, 0), (26344271413, 0), (466602316, 0), (9170810, 0)], [(155540727017, 0), (3277987741, 0),
    (77855757, 0), (1976409, 0), (64361, 0)], [(66329486, 0), (3557955, 0), (138896, 0), (6054, 0), (324, 0)],
    [(41556, 0), (3610, 0), (255, 0), (19, 0), (1, 0)]], 3, 4⟩, 1099511627776, 0, 514401687, ⟨[[(45953053224710, 0),
    (0, 21310121507), (84315631, 0), (0, 51653), (0, 263)], [(9384892544, 0), (1356428, 0), (0, 65394), (0, 66)],
    [(0, 4469431), (0, 6950), (42, 0)], [(2470, 0), (6, 0)]], 3, 4⟩, 68719476736, 2769398,
    2131279917012670483144753517339580153863384018586551594279252280343689761917354734157142099829, lc0⟩) (.leaf
    ⟨1912, 16, 41, 305, 16, 657, ⟨[[(0, 412316860416)], [(352187318272, 0)]], 3, 4⟩, ⟨[[(0, 91584308477),
    (2811987868571, 0), (32426071542, 0), (722459971, 0), (21683402, 0)], [(154351277123, 0), (3895031224, 0),
    (117701741, 0), (4501127, 0), (212852, 0)], [(81749969, 0), (5446408, 0), (319078, 0), (20386, 0), (1182, 0)],
    [(68082, 0), (8939, 0), (913, 0), (73, 0), (4, 0)]], 3, 4⟩, 1099511627776, 0, 1654575206, ⟨[[(45618283814919, 0),
    (0, 21426256992), (108896475, 0), (0, 93704), (230, 0)], [(9388892746, 0), (0, 1039786), (0, 91752), (0, 69), (2,
    0)], [(0, 4574419), (0, 6397), (58, 0)], [(2554, 0), (5, 0)]], 3, 4⟩, 68719476736, 37516868,
    3028371884716037702331639946111269181835566305443017923706389166329570258037455230348768617179, lc0⟩))) (.sx (.sy
    (.leaf ⟨1881, 16, 41, 298, 16, 638, ⟨[[(0, 137438953472)], [(352187318272, 0)]], 3, 4⟩, ⟨[[(0, 418453649707),
    (2737719568870, 0), (32966731349, 0), (785169496, 0), (25624042, 0)], [(157147247457, 0), (4133149404, 0),
    (133971690, 0), (5577485, 0), (270803, 0)], [(92582832, 0), (6594251, 0), (419464, 0), (27443, 0), (1553, 0)],
    [(90098, 0), (12685, 0), (1309, 0), (101, 0), (6, 0)]], 3, 4⟩, 1099511627776, 0, 2387334274, ⟨[[(45283029447937,
    0), (0, 21606987561), (118015516, 0), (0, 97718), (416, 0)], [(9678569763, 0), (0, 1016397), (0, 101663), (0,
    63), (3, 0)], [(0, 4835092), (0, 6849), (68, 0)], [(2794, 0), (6, 0)]], 3, 4⟩, 68719476736, 47841990,
    3384986379417102374566785236555493223595624856599167995125097976757515256176923190110834458311, lc0⟩) (.sx (.leaf
    ⟨3746, 16, 82, 358, 16, 737, ⟨[[(412316860416, 0)], [(352187318272, 0)]], 3, 4⟩, ⟨[[(0, 143579231689),
    (3578250701220, 0), (56181922415, 0), (1838236572, 0), (77573750, 0)], [(104750317638, 0), (3443571044, 0),
    (154931574, 0), (8488002, 0), (443233, 0)], [(40392315, 0), (3916664, 0), (327542, 0), (23128, 0), (1264, 0)],
    [(29038, 0), (5235, 0), (573, 0), (43, 0), (2, 0)]], 3, 4⟩, 1099511627776, 0, 1572259972, ⟨[[(44964742039422, 0),
    (0, 16277843881), (87182816, 0), (0, 11641), (1982, 0)], [(4865541422, 0), (0, 1449799), (0, 37637), (89, 0), (4,
    0)], [(0, 1243982), (0, 1132), (15, 0)], [(365, 0)]], 3, 4⟩, 68719476736, 60992102,
    4379831293532867101806943747729084465645640058858904281288208946179057418807807408104000155152, lc0⟩) (.sy (.leaf
    ⟨3777, 16, 82, 544, 16, 1108, ⟨[[(137438953472, 0)], [(352187318272, 0)]], 3, 4⟩, ⟨[[(474029584542, 0),
    (2814498312138, 0), (23751799118, 0), (417121239, 0), (9179777, 0)], [(161408252660, 0), (2814663294, 0),
    (68225311, 0), (1959150, 0), (51852, 0)], [(64601559, 0), (3364281, 0), (147712, 0), (5294, 0), (145, 0)],
    [(48976, 0), (4626, 0), (257, 0), (10, 0)]], 3, 4⟩, 1099511627776, 0, 494214340, ⟨[[(45052842857563, 0), (0,
    10417486144), (38113350, 0), (9095, 0), (607, 0)], [(4783068217, 0), (0, 1194714), (0, 15584), (49, 0), (1, 0)],
    [(0, 1214797), (0, 649), (7, 0)], [(350, 0)]], 3, 4⟩, 68719476736, 10441799,
    3052652649615790366038289970913620711068051417408185760518096757580817201576082651057045786381, lc0⟩) (.skip))))
    (.sy (.sy (.leaf ⟨1912, 16, 41, 387, 16, 801, ⟨[[(0, 412316860416)], [(352187318272, 0)]], 3, 4⟩, ⟨[[(0,
    448686666195), (1924933316511, 0), (13965756970, 0), (207004309, 0), (4141972, 0)], [(213089492714, 0),
    (3249171739, 0), (65819800, 0), (1701337, 0), (44843, 0)], [(140427516, 0), (6172191, 0), (244601, 0), (8740, 0),
    (248, 0)], [(165371, 0), (14414, 0), (807, 0), (31, 0), (1, 0)]], 3, 4⟩, 1099511627776, 0, 2955189507,
    ⟨[[(45368671116566, 0), (0, 15385725762), (71457657, 0), (0, 15537), (1331, 0)], [(9361747837, 0), (0, 2726647),
    (0, 60794), (119, 0), (5, 0)], [(0, 4644721), (0, 4004), (45, 0)], [(2607, 0), (3, 0)]], 3, 4⟩, 68719476736,
    42416128, 3484625516738308295806409610019762798664949048683008568819424460131072404838070693444752866858, lc0⟩)
    (.sx (.leaf ⟨3808, 16, 82, 553, 16, 1129, ⟨[[(0, 137438953472)], [(352187318272, 0)]], 3, 4⟩, ⟨[[(334734829722,
    0), (2850296690153, 0), (23189117097, 0), (391409606, 0), (8479633, 0)], [(159841051462, 0), (2691786186, 0),
    (62522557, 0), (1763876, 0), (46987, 0)], [(59775492, 0), (2992215, 0), (129302, 0), (4669, 0), (130, 0)],
    [(41881, 0), (3924, 0), (220, 0), (8, 0)]], 3, 4⟩, 1099511627776, 0, 414682441, ⟨[[(45213469397065, 0), (0,
    10355629082), (36216208, 0), (7087, 0), (548, 0)], [(4710308367, 0), (0, 1172771), (0, 14776), (44, 0), (1, 0)],
    [(0, 1182102), (0, 632), (6, 0)], [(335, 0)]], 3, 4⟩, 68719476736, 9311724,
    2868671686340247540170334304688443304793706969428082713931038435559894609625142174358508308815, lc0⟩) (.skip)))
    (.skip))))
theorem c35 : checkC job ⟨6, 8, 8, 10, 9, 13⟩ 1 25 lims t35 656 48 32 81 3 256 = true := by decide +kernel

def t36 : CTree :=
  .sy (.sx (.leaf ⟨955, 16, 20, 186, 16, 465, ⟨[[], [(343597383680, 0)]], 3, 4⟩, ⟨[[(0, 202334933870),
    (2949985730164, 0), (34581079365, 0), (976572223, 0), (28387227, 0)], [(143860850075, 0), (4397578916, 0),
    (153729967, 0), (5802086, 0), (187328, 0)], [(74483194, 0), (6251888, 0), (369207, 0), (16116, 0), (506, 0)],
    [(57444, 0), (8038, 0), (541, 0), (21, 0), (1, 0)]], 3, 4⟩, 1099511627776, 0, 1266744702, ⟨[[(47138534221771, 0),
    (0, 43481883026), (227087449, 0), (0, 99432), (0, 1304)], [(18255835458, 0), (15219006, 0), (0, 312514), (0,
    319), (0, 2)], [(0, 16446641), (0, 58731), (398, 0)], [(17245, 0), (96, 0), (0, 1)]], 3, 4⟩, 68719476736,
    18971783, 5074304560273457169310569185839689919837698691739154611556908939984292472302719117623085781484, lc0⟩)
    (.sy (.leaf ⟨985, 16, 20, 256, 16, 612, ⟨[[], [(343597383680, 0)]], 3, 4⟩, ⟨[[(0, 64587261068), (2164006047964,
    0), (15212567360, 0), (233515473, 0), (3518901, 0)], [(199596845714, 0), (3407370974, 0), (66219920, 0),
    (1292462, 0), (21498, 0)], [(106910260, 0), (4852211, 0), (145152, 0), (3164, 0), (73, 0)], [(78255, 0), (5269,
    0), (165, 0), (5, 0)]], 3, 4⟩, 1099511627776, 0, 942944672, ⟨[[(47321006113163, 0), (0, 29930054402), (123895618,
    0), (0, 71875), (0, 628)], [(17393715803, 0), (5262049, 0), (0, 172710), (0, 176), (0, 1)], [(0, 15413290), (0,
    34182), (201, 0)], [(15500, 0), (53, 0)]], 3, 4⟩, 68719476736, 7613623,
    3302761394047856708324417973858897655424755368822594028835488689414369309646784751104036836475, lc0⟩) (.leaf
    ⟨985, 16, 20, 239, 16, 546, ⟨[[], [(343597383680, 0)]], 3, 4⟩, ⟨[[(400759509524, 0), (2119027019753, 0),
    (18110808234, 0), (303616346, 0), (5094768, 0)], [(198715567310, 0), (3893197263, 0), (85159950, 0), (1843018,
    0), (44820, 0)], [(126744743, 0), (6274925, 0), (205895, 0), (6688, 0), (333, 0)], [(105072, 0), (7526, 0), (399,
    0), (31, 0), (2, 0)]], 3, 4⟩, 1099511627776, 0, 2216711970, ⟨[[(46982516153550, 0), (0, 30284768565), (151715075,
    0), (0, 147681), (0, 1125)], [(17431541825, 0), (1200375, 0), (0, 226382), (0, 343), (0, 2)], [(0, 15791141), (0,
    32921), (255, 0)], [(16078, 0), (50, 0)]], 3, 4⟩, 68719476736, 17434171,
    3705436036277542637959401649413117417814410437109720431488940702928228853630194308255400231644, lc0⟩))) (.sx (.sy
    (.leaf ⟨955, 16, 20, 243, 16, 568, ⟨[[], [(343597383680, 0)]], 3, 4⟩, ⟨[[(0, 423906587158), (2035389874884, 0),
    (15880502141, 0), (256006683, 0), (4061072, 0)], [(204454924585, 0), (3795716772, 0), (79743309, 0), (1654801,
    0), (34326, 0)], [(136606247, 0), (6608437, 0), (211327, 0), (5844, 0), (224, 0)], [(131291, 0), (9325, 0), (404,
    0), (23, 0), (2, 0)]], 3, 4⟩, 1099511627776, 0, 2466647698, ⟨[[(46613840794021, 0), (0, 30838904190), (148576126,
    0), (0, 101499), (0, 891)], [(18399642922, 0), (5690774, 0), (0, 219655), (0, 266), (0, 2)], [(0, 17138988), (0,
    39514), (275, 0)], [(18375, 0), (64, 0)]], 3, 4⟩, 68719476736, 9494139,
    4164120647977200542814865368487892559012587764974565164369431413266047362492649885232795333073, lc0⟩) (.leaf
    ⟨955, 16, 20, 224, 16, 500, ⟨[[], [(343597383680, 0)]], 3, 4⟩, ⟨[[(0, 161493544889), (1987395618817, 0),
    (18985880681, 0), (344313371, 0), (7024827, 0)], [(202916141985, 0), (4375526072, 0), (106023601, 0), (2778140,
    0), (96140, 0)], [(163326432, 0), (8870502, 0), (355958, 0), (16621, 0), (944, 0)], [(184563, 0), (16565, 0),
    (1282, 0), (104, 0), (7, 0)]], 3, 4⟩, 1099511627776, 0, 6476745487, ⟨[[(46279661375900, 0), (0, 31214814932),
    (186315022, 0), (0, 207803), (0, 1213)], [(18435582338, 0), (612406, 0), (0, 296949), (0, 481)], [(0, 17555706),
    (0, 37688), (358, 0)], [(19043, 0), (60, 0), (0, 1)]], 3, 4⟩, 68719476736, 66480096,
    3275641578402893240240134697140865115575711664303685899243340959234118229190281821692712012412, lc0⟩)) (.sy
    (.leaf ⟨985, 16, 20, 219, 16, 476, ⟨[[], [(343597383680, 0)]], 3, 4⟩, ⟨[[(365802939793, 0), (2070021508254, 0),
    (21791224542, 0), (424133399, 0), (10110141, 0)], [(196689750387, 0), (4506210220, 0), (116715563, 0), (3540009,
    0), (150086, 0)], [(151586693, 0), (8656668, 0), (402676, 0), (23573, 0), (1482, 0)], [(153261, 0), (16537, 0),
    (1676, 0), (152, 0), (10, 0)]], 3, 4⟩, 1099511627776, 0, 6849611743, ⟨[[(46635175509872, 0), (0, 30574059425),
    (191446604, 0), (0, 272416), (532, 0)], [(17411817768, 0), (0, 5144746), (0, 314603), (0, 416), (14, 0)], [(0,
    16155025), (0, 30624), (338, 0)], [(16619, 0), (44, 0), (0, 1)]], 3, 4⟩, 68719476736, 264117974,
    2978254197734077930216174869292221547276581261039552434199572359181899228339019766330218495597, lc0⟩) (.sx (.leaf
    ⟨2004, 16, 41, 300, 16, 630, ⟨[[(0, 137438953472)], [(352187318272, 0)]], 3, 4⟩, ⟨[[(0, 159648072733),
    (2968838811299, 0), (36759215207, 0), (869966902, 0), (28644258, 0)], [(144728088970, 0), (3785629871, 0),
    (120466948, 0), (5077686, 0), (263434, 0)], [(67087079, 0), (4669987, 0), (305510, 0), (21823, 0), (1351, 0)],
    [(46817, 0), (7187, 0), (846, 0), (73, 0), (4, 0)]], 3, 4⟩, 1099511627776, 0, 1491814573, ⟨[[(46281901957890, 0),
    (0, 20860982480), (107568369, 0), (0, 68770), (2645, 0)], [(8585442734, 0), (0, 3545512), (0, 89264), (126, 0),
    (10, 0)], [(0, 3986738), (0, 4680), (53, 0)], [(2039, 0), (3, 0)]], 3, 4⟩, 68719476736, 131206393,
    2040785245444196956871220383752482286072362179477496029202212677008008939311855887574353355454, lc0⟩) (.sy (.leaf
    ⟨2035, 16, 41, 410, 16, 838, ⟨[[(0, 412316860416)], [(352187318272, 0)]], 3, 4⟩, ⟨[[(510125739647, 0),
    (2152949367025, 0), (15158273501, 0), (212474653, 0), (4228949, 0)], [(202403379741, 0), (2918442815, 0),
    (55207000, 0), (1426354, 0), (40205, 0)], [(98872063, 0), (4085844, 0), (165848, 0), (6458, 0), (200, 0)],
    [(80407, 0), (7740, 0), (490, 0), (21, 0), (1, 0)]], 3, 4⟩, 1099511627776, 0, 1350902957, ⟨[[(46378660724714, 0),
    (0, 14474026748), (59383404, 0), (47572, 0), (2695, 0)], [(8306793816, 0), (0, 3896976), (0, 43120), (313, 0),
    (9, 0)], [(0, 3836702), (0, 2612), (37, 0)], [(1913, 0), (2, 0)]], 3, 4⟩, 68719476736, 67902174,
    3718453823886330338923747255383878837911230631690016473483955662974205502888099435512296426189, lc0⟩) (.sx (.sy
    (.leaf ⟨4054, 16, 82, 819, 16, 1654, ⟨[[(0, 137438953472)], [(352187318272, 0)]], 3, 4⟩, ⟨[[(0, 93762933974),
    (2193717868036, 0), (8320529091, 0), (64255428, 0), (687534, 0)], [(208416386278, 0), (1603768887, 0), (16826192,
    0), (235089, 0), (3348, 0)], [(55691062, 0), (1275799, 0), (27950, 0), (548, 0), (8, 0)], [(26564, 0), (1352, 0),
    (42, 0), (1, 0)]], 3, 4⟩, 1099511627776, 0, 165375972, ⟨[[(46241982006653, 0), (0, 7015764008), (15618286, 0),
    (14194, 0), (258, 0)], [(4174227104, 0), (0, 1079275), (0, 4848), (33, 0)], [(0, 973801), (0, 284), (3, 0)],
    [(245, 0)]], 3, 4⟩, 68719476736, 3017197,
    2413020301378164884097461832649039516532875939034134445757028146179648795473335757266012149923, lc0⟩) (.skip))
    (.skip))))))
theorem c36 : checkC job ⟨6, 8, 8, 10, 9, 13⟩ 1 25 lims t36 752 48 32 75 3 256 = true := by decide +kernel

def t37 : CTree :=
  .sy (.sx (.sy (.leaf ⟨1015, 16, 20, 238, 16, 532, ⟨[[], [(343597383680, 0)]], 3, 4⟩, ⟨[[(516307662186, 0),
    (2208487526825, 0), (20056859909, 0), (343520321, 0), (6053988, 0)], [(193313348199, 0), (3902159868, 0),
    (86638159, 0), (1938277, 0), (55108, 0)], [(113685227, 0), (5604914, 0), (186821, 0), (7274, 0), (443, 0)],
    [(74160, 0), (5312, 0), (378, 0), (39, 0), (3, 0)]], 3, 4⟩, 1099511627776, 0, 1918790833, ⟨[[(47336312637652, 0),
    (0, 29520012480), (150057594, 0), (0, 195082), (0, 971)], [(16516120438, 0), (0, 2988374), (0, 229553), (0,
    399)], [(0, 14589195), (0, 27226), (229, 0)], [(14150, 0), (39, 0)]], 3, 4⟩, 68719476736, 64400839,
    3358758328286640182312975646405636318699627352238457698415143276851385312281190683042292149781, lc0⟩) (.sx (.leaf
    ⟨2065, 16, 41, 324, 16, 700, ⟨[[(412316860416, 0)], [(352187318272, 0)]], 3, 4⟩, ⟨[[(411102259908, 0),
    (3121766971084, 0), (32713536264, 0), (627090150, 0), (14623106, 0)], [(140180498282, 0), (3161841651, 0),
    (79852932, 0), (2362334, 0), (101240, 0)], [(48466004, 0), (2679828, 0), (121518, 0), (7331, 0), (484, 0)],
    [(19863, 0), (2147, 0), (238, 0), (23, 0), (2, 0)]], 3, 4⟩, 1099511627776, 0, 470661461, ⟨[[(46975682224615, 0),
    (0, 20548105329), (84843391, 0), (0, 86310), (387, 0)], [(8149106609, 0), (0, 2402644), (0, 68070), (0, 45), (2,
    0)], [(0, 3601886), (0, 4378), (33, 0)], [(1738, 0), (3, 0)]], 3, 4⟩, 68719476736, 38759029,
    2279396062120593124248384080135822787357699363134959304308704598092797726236743316111364199508, lc0⟩) (.leaf
    ⟨2096, 16, 41, 307, 16, 637, ⟨[[(137438953472, 0)], [(352187318272, 0)]], 3, 4⟩, ⟨[[(0, 326507792387),
    (3141562721551, 0), (38012187551, 0), (862594751, 0), (27867725, 0)], [(136568632651, 0), (3414247001, 0),
    (102354260, 0), (4250449, 0), (232720, 0)], [(49944440, 0), (3255231, 0), (215017, 0), (16737, 0), (1120, 0)],
    [(23458, 0), (4079, 0), (561, 0), (53, 0), (3, 0)]], 3, 4⟩, 1099511627776, 0, 1070470734, ⟨[[(46963864468916, 0),
    (0, 20276862925), (97353262, 0), (14227, 0), (5700, 0)], [(7883277961, 0), (0, 4851945), (0, 75564), (406, 0),
    (18, 0)], [(0, 3495097), (0, 3535), (48, 0), (1, 0)], [(1651, 0), (2, 0)]], 3, 4⟩, 68719476736, 224318339,
    3615242846513697932789769689855464186811081801543954462683943200905223789189878867678348268669, lc0⟩))) (.sy (.sx
    (.leaf ⟨2127, 16, 41, 321, 16, 678, ⟨[[(0, 137438953472)], [(352187318272, 0)]], 3, 4⟩, ⟨[[(0, 261142771615),
    (3212541061272, 0), (35012552325, 0), (692127692, 0), (17899300, 0)], [(134355683815, 0), (3064495082, 0),
    (78765441, 0), (2586835, 0), (127968, 0)], [(41423548, 0), (2292543, 0), (117940, 0), (8542, 0), (604, 0)],
    [(12710, 0), (1790, 0), (259, 0), (27, 0), (2, 0)]], 3, 4⟩, 1099511627776, 0, 541295613, ⟨[[(47318279996620, 0),
    (0, 20162618659), (84297929, 0), (0, 58260), (2351, 0)], [(7696458992, 0), (0, 3992641), (0, 68059), (108, 0),
    (8, 0)], [(0, 3327410), (0, 3549), (33, 0)], [(1530, 0), (2, 0)]], 3, 4⟩, 68719476736, 107550570,
    2846937378536123229902329826585320906152187758139209104096049713507192238019730235466551404790, lc0⟩) (.sy (.leaf
    ⟨2158, 16, 41, 460, 16, 950, ⟨[[(0, 412316860416)], [(352187318272, 0)]], 3, 4⟩, ⟨[[(0, 265106152874),
    (2385208936451, 0), (13903622108, 0), (150222459, 0), (2351851, 0)], [(192756967501, 0), (2289689239, 0),
    (32091018, 0), (648539, 0), (18458, 0)], [(58070620, 0), (1749917, 0), (57877, 0), (2429, 0), (86, 0)], [(17470,
    0), (1840, 0), (149, 0), (8, 0)]], 3, 4⟩, 1099511627776, 0, 299818847, ⟨[[(47410072159950, 0), (0, 13626854464),
    (41866509, 0), (25794, 0), (1662, 0)], [(7460351189, 0), (0, 3663820), (0, 30369), (188, 0), (5, 0)], [(0,
    3212403), (0, 2023), (21, 0)], [(1446, 0), (1, 0)]], 3, 4⟩, 68719476736, 37911881,
    2530819269489579919583531295024097485756217602673729030016288803564940095859095591315280022733, lc0⟩) (.sx (.leaf
    ⟨4300, 16, 82, 623, 16, 1262, ⟨[[(0, 137438953472)], [(352187318272, 0)]], 3, 4⟩, ⟨[[(0, 313006002861),
    (3328903861209, 0), (21447989235, 0), (269352213, 0), (5124158, 0)], [(135801115969, 0), (1752072528, 0),
    (28954815, 0), (722512, 0), (21822, 0)], [(22885941, 0), (828337, 0), (34222, 0), (1485, 0), (51, 0)], [(5139,
    0), (626, 0), (48, 0), (2, 0)]], 3, 4⟩, 1099511627776, 0, 81708286, ⟨[[(47231529569076, 0), (0, 9658122825),
    (24797984, 0), (45721, 0), (1003, 0)], [(3738561522, 0), (0, 1551194), (0, 6454), (92, 0), (1, 0)], [(0, 815974),
    (0, 299), (4, 0)], [(185, 0)]], 3, 4⟩, 68719476736, 13767052,
    3418801045521727688646134406268033590270423695989038926286333458635117332566584764399136125658, lc0⟩) (.sy (.leaf
    ⟨4331, 16, 82, 895, 16, 1792, ⟨[[(0, 412316860416)], [(352187318272, 0)]], 3, 4⟩, ⟨[[(0, 405998972181),
    (2438001475099, 0), (8197894096, 0), (55399272, 0), (573402, 0)], [(195295972506, 0), (1297146943, 0), (11584564,
    0), (158989, 0), (2473, 0)], [(32858812, 0), (650481, 0), (14970, 0), (333, 0), (6, 0)], [(8142, 0), (556, 0),
    (21, 0), (1, 0)]], 3, 4⟩, 1099511627776, 0, 59279810, ⟨[[(47277161673372, 0), (0, 6576170842), (12918017, 0),
    (29899, 0), (371, 0)], [(3676761974, 0), (0, 1156166), (0, 1754), (52, 0), (1, 0)], [(0, 800876), (0, 150), (3,
    0)], [(180, 0)]], 3, 4⟩, 68719476736, 3641204,
    4399171017730000331141850220651367209105955345020020627246192667372066702488320070393194483697, lc0⟩) (.skip)))))
    (.sx (.sy (.sx (.leaf ⟨4238, 16, 82, 624, 16, 1277, ⟨[[(412316860416, 0)], [(352187318272, 0)]], 3, 4⟩,
    ⟨[[(150779297292, 0), (3281517978146, 0), (20858192028, 0), (254606608, 0), (4592247, 0)], [(138852531349, 0),
    (1791889341, 0), (28893496, 0), (677061, 0), (19666, 0)], [(25069561, 0), (881682, 0), (33474, 0), (1386, 0),
    (46, 0)], [(6096, 0), (635, 0), (46, 0), (2, 0)]], 3, 4⟩, 1099511627776, 0, 76422363, ⟨[[(47058090215327, 0), (0,
    9762321652), (24072864, 0), (19848, 0), (622, 0)], [(3851200846, 0), (0, 1398462), (0, 8131), (53, 0), (1, 0)],
    [(0, 849393), (0, 368), (4, 0)], [(197, 0)]], 3, 4⟩, 68719476736, 8835442,
    2012042061622445329762088161801715992679174945623267844671791436915109509406743126047016690742, lc0⟩) (.sy (.leaf
    ⟨4269, 16, 82, 889, 16, 1797, ⟨[[(137438953472, 0)], [(352187318272, 0)]], 3, 4⟩, ⟨[[(79801995170, 0),
    (2386973152059, 0), (7940028292, 0), (52097413, 0), (513482, 0)], [(198355586162, 0), (1321111724, 0), (11482721,
    0), (148508, 0), (2235, 0)], [(35912359, 0), (685796, 0), (14551, 0), (312, 0), (5, 0)], [(9458, 0), (558, 0),
    (21, 0)]], 3, 4⟩, 1099511627776, 0, 59686349, ⟨[[(47102123029873, 0), (0, 6702342121), (12420663, 0), (16695, 0),
    (249, 0)], [(3787644664, 0), (0, 1088339), (0, 3140), (33, 0)], [(0, 833888), (0, 209), (2, 0)], [(192, 0)]], 3,
    4⟩, 68719476736, 2699044,
    2641696228202034889168168389685559174027097439425884721635084240980934921889025265730343403520, lc0⟩) (.skip)))
    (.skip)) (.skip)))) (.sx (.sy (.sx (.sy (.leaf ⟨2065, 16, 41, 433, 16, 898, ⟨[[(412316860416, 0)],
    [(352187318272, 0)]], 3, 4⟩, ⟨[[(399971122417, 0), (2219954872588, 0), (13980044373, 0), (167883327, 0),
    (2881180, 0)], [(200503119939, 0), (2613431031, 0), (41830016, 0), (924134, 0), (25363, 0)], [(81989018, 0),
    (2862878, 0), (99879, 0), (3840, 0), (124, 0)], [(47856, 0), (4170, 0), (272, 0), (12, 0)]], 3, 4⟩,
    1099511627776, 0, 694218851, ⟨[[(46713050039933, 0), (0, 14257967244), (50189503, 0), (1923, 0), (1330, 0)],
    [(8104150500, 0), (0, 3298301), (0, 39462), (135, 0), (4, 0)], [(0, 3654749), (0, 2651), (25, 0)], [(1772, 0),
    (2, 0)]], 3, 4⟩, 68719476736, 35365146,
    1682935665281997481089591396320099483924265154798923075911050541705263305476461039447124107870, lc0⟩) (.sx (.leaf
    ⟨4115, 16, 82, 598, 16, 1217, ⟨[[(412316860416, 0)], [(352187318272, 0)]], 3, 4⟩, ⟨[[(25004825176, 0),
    (3162493562670, 0), (22123951124, 0), (307672526, 0), (6142503, 0)], [(144391634341, 0), (2056945767, 0),
    (38482373, 0), (999437, 0), (28603, 0)], [(33217853, 0), (1359683, 0), (55892, 0), (2221, 0), (70, 0)], [(12518,
    0), (1249, 0), (81, 0), (4, 0)]], 3, 4⟩, 1099511627776, 0, 136948401, ⟨[[(46538050681625, 0), (0, 9884949579),
    (27870095, 0), (25113, 0), (753, 0)], [(4064883805, 0), (0, 1430638), (0, 9368), (66, 0), (1, 0)], [(0, 928817),
    (0, 407), (5, 0)], [(227, 0)]], 3, 4⟩, 68719476736, 11068831,
    2503945063732131866823296380726187135053691432415273947224865246378130203906862413138293951955, lc0⟩) (.skip)))
    (.sy (.sx (.leaf ⟨4177, 16, 82, 592, 16, 1190, ⟨[[(0, 137438953472)], [(352187318272, 0)]], 3, 4⟩,
    ⟨[[(235607520315, 0), (3213268586393, 0), (23364670366, 0), (344287456, 0), (7320189, 0)], [(141232848417, 0),
    (2058565260, 0), (40824623, 0), (1139094, 0), (33693, 0)], [(31332679, 0), (1366924, 0), (61109, 0), (2521, 0),
    (80, 0)], [(11867, 0), (1319, 0), (89, 0), (4, 0)]], 3, 4⟩, 1099511627776, 0, 149393947, ⟨[[(46713944474020, 0),
    (0, 9779889445), (29575309, 0), (63847, 0), (1348, 0)], [(3940820025, 0), (0, 1632366), (0, 7030), (126, 0), (2,
    0)], [(0, 890613), (0, 312), (6, 0)], [(212, 0)]], 3, 4⟩, 68719476736, 18270769,
    5279732812194579763419270536720805689195500496810057639251046790222641849981812119444255949204, lc0⟩) (.skip))
    (.skip))) (.skip)) (.skip))
theorem c37 : checkC job ⟨6, 8, 8, 10, 9, 13⟩ 1 25 lims t37 848 48 32 75 3 256 = true := by decide +kernel

def t38 : CTree :=
  .sx (.sy (.sx (.sx (.sy (.leaf ⟨1942, 16, 41, 313, 16, 680, ⟨[[(412316860416, 0)], [(352187318272, 0)]], 3, 4⟩,
    ⟨[[(399022902027, 0), (2887645974396, 0), (31663556073, 0), (657531159, 0), (17695492, 0)], [(151692807400, 0),
    (3652934063, 0), (102382971, 0), (3510187, 0), (157567, 0)], [(71747020, 0), (4447581, 0), (233956, 0), (14239,
    0), (843, 0)], [(50430, 0), (6007, 0), (596, 0), (49, 0), (3, 0)]], 3, 4⟩, 1099511627776, 0, 1085197783,
    ⟨[[(45952133368390, 0), (0, 21269807223), (99832982, 0), (0, 87795), (27, 0)], [(9124197825, 0), (0, 922166), (0,
    82016), (0, 76), (1, 0)], [(0, 4337852), (0, 6031), (49, 0)], [(2344, 0), (5, 0)]], 3, 4⟩, 68719476736, 26252122,
    2381106848846633434210770963845068522704370405295429382817811849318738372391829436733148703297, lc0⟩) (.sy (.leaf
    ⟨1942, 16, 41, 403, 16, 842, ⟨[[(412316860416, 0)], [(352187318272, 0)]], 3, 4⟩, ⟨[[(495081622064, 0),
    (1993986129432, 0), (13459684605, 0), (180989674, 0), (3370521, 0)], [(211249176695, 0), (3011309990, 0),
    (55032564, 0), (1317818, 0), (34608, 0)], [(121633826, 0), (4846946, 0), (178657, 0), (6382, 0), (186, 0)],
    [(118333, 0), (9793, 0), (555, 0), (22, 0), (1, 0)]], 3, 4⟩, 1099511627776, 0, 1902299646, ⟨[[(45702387467231,
    0), (0, 15198732666), (63262325, 0), (0, 25512), (824, 0)], [(9099868900, 0), (0, 2409682), (0, 53653), (59, 0),
    (3, 0)], [(0, 4405254), (0, 3847), (36, 0)], [(2394, 0), (3, 0)]], 3, 4⟩, 68719476736, 27921335,
    2459904128710550872262065733078898349137843386368252178549491994232743368537938569852324654108, lc0⟩) (.sx (.leaf
    ⟨3869, 16, 82, 573, 16, 1178, ⟨[[(412316860416, 0)], [(352187318272, 0)]], 3, 4⟩, ⟨[[(420219885951, 0),
    (2924541384077, 0), (21957550781, 0), (337128089, 0), (6957565, 0)], [(156933179030, 0), (2450583852, 0),
    (51438396, 0), (1375919, 0), (36953, 0)], [(50865464, 0), (2315025, 0), (95252, 0), (3477, 0), (100, 0)],
    [(29728, 0), (2704, 0), (155, 0), (6, 0)]], 3, 4⟩, 1099511627776, 0, 279860589, ⟨[[(45536984664000, 0), (0,
    10255082413), (32400463, 0), (1445, 0), (400, 0)], [(4574303903, 0), (0, 1090555), (0, 13307), (30, 0), (1, 0)],
    [(0, 1120928), (0, 609), (5, 0)], [(307, 0)]], 3, 4⟩, 68719476736, 7147238,
    2313650402011869025110809465038222489562676496822029927929003376910663242710283886696921964692, lc0⟩) (.leaf
    ⟨3900, 16, 82, 541, 16, 1085, ⟨[[(137438953472, 0)], [(352187318272, 0)]], 3, 4⟩, ⟨[[(167460273246, 0),
    (2932476772683, 0), (25724133299, 0), (467271718, 0), (10676662, 0)], [(154393651044, 0), (2747442977, 0),
    (68894757, 0), (2064068, 0), (56708, 0)], [(56327627, 0), (3046185, 0), (140655, 0), (5258, 0), (149, 0)],
    [(39382, 0), (3973, 0), (232, 0), (9, 0)]], 3, 4⟩, 1099511627776, 0, 414804378, ⟨[[(45536482253292, 0), (0,
    10164517923), (38679026, 0), (52344, 0), (1357, 0)], [(4486923951, 0), (0, 1596349), (0, 12250), (124, 0), (2,
    0)], [(0, 1100228), (0, 455), (8, 0)], [(298, 0)]], 3, 4⟩, 68719476736, 20908777,
    4897601880025459550816207146172105559840695285636378095165698266933213690379099477434822657141, lc0⟩)))) (.sy
    (.leaf ⟨1973, 16, 41, 288, 16, 598, ⟨[[(137438953472, 0)], [(352187318272, 0)]], 3, 4⟩, ⟨[[(0, 229887509806),
    (2889608794350, 0), (38989915592, 0), (1040063583, 0), (38743964, 0)], [(146930952162, 0), (4156379178, 0),
    (150239579, 0), (7204485, 0), (384688, 0)], [(79087099, 0), (6236545, 0), (462695, 0), (33766, 0), (2017, 0)],
    [(70561, 0), (11947, 0), (1397, 0), (115, 0), (7, 0)]], 3, 4⟩, 1099511627776, 0, 2398300461, ⟨[[(45942336884629,
    0), (0, 21075100101), (121913296, 0), (0, 35961), (4711, 0)], [(8826506472, 0), (0, 4080127), (0, 100848), (302,
    0), (17, 0)], [(0, 4200212), (0, 4833), (68, 0), (1, 0)], [(2215, 0), (3, 0)]], 3, 4⟩, 68719476736, 214855458,
    3810761564028090687508125494558093681251083764578399753180361900444345040729709417716514164458, lc0⟩) (.sy (.sx
    (.leaf ⟨3931, 16, 82, 554, 16, 1116, ⟨[[(0, 137438953472)], [(352187318272, 0)]], 3, 4⟩, ⟨[[(0, 116049019355),
    (2969322789208, 0), (24652451643, 0), (422803727, 0), (9432339, 0)], [(153040578446, 0), (2586397352, 0),
    (60937136, 0), (1777811, 0), (49165, 0)], [(51181570, 0), (2610357, 0), (117714, 0), (4437, 0), (128, 0)],
    [(32229, 0), (3215, 0), (190, 0), (7, 0)]], 3, 4⟩, 1099511627776, 0, 335606525, ⟨[[(45699147402492, 0), (0,
    10107778563), (35871625, 0), (40011, 0), (1108, 0)], [(4423367827, 0), (0, 1522386), (0, 11897), (100, 0), (2,
    0)], [(0, 1071994), (0, 463), (7, 0)], [(286, 0)]], 3, 4⟩, 68719476736, 16936926,
    3806835587305265205511579228820754667508462303087177292454381679803594686352352029233326496312, lc0⟩) (.skip))
    (.skip)))) (.sy (.sx (.sy (.sx (.leaf ⟨3992, 16, 82, 580, 16, 1182, ⟨[[(412316860416, 0)], [(352187318272, 0)]],
    3, 4⟩, ⟨[[(170948332354, 0), (3043014884215, 0), (22616917233, 0), (340441450, 0), (7067686, 0)], [(150394618040,
    0), (2293638329, 0), (46951233, 0), (1266864, 0), (35240, 0)], [(42214422, 0), (1881845, 0), (79006, 0), (3011,
    0), (90, 0)], [(20906, 0), (2004, 0), (122, 0), (5, 0)]], 3, 4⟩, 1099511627776, 0, 208204699, ⟨[[(46031621500329,
    0), (0, 10052520679), (30798444, 0), (17133, 0), (663, 0)], [(4305286124, 0), (0, 1345053), (0, 11317), (56, 0),
    (1, 0)], [(0, 1018688), (0, 484), (5, 0)], [(263, 0)]], 3, 4⟩, 68719476736, 10288373,
    2032589205239726112008677080096909466790176358092356413560914097082482220360034004691106311676, lc0⟩) (.skip))
    (.skip)) (.skip)) (.skip))) (.skip)) (.skip)
theorem c38 : checkC job ⟨6, 8, 8, 10, 9, 13⟩ 1 25 lims t38 400 48 16 81 3 256 = true := by decide +kernel

def t39 : CTree :=
  .sx (.sx (.leaf ⟨1696, 16, 41, 257, 16, 641, ⟨[[(412316860416, 0)], [(352187318272, 0)]], 3, 4⟩, ⟨[[(0,
    504492728336), (3393520298663, 0), (37588508751, 0), (992954299, 0), (25962436, 0)], [(119675421907, 0),
    (3631872283, 0), (123473040, 0), (4346411, 0), (144693, 0)], [(50655350, 0), (4135215, 0), (233012, 0), (10674,
    0), (523, 0)], [(35915, 0), (4650, 0), (341, 0), (23, 0), (2, 0)]], 3, 4⟩, 1099511627776, 0, 781712562,
    ⟨[[(44476072045989, 0), (0, 33661038412), (144820813, 0), (0, 19216), (0, 293)], [(11490428572, 0), (12913741,
    0), (0, 118194), (0, 98)], [(0, 6240698), (0, 20930), (103, 0)], [(4332, 0), (23, 0)]], 3, 4⟩, 68719476736,
    2792475, 2426480605974779824861097447105816716632972756170444215369789368326092506049969244894685664701, lc0⟩)
    (.leaf ⟨1727, 16, 41, 239, 16, 572, ⟨[[(137438953472, 0)], [(352187318272, 0)]], 3, 4⟩, ⟨[[(0, 377062054338),
    (3377431408897, 0), (46352585005, 0), (1370388791, 0), (42197868, 0)], [(116459005998, 0), (4081250178, 0),
    (160618236, 0), (6550579, 0), (302095, 0)], [(56064343, 0), (5168749, 0), (332121, 0), (20404, 0), (1585, 0)],
    [(44187, 0), (6376, 0), (618, 0), (65, 0), (7, 0)]], 3, 4⟩, 1099511627776, 0, 1777051716, ⟨[[(44482501665828, 0),
    (0, 33876561053), (176192082, 0), (0, 52110), (0, 610)], [(11228780783, 0), (10329526, 0), (0, 144756), (0, 148),
    (0, 1)], [(0, 6052659), (0, 18904), (122, 0)], [(4099, 0), (20, 0)]], 3, 4⟩, 68719476736, 4890342,
    3373981594377395168065448994619148098493318250039516372583323981389562373648681130674007265821, lc0⟩)) (.sx (.sy
    (.leaf ⟨1758, 16, 41, 348, 16, 816, ⟨[[(0, 137438953472)], [(352187318272, 0)]], 3, 4⟩, ⟨[[(477573927171, 0),
    (2597016251507, 0), (20130343079, 0), (321538077, 0), (5660723, 0)], [(172885702682, 0), (3296350238, 0),
    (70896946, 0), (1629881, 0), (46181, 0)], [(87253987, 0), (4333201, 0), (155223, 0), (5817, 0), (265, 0)],
    [(70964, 0), (5658, 0), (334, 0), (21, 0), (1, 0)]], 3, 4⟩, 1099511627776, 0, 881562301, ⟨[[(44663189273256, 0),
    (0, 22347551192), (83968068, 0), (0, 24011), (0, 169)], [(10907077507, 0), (5497647, 0), (0, 68635), (0, 53)],
    [(0, 5772746), (0, 11262), (56, 0)], [(3780, 0), (11, 0)]], 3, 4⟩, 68719476736, 1280990,
    2318163545967818873093201581939899606506111947180567496849878723968784946140203340531380657404, lc0⟩) (.leaf
    ⟨1758, 16, 41, 320, 16, 719, ⟨[[(0, 137438953472)], [(352187318272, 0)]], 3, 4⟩, ⟨[[(160097579836, 0),
    (2537067668467, 0), (24274828582, 0), (470415492, 0), (12003227, 0)], [(172388098743, 0), (3857449210, 0),
    (101800893, 0), (3298223, 0), (134158, 0)], [(106226669, 0), (6304520, 0), (311708, 0), (16796, 0), (870, 0)],
    [(108768, 0), (11778, 0), (988, 0), (70, 0), (4, 0)]], 3, 4⟩, 1099511627776, 0, 2279044631, ⟨[[(44343386156920,
    0), (0, 22492542644), (106432575, 0), (0, 50774), (0, 287)], [(10974492528, 0), (3831847, 0), (0, 91792), (0,
    91)], [(0, 5930633), (0, 10830), (74, 0)], [(3938, 0), (11, 0)]], 3, 4⟩, 68719476736, 3089768,
    3903736740011978391934719274681394727084117652811879077227930921027330678246223013020952664290, lc0⟩)) (.sy
    (.leaf ⟨1789, 16, 41, 320, 16, 717, ⟨[[(0, 412316860416)], [(352187318272, 0)]], 3, 4⟩, ⟨[[(134690677424, 0),
    (2600282796991, 0), (25268170283, 0), (489724110, 0), (12296736, 0)], [(168596977403, 0), (3800307190, 0),
    (100307401, 0), (3206189, 0), (130125, 0)], [(98654740, 0), (5849845, 0), (285857, 0), (15398, 0), (812, 0)],
    [(94158, 0), (10116, 0), (853, 0), (61, 0), (3, 0)]], 3, 4⟩, 1099511627776, 0, 1868371834, ⟨[[(44658113017612,
    0), (0, 22260852732), (104089623, 0), (0, 55033), (0, 290)], [(10620548822, 0), (3042467, 0), (0, 88131), (0,
    89)], [(0, 5591148), (0, 9795), (68, 0)], [(3569, 0), (9, 0)]], 3, 4⟩, 68719476736, 3823706,
    3965557494577869052736277538384070216877016017760594625448648861532171831120266192340421443584, lc0⟩) (.leaf
    ⟨1789, 16, 41, 284, 16, 608, ⟨[[(0, 412316860416)], [(352187318272, 0)]], 3, 4⟩, ⟨[[(316458815466, 0),
    (2518981330460, 0), (32235757695, 0), (868717517, 0), (31706066, 0)], [(166139714901, 0), (4671961733, 0),
    (172064187, 0), (8039735, 0), (389790, 0)], [(126152924, 0), (10130560, 0), (717655, 0), (46680, 0), (2461, 0)],
    [(173539, 0), (26418, 0), (2655, 0), (190, 0), (10, 0)]], 3, 4⟩, 1099511627776, 0, 5306282175,
    ⟨[[(44349062864804, 0), (0, 22637238379), (140936373, 0), (0, 104825), (215, 0)], [(10646028323, 0), (419157, 0),
    (0, 127745), (0, 103), (3, 0)], [(0, 5721955), (0, 9116), (99, 0)], [(3692, 0), (8, 0)]], 3, 4⟩, 68719476736,
    46124827, 4279560067271273377848961398321512862266056146371685554287703113292211180267177604659058698552, lc0⟩)))
theorem c39 : checkC job ⟨6, 8, 8, 10, 9, 13⟩ 1 25 lims t39 560 48 32 171 3 512 = true := by decide +kernel

def t40 : CTree :=
  .sx (.sx (.leaf ⟨1696, 16, 41, 225, 16, 522, ⟨[[(412316860416, 0)], [(352187318272, 0)]], 3, 4⟩, ⟨[[(205344249112,
    0), (3241699954753, 0), (51695369310, 0), (1714507667, 0), (70070314, 0)], [(119799684335, 0), (4702894230, 0),
    (211104061, 0), (11014899, 0), (744098, 0)], [(71120947, 0), (7330141, 0), (588804, 0), (52181, 0), (4980, 0)],
    [(70094, 0), (12416, 0), (1710, 0), (221, 0), (24, 0)]], 3, 4⟩, 1099511627776, 0, 4783109177, ⟨[[(43880369388661,
    0), (0, 34510666604), (215552027, 0), (0, 87681), (0, 982)], [(11694828531, 0), (10110602, 0), (0, 187996), (0,
    237), (0, 1)], [(0, 6605164), (0, 20631), (167, 0)], [(4734, 0), (23, 0)]], 3, 4⟩, 68719476736, 6720878,
    4326041733707865992554115175764323278597645656051880232496756484044839538247445578568598295310, lc0⟩) (.sy (.leaf
    ⟨1727, 16, 41, 322, 16, 726, ⟨[[(137438953472, 0)], [(352187318272, 0)]], 3, 4⟩, ⟨[[(0, 321349760433),
    (2473806005848, 0), (22968836147, 0), (438846685, 0), (11147407, 0)], [(176232162707, 0), (3869237656, 0),
    (100539144, 0), (3234061, 0), (129966, 0)], [(112867486, 0), (6610797, 0), (324041, 0), (17212, 0), (873, 0)],
    [(121810, 0), (13042, 0), (1074, 0), (74, 0), (4, 0)]], 3, 4⟩, 1099511627776, 0, 2643168741, ⟨[[(44022480831068,
    0), (0, 22643393991), (107406986, 0), (0, 45294), (0, 275)], [(11348823442, 0), (4703444, 0), (0, 94471), (0,
    92)], [(0, 6303544), (0, 11978), (80, 0)], [(4364, 0), (13, 0)]], 3, 4⟩, 68719476736, 2371977,
    3561144751245780384699750650557431948052180020376661964119609494251365796591986682473976661035, lc0⟩) (.leaf
    ⟨1727, 16, 41, 286, 16, 618, ⟨[[(137438953472, 0)], [(352187318272, 0)]], 3, 4⟩, ⟨[[(76108322942, 0),
    (2391657168959, 0), (29285822238, 0), (780655667, 0), (28083868, 0)], [(173640071496, 0), (4751384742, 0),
    (172543070, 0), (7930566, 0), (371668, 0)], [(144198799, 0), (11422515, 0), (792917, 0), (49747, 0), (2516, 0)],
    [(222463, 0), (32899, 0), (3172, 0), (218, 0), (11, 0)]], 3, 4⟩, 1099511627776, 0, 7112996533,
    ⟨[[(43726772726718, 0), (0, 23106882455), (145216235, 0), (0, 92445), (0, 155)], [(11395859938, 0), (2357910, 0),
    (0, 135734), (0, 139), (1, 0)], [(0, 6455095), (0, 11378), (116, 0)], [(4522, 0), (12, 0)]], 3, 4⟩, 68719476736,
    25648250, 3968902859738317364798344507010428568105825148615619252157006423403926408348265944690253902250, lc0⟩)))
    (.sx (.sy (.leaf ⟨1758, 16, 41, 284, 16, 610, ⟨[[(0, 137438953472)], [(352187318272, 0)]], 3, 4⟩,
    ⟨[[(137807057219, 0), (2454423513043, 0), (31028239327, 0), (840197466, 0), (30676837, 0)], [(169797059383, 0),
    (4749588461, 0), (175614756, 0), (8205750, 0), (392066, 0)], [(136074928, 0), (10964655, 0), (775199, 0), (49640,
    0), (2562, 0)], [(200607, 0), (30315, 0), (2990, 0), (209, 0), (11, 0)]], 3, 4⟩, 1099511627776, 0, 6299196978,
    ⟨[[(44034649276182, 0), (0, 22854361420), (144327439, 0), (0, 100759), (34, 0)], [(11010744876, 0), (1255318, 0),
    (0, 132976), (0, 122), (2, 0)], [(0, 6073974), (0, 10128), (108, 0)], [(4081, 0), (10, 0)]], 3, 4⟩, 68719476736,
    36644583, 4238633589204000354827092663343335697986615260907818391273234481728698221366900835925181796829, lc0⟩)
    (.sx (.leaf ⟨3500, 16, 82, 351, 16, 728, ⟨[[(412316860416, 0)], [(352187318272, 0)]], 3, 4⟩, ⟨[[(317096755001,
    0), (3308239495694, 0), (55754686940, 0), (2017678267, 0), (86017144, 0)], [(117065826289, 0), (4175781955, 0),
    (209147563, 0), (11638691, 0), (568529, 0)], [(62514572, 0), (6664999, 0), (561584, 0), (36973, 0), (1841, 0)],
    [(64463, 0), (11377, 0), (1147, 0), (77, 0), (4, 0)]], 3, 4⟩, 1099511627776, 0, 2213706371, ⟨[[(43729824870203,
    0), (0, 16720634240), (100162857, 0), (0, 40290), (914, 0)], [(5554601002, 0), (0, 556975), (0, 47844), (19, 0),
    (2, 0)], [(0, 1566623), (0, 1686), (21, 0)], [(536, 0), (1, 0)]], 3, 4⟩, 68719476736, 35315533,
    2680724571703380648158431060213814128805277583596157483399855254520810405935951890621582276840, lc0⟩) (.sy (.leaf
    ⟨3531, 16, 82, 507, 16, 1033, ⟨[[(137438953472, 0)], [(352187318272, 0)]], 3, 4⟩, ⟨[[(0, 334346273644),
    (2524054989836, 0), (24183578108, 0), (481641231, 0), (10682101, 0)], [(174757153106, 0), (3478511909, 0),
    (96715679, 0), (2818409, 0), (69456, 0)], [(102157376, 0), (6006223, 0), (265411, 0), (8829, 0), (219, 0)],
    [(114060, 0), (10514, 0), (535, 0), (18, 0)]], 3, 4⟩, 1099511627776, 0, 1276226549, ⟨[[(43798901675166, 0), (0,
    10922412336), (48800919, 0), (0, 963), (500, 0)], [(5452989727, 0), (0, 874560), (0, 22576), (35, 0), (1, 0)],
    [(0, 1527468), (0, 951), (11, 0)], [(512, 0)]], 3, 4⟩, 68719476736, 9837222,
    1823779170713902297368699977867103073836690043141520595139118077879792398809244794378895439007, lc0⟩) (.sx (.leaf
    ⟨7090, 16, 165, 644, 16, 1286, ⟨[[(0, 171798691840)], [(354334801920, 0)]], 3, 4⟩, ⟨[[(0, 299137316286),
    (3438988066251, 0), (39799383692, 0), (892362159, 0), (20392609, 0)], [(120105960295, 0), (2830791416, 0),
    (89827048, 0), (2719317, 0), (66425, 0)], [(42457330, 0), (2822001, 0), (129680, 0), (4282, 0), (104, 0)],
    [(27426, 0), (2610, 0), (132, 0), (4, 0)]], 3, 4⟩, 1099511627776, 0, 264906376, ⟨[[(43650735163509, 0), (0,
    7956019348), (31833916, 0), (14653, 0), (409, 0)], [(2715797846, 0), (0, 524024), (0, 6696), (24, 0)], [(0,
    382253), (0, 142), (2, 0)], [(64, 0)]], 3, 4⟩, 68719476736, 5466174,
    2779015388281758402206014999132240557311118676438873121249452647579108580717957246958093326471, lc0⟩) (.sy (.leaf
    ⟨7121, 16, 165, 937, 16, 1854, ⟨[[(0, 240518168576)], [(354334801920, 0)]], 3, 4⟩, ⟨[[(0, 547344715886),
    (2593381046169, 0), (16116114012, 0), (187697941, 0), (2169380, 0)], [(179004709748, 0), (2248671722, 0),
    (37252248, 0), (571729, 0), (6994, 0)], [(66787182, 0), (2311785, 0), (53890, 0), (891, 0), (11, 0)], [(44493,
    0), (2145, 0), (54, 0), (1, 0)]], 3, 4⟩, 1099511627776, 0, 203886063, ⟨[[(43688350832829, 0), (0, 5268076979),
    (15396467, 0), (9001, 0), (130, 0)], [(2688893243, 0), (0, 421595), (0, 2910), (12, 0)], [(0, 377111), (0, 79),
    (1, 0)], [(63, 0)]], 3, 4⟩, 68719476736, 1193855,
    3072113534404093616787253679710587253792246761762905090110632012407609233312922169276978171428, lc0⟩)
    (.skip)))))) (.sy (.sx (.leaf ⟨3562, 16, 82, 348, 16, 717, ⟨[[(0, 137438953472)], [(352187318272, 0)]], 3, 4⟩,
    ⟨[[(0, 130576679102), (3370253887640, 0), (57714675598, 0), (2100197943, 0), (90712914, 0)], [(113589692262, 0),
    (4090481126, 0), (206209463, 0), (11629068, 0), (578913, 0)], [(57761754, 0), (6205008, 0), (530626, 0), (35622,
    0), (1810, 0)], [(56443, 0), (10145, 0), (1045, 0), (72, 0), (4, 0)]], 3, 4⟩, 1099511627776, 0, 2161022940,
    ⟨[[(44029640451489, 0), (0, 16557182265), (100041377, 0), (0, 28665), (1488, 0)], [(5364285141, 0), (0, 983554),
    (0, 46460), (55, 0), (3, 0)], [(0, 1475583), (0, 1477), (20, 0)], [(484, 0), (1, 0)]], 3, 4⟩, 68719476736,
    50836686, 3482442877871071697704028472999324048601197547770808683406770238325714972232428928770152879547, lc0⟩)
    (.sy (.leaf ⟨3593, 16, 82, 508, 16, 1032, ⟨[[(0, 412316860416)], [(352187318272, 0)]], 3, 4⟩, ⟨[[(517925509486,
    0), (2592527565829, 0), (24911100509, 0), (495490876, 0), (11118865, 0)], [(170983131569, 0), (3396774033, 0),
    (94303898, 0), (2779758, 0), (69822, 0)], [(94044712, 0), (5531896, 0), (247608, 0), (8399, 0), (213, 0)],
    [(98804, 0), (9261, 0), (482, 0), (17, 0)]], 3, 4⟩, 1099511627776, 0, 1081797018, ⟨[[(44114954941328, 0), (0,
    10849083898), (47548141, 0), (4981, 0), (630, 0)], [(5267772406, 0), (0, 1051858), (0, 21120), (48, 0), (1, 0)],
    [(0, 1438201), (0, 845), (10, 0)], [(463, 0)]], 3, 4⟩, 68719476736, 12045974,
    2577021508741014626656722939086863756756632100118301579626822096083616235886484561680088952051, lc0⟩) (.sx (.leaf
    ⟨7214, 16, 165, 639, 16, 1270, ⟨[[(0, 446676598784)], [(354334801920, 0)]], 3, 4⟩, ⟨[[(134764685622, 0),
    (3499808865338, 0), (40771133482, 0), (919495317, 0), (21340088, 0)], [(116364899841, 0), (2747750860, 0),
    (87703327, 0), (2696104, 0), (67148, 0)], [(38881383, 0), (2604095, 0), (121648, 0), (4096, 0), (102, 0)],
    [(23847, 0), (2313, 0), (119, 0), (4, 0)]], 3, 4⟩, 1099511627776, 0, 248528257, ⟨[[(43957551492540, 0), (0,
    7931918020), (32015770, 0), (24677, 0), (558, 0)], [(2622102064, 0), (0, 602237), (0, 6083), (33, 0), (1, 0)],
    [(0, 359945), (0, 119), (2, 0)], [(58, 0)]], 3, 4⟩, 68719476736, 7199696,
    3927769673465715997268702627353444363857485070552155178923069192637495498318599786035220578912, lc0⟩) (.skip))))
    (.sx (.sy (.sx (.leaf ⟨7152, 16, 165, 640, 16, 1275, ⟨[[(0, 309237645312)], [(354334801920, 0)]], 3, 4⟩,
    ⟨[[(187895521036, 0), (3468321554701, 0), (40417387836, 0), (910673978, 0), (20983759, 0)], [(118173099469, 0),
    (2797213592, 0), (89222953, 0), (2723545, 0), (67172, 0)], [(40757673, 0), (2725045, 0), (126333, 0), (4212, 0),
    (103, 0)], [(25713, 0), (2471, 0), (126, 0), (4, 0)]], 3, 4⟩, 1099511627776, 0, 257543075, ⟨[[(43805577283892,
    0), (0, 7961391417), (32052538, 0), (19382, 0), (483, 0)], [(2668287614, 0), (0, 565504), (0, 6433), (28, 0)],
    [(0, 370821), (0, 131), (2, 0)], [(61, 0)]], 3, 4⟩, 68719476736, 6352346,
    3364418320689664012514467787113097612194592064067319235653561048619465182796704932962340120174, lc0⟩) (.skip))
    (.skip)) (.skip))))
theorem c40 : checkC job ⟨6, 8, 8, 10, 9, 13⟩ 1 25 lims t40 560 48 32 177 3 512 = true := by decide +kernel

def t41 : CTree :=
  .sy (.sx (.sx (.sy (.leaf ⟨1819, 16, 41, 287, 16, 613, ⟨[[(412316860416, 0)], [(352187318272, 0)]], 3, 4⟩,
    ⟨[[(61152306376, 0), (2590798044251, 0), (32963315347, 0), (866886324, 0), (31105232, 0)], [(163019584240, 0),
    (4538367484, 0), (163048445, 0), (7485009, 0), (366234, 0)], [(115317297, 0), (9049703, 0), (631300, 0), (41487,
    0), (2237, 0)], [(144561, 0), (21837, 0), (2227, 0), (163, 0), (9, 0)]], 3, 4⟩, 1099511627776, 0, 4271357576,
    ⟨[[(44648534715012, 0), (0, 22268824371), (134752535, 0), (0, 104249), (386, 0)], [(10312245543, 0), (0, 264850),
    (0, 120280), (0, 82), (3, 0)], [(0, 5410544), (0, 8218), (89, 0)], [(3363, 0), (7, 0)]], 3, 4⟩, 68719476736,
    52275314, 4133389193076905267306078701120868086981397968528724141756911470874375754473652862384830578070, lc0⟩)
    (.sx (.leaf ⟨3623, 16, 82, 348, 16, 715, ⟨[[(412316860416, 0)], [(352187318272, 0)]], 3, 4⟩, ⟨[[(0,
    117669043295), (3433915606757, 0), (58313382105, 0), (2091155954, 0), (90694830, 0)], [(110322152239, 0),
    (3924635581, 0), (194785651, 0), (11020680, 0), (558525, 0)], [(52187836, 0), (5533553, 0), (475572, 0), (32522,
    0), (1690, 0)], [(47213, 0), (8577, 0), (902, 0), (64, 0), (3, 0)]], 3, 4⟩, 1099511627776, 0, 2025099258,
    ⟨[[(44335389738834, 0), (0, 16479168649), (97762710, 0), (0, 18129), (1905, 0)], [(5188325458, 0), (0, 1245727),
    (0, 44111), (82, 0), (4, 0)], [(0, 1392549), (0, 1330), (19, 0)], [(439, 0), (1, 0)]], 3, 4⟩, 68719476736,
    61548554, 4194767733008570118177515488212779101545212895973026479669524138349331375709568838197817653033, lc0⟩)
    (.sy (.leaf ⟨3654, 16, 82, 516, 16, 1046, ⟨[[(137438953472, 0)], [(352187318272, 0)]], 3, 4⟩, ⟨[[(271191652119,
    0), (2666289756193, 0), (25052546813, 0), (488150239, 0), (11000893, 0)], [(167668000823, 0), (3249328697, 0),
    (88182727, 0), (2607186, 0), (66724, 0)], [(84669804, 0), (4885171, 0), (219698, 0), (7597, 0), (197, 0)],
    [(81853, 0), (7754, 0), (412, 0), (15, 0)]], 3, 4⟩, 1099511627776, 0, 874642910, ⟨[[(44419156444430, 0), (0,
    10670256240), (45097163, 0), (10877, 0), (722, 0)], [(5096035351, 0), (0, 1178356), (0, 19196), (58, 0), (1, 0)],
    [(0, 1358273), (0, 750), (9, 0)], [(421, 0)]], 3, 4⟩, 68719476736, 13275200,
    3056986913274250730751587968039644072170819874894890078529859845894470553479518605584268229659, lc0⟩) (.skip))))
    (.sy (.sx (.leaf ⟨3685, 16, 82, 351, 16, 722, ⟨[[(0, 137438953472)], [(352187318272, 0)]], 3, 4⟩,
    ⟨[[(416055255231, 0), (3503318835750, 0), (57724316299, 0), (1998195892, 0), (86087737, 0)], [(107386382037, 0),
    (3701610643, 0), (176881510, 0), (9922260, 0), (511141, 0)], [(46271657, 0), (4742079, 0), (404941, 0), (28172,
    0), (1499, 0)], [(37813, 0), (6881, 0), (738, 0), (53, 0), (3, 0)]], 3, 4⟩, 1099511627776, 0, 1822825414,
    ⟨[[(44658505651440, 0), (0, 16476739956), (93281083, 0), (0, 15556), (1977, 0)], [(5021116013, 0), (0, 1357308),
    (0, 41143), (87, 0), (4, 0)], [(0, 1314138), (0, 1233), (17, 0)], [(399, 0), (1, 0)]], 3, 4⟩, 68719476736,
    62789190, 4507854075984658107005459044015282611859453070542617632738947965923517194447171653866506820860, lc0⟩)
    (.sy (.leaf ⟨3716, 16, 82, 528, 16, 1071, ⟨[[(0, 412316860416)], [(352187318272, 0)]], 3, 4⟩, ⟨[[(84296469185,
    0), (2738251215788, 0), (24605198074, 0), (460123050, 0), (10314447, 0)], [(164354023606, 0), (3045606273, 0),
    (79020568, 0), (2318809, 0), (60410, 0)], [(74555997, 0), (4132127, 0), (184851, 0), (6513, 0), (173, 0)],
    [(64711, 0), (6151, 0), (334, 0), (12, 0)]], 3, 4⟩, 1099511627776, 0, 672255522, ⟨[[(44733483809443, 0), (0,
    10523167940), (41901937, 0), (12734, 0), (719, 0)], [(4932724742, 0), (0, 1226833), (0, 17285), (59, 0), (1, 0)],
    [(0, 1283322), (0, 685), (8, 0)], [(383, 0)]], 3, 4⟩, 68719476736, 12772357,
    3212700418847790563903634952106158501997586343991991659011168736914990063474490772697990215565, lc0⟩) (.skip)))
    (.skip))) (.skip)) (.skip)
theorem c41 : checkC job ⟨6, 8, 8, 10, 9, 13⟩ 1 25 lims t41 656 48 32 87 3 256 = true := by decide +kernel

def t42 : CTree :=
  .sx (.sx (.sy (.leaf ⟨1696, 16, 41, 290, 16, 632, ⟨[[(412316860416, 0)], [(352187318272, 0)]], 3, 4⟩,
    ⟨[[(77971417178, 0), (2330059338201, 0), (27082950782, 0), (696159150, 0), (24310541, 0)], [(177608366350, 0),
    (4674284167, 0), (163027964, 0), (7250432, 0), (331625, 0)], [(150016697, 0), (11442450, 0), (767130, 0), (46905,
    0), (2326, 0)], [(236527, 0), (33732, 0), (3166, 0), (213, 0), (10, 0)]], 3, 4⟩, 1099511627776, 0, 7639350817,
    ⟨[[(43424255964389, 0), (0, 23387972255), (143591230, 0), (0, 79924), (0, 288)], [(11801256481, 0), (3707257, 0),
    (0, 135952), (0, 148), (1, 0)], [(0, 6868763), (0, 12893), (122, 0)], [(5025, 0), (14, 0)]], 3, 4⟩, 68719476736,
    15787507, 3489760932396493755811803691142129034933668216787720953819618682152588482102672499105944115670, lc0⟩)
    (.sx (.leaf ⟨3377, 16, 82, 371, 16, 783, ⟨[[(412316860416, 0)], [(352187318272, 0)]], 3, 4⟩, ⟨[[(0,
    193018251655), (3204309852242, 0), (48418171535, 0), (1631496404, 0), (66029406, 0)], [(125209156516, 0),
    (4093853086, 0), (189243851, 0), (9953310, 0), (466241, 0)], [(68539241, 0), (6761431, 0), (536840, 0), (33855,
    0), (1627, 0)], [(73450, 0), (12189, 0), (1176, 0), (77, 0), (4, 0)]], 3, 4⟩, 1099511627776, 0, 2064618619,
    ⟨[[(43126848570746, 0), (0, 16711254172), (92717412, 0), (0, 41753), (163, 0)], [(5964802899, 0), (508726, 0),
    (0, 46078), (0, 24), (1, 0)], [(0, 1774261), (0, 2179), (21, 0)], [(662, 0), (1, 0)]], 3, 4⟩, 68719476736,
    12160458, 2355075749699400156811182576568154983054923842491140248798083443580938534336911890675889507615, lc0⟩)
    (.leaf ⟨3408, 16, 82, 328, 16, 671, ⟨[[(137438953472, 0)], [(352187318272, 0)]], 3, 4⟩, ⟨[[(0, 329131099199),
    (3147014364486, 0), (62352637440, 0), (2552624423, 0), (110991831, 0)], [(120664928541, 0), (4978955900, 0),
    (285246826, 0), (16352676, 0), (772669, 0)], [(82601409, 0), (9946731, 0), (863561, 0), (55107, 0), (2611, 0)],
    [(107188, 0), (19274, 0), (1879, 0), (121, 0), (6, 0)]], 3, 4⟩, 1099511627776, 0, 3301974399, ⟨[[(43126446092990,
    0), (0, 16999050484), (122746128, 0), (0, 27661), (1861, 0)], [(5854900154, 0), (0, 790971), (0, 60778), (66, 0),
    (4, 0)], [(0, 1735946), (0, 1838), (30, 0)], [(636, 0), (1, 0)]], 3, 4⟩, 68719476736, 66463852,
    3145023343581812624798063157000657000784154448484308739617175473661755785789784804075540361543, lc0⟩))) (.sy (.sx
    (.leaf ⟨3439, 16, 82, 359, 16, 750, ⟨[[(0, 137438953472)], [(352187318272, 0)]], 3, 4⟩, ⟨[[(0, 17158157163),
    (3253764871681, 0), (52595991154, 0), (1855372066, 0), (77416785, 0)], [(120964455892, 0), (4177682162, 0),
    (203321310, 0), (11057622, 0), (529417, 0)], [(66196888, 0), (6861219, 0), (564188, 0), (36388, 0), (1779, 0)],
    [(70404, 0), (12104, 0), (1195, 0), (79, 0), (4, 0)]], 3, 4⟩, 1099511627776, 0, 2180749775, ⟨[[(43427946070208,
    0), (0, 16711097683), (97519277, 0), (0, 43822), (482, 0)], [(5752465713, 0), (0, 83260), (0, 47638), (0, 6), (1,
    0)], [(0, 1665227), (0, 1906), (21, 0)], [(594, 0), (1, 0)]], 3, 4⟩, 68719476736, 22468425,
    1976244695441836598348713799254392410209485972616572510227152413987871490590746316217267394429, lc0⟩) (.leaf
    ⟨3470, 16, 82, 317, 16, 642, ⟨[[(0, 412316860416)], [(352187318272, 0)]], 3, 4⟩, ⟨[[(0, 152095426696),
    (3193358121307, 0), (67240918834, 0), (2853908007, 0), (127140055, 0)], [(116415484053, 0), (5056227097, 0),
    (301698983, 0), (17749026, 0), (855024, 0)], [(79351476, 0), (9943178, 0), (886799, 0), (57706, 0), (2781, 0)],
    [(101203, 0), (18704, 0), (1860, 0), (121, 0), (6, 0)]], 3, 4⟩, 1099511627776, 0, 3420871643, ⟨[[(43427625114974,
    0), (0, 16999450493), (130017975, 0), (12954, 0), (3691, 0)], [(5642731787, 0), (0, 1446988), (0, 61195), (176,
    0), (7, 0)], [(0, 1629374), (0, 1550), (32, 0)], [(571, 0), (1, 0)]], 3, 4⟩, 68719476736, 121350056,
    3993364703549732644084594245213828966203810539091191290505533220534695035551260938806815914529, lc0⟩)) (.sx (.sy
    (.leaf ⟨3439, 16, 82, 458, 16, 920, ⟨[[(0, 137438953472)], [(352187318272, 0)]], 3, 4⟩, ⟨[[(119584563072, 0),
    (2376853320345, 0), (27728937227, 0), (622119153, 0), (13920256, 0)], [(178050016498, 0), (4245526631, 0),
    (134948488, 0), (4005345, 0), (95038, 0)], [(138226554, 0), (9175764, 0), (413085, 0), (13251, 0), (313, 0)],
    [(193971, 0), (18022, 0), (883, 0), (28, 0), (1, 0)]], 3, 4⟩, 1099511627776, 0, 2340270759, ⟨[[(43207853005803,
    0), (0, 11352526846), (64357872, 0), (16840, 0), (1092, 0)], [(5741491562, 0), (0, 1168213), (0, 30017), (84, 0),
    (2, 0)], [(0, 1687958), (0, 1009), (17, 0)], [(606, 0), (1, 0)]], 3, 4⟩, 68719476736, 22094828,
    2852428104718498099158191829654161625355755342512037216438476818379631848042170340773815421941, lc0⟩) (.sx (.leaf
    ⟨6904, 16, 165, 582, 16, 1144, ⟨[[(240518168576, 0)], [(354334801920, 0)]], 3, 4⟩, ⟨[[(0, 516827723417),
    (3290253010541, 0), (46529035187, 0), (1135689458, 0), (25685799, 0)], [(124221123540, 0), (3533667136, 0),
    (123927282, 0), (3740912, 0), (87600, 0)], [(58628832, 0), (4263143, 0), (195446, 0), (6194, 0), (143, 0)],
    [(45931, 0), (4326, 0), (209, 0), (7, 0)]], 3, 4⟩, 1099511627776, 0, 405599883, ⟨[[(43054901009918, 0), (0,
    8070767063), (42633003, 0), (40987, 0), (895, 0)], [(2859479694, 0), (0, 689591), (0, 8421), (52, 0), (1, 0)],
    [(0, 422540), (0, 126), (3, 0)], [(76, 0)]], 3, 4⟩, 68719476736, 11654676,
    5134724472196293134228156702092354388029897968119233593918099491981206795103755456050818876694, lc0⟩) (.sy (.sx
    (.leaf ⟨13855, 16, 330, 1177, 16, 2300, ⟨[[(0, 171798691840)], [(354334801920, 0)]], 3, 4⟩, ⟨[[(0, 506470095492),
    (3426008975130, 0), (25378326578, 0), (315636648, 0), (3588491, 0)], [(128104636027, 0), (1901917286, 0),
    (34094550, 0), (517902, 0), (6071, 0)], [(31291654, 0), (1161682, 0), (26808, 0), (425, 0), (5, 0)], [(12407, 0),
    (588, 0), (14, 0)]], 3, 4⟩, 1099511627776, 0, 39136622, ⟨[[(43094632353702, 0), (0, 3876825246), (10623255, 0),
    (6883, 0), (67, 0)], [(1418632631, 0), (0, 186545), (0, 946), (4, 0)], [(0, 104406), (0, 12)], [(9, 0)]], 3, 4⟩,
    68719476736, 459715,
    3766466537655561503530646612339394713004278494311343213673169348763159736667194650770364939414, lc0⟩) (.skip))
    (.skip)))) (.sy (.sx (.sy (.leaf ⟨6966, 16, 165, 887, 16, 1748, ⟨[[(103079215104, 0)], [(354334801920, 0)]], 3,
    4⟩, ⟨[[(0, 10293655051), (2492964795497, 0), (16999714750, 0), (205234464, 0), (2338560, 0)], [(183398308054, 0),
    (2519383227, 0), (43578920, 0), (661786, 0), (7850, 0)], [(81000533, 0), (2910809, 0), (67126, 0), (1077, 0),
    (13, 0)], [(60737, 0), (2882, 0), (71, 0), (1, 0)]], 3, 4⟩, 1099511627776, 0, 292438574, ⟨[[(43242781996257, 0),
    (0, 5392383552), (17962893, 0), (10897, 0), (161, 0)], [(2808978123, 0), (0, 445409), (0, 3528), (14, 0)], [(0,
    408614), (0, 85), (1, 0)], [(72, 0)]], 3, 4⟩, 68719476736, 1510339,
    3409604831115279091866715554210543090083869698180605127792103710394041255456833325238665142254, lc0⟩) (.sx (.leaf
    ⟨13917, 16, 330, 1166, 16, 2272, ⟨[[(0, 309237645312)], [(354334801920, 0)]], 3, 4⟩, ⟨[[(0, 293325117027),
    (3442512993738, 0), (25896030104, 0), (324574028, 0), (3709604, 0)], [(127065154038, 0), (1912655688, 0),
    (34584198, 0), (528213, 0), (6220, 0)], [(31036216, 0), (1162066, 0), (26967, 0), (430, 0), (5, 0)], [(12237, 0),
    (583, 0), (14, 0)]], 3, 4⟩, 1099511627776, 0, 38780658, ⟨[[(43169205755673, 0), (0, 3864019120), (10906351, 0),
    (8404, 0), (78, 0)], [(1405148709, 0), (0, 196486), (0, 895), (5, 0)], [(0, 102736), (0, 11)], [(9, 0)]], 3, 4⟩,
    68719476736, 525184,
    4619019700148578761412482180780300802511757730068845082881325285812469389526560236274833766111, lc0⟩) (.skip)))
    (.skip)) (.skip))))) (.sx (.sy (.sx (.sy (.sx (.leaf ⟨7028, 16, 165, 649, 16, 1302, ⟨[[(0, 34359738368)],
    [(354334801920, 0)]], 3, 4⟩, ⟨[[(288576566233, 0), (3408543911590, 0), (38886918476, 0), (864230821, 0),
    (19566717, 0)], [(122050408217, 0), (2844795549, 0), (89400921, 0), (2680718, 0), (64860, 0)], [(43903707, 0),
    (2888960, 0), (131434, 0), (4298, 0), (104, 0)], [(28909, 0), (2721, 0), (136, 0), (4, 0)]], 3, 4⟩,
    1099511627776, 0, 269362225, ⟨[[(43504733567566, 0), (0, 8015996028), (31372940, 0), (8650, 0), (316, 0)],
    [(2765394154, 0), (0, 458363), (0, 6963), (17, 0)], [(0, 394053), (0, 159), (2, 0)], [(68, 0)]], 3, 4⟩,
    68719476736, 4349184,
    2224770418570552563760525753207336173827772441095254612679644726999121361425093348503502324915, lc0⟩) (.sy (.leaf
    ⟨7059, 16, 165, 939, 16, 1865, ⟨[[(0, 103079215104)], [(354334801920, 0)]], 3, 4⟩, ⟨[[(0, 302592162680),
    (2558249246992, 0), (15724850349, 0), (181797532, 0), (2082432, 0)], [(181038284031, 0), (2255748636, 0),
    (37074639, 0), (563857, 0), (6832, 0)], [(68944990, 0), (2366403, 0), (54640, 0), (895, 0), (11, 0)], [(46894,
    0), (2237, 0), (56, 0), (1, 0)]], 3, 4⟩, 1099511627776, 0, 217522582, ⟨[[(43538918251122, 0), (0, 5320648706),
    (15319526, 0), (6546, 0), (106, 0)], [(2737808821, 0), (0, 387360), (0, 3118), (9, 0)], [(0, 388782), (0, 90),
    (1, 0)], [(66, 0)]], 3, 4⟩, 68719476736, 1008922,
    2494678616498522952031538446167354032877487735002419738408255406780997515504075254799940611082, lc0⟩) (.skip)))
    (.sx (.sy (.leaf ⟨7028, 16, 165, 879, 16, 1723, ⟨[[(0, 34359738368)], [(354334801920, 0)]], 3, 4⟩, ⟨[[(0,
    313623382366), (2526932575310, 0), (17637463756, 0), (215712803, 0), (2483115, 0)], [(181213636501, 0),
    (2539930297, 0), (44569021, 0), (683961, 0), (8187, 0)], [(79405523, 0), (2894817, 0), (67483, 0), (1093, 0),
    (13, 0)], [(58702, 0), (2817, 0), (70, 0), (1, 0)]], 3, 4⟩, 1099511627776, 0, 278656609, ⟨[[(43390019545619, 0),
    (0, 5326869004), (18466444, 0), (15983, 0), (212, 0)], [(2756882631, 0), (0, 493537), (0, 3216), (19, 0)], [(0,
    395971), (0, 68), (1, 0)], [(68, 0)]], 3, 4⟩, 68719476736, 1968666,
    4687824231189386812341170956898984189388794539280890776862837325228917115944235760844958211544, lc0⟩) (.skip))
    (.skip))) (.skip)) (.skip)) (.skip))
theorem c42 : checkC job ⟨6, 8, 8, 10, 9, 13⟩ 1 25 lims t42 560 48 32 183 3 512 = true := by decide +kernel

def t43 : CTree :=
  .sx (.sx (.sy (.sx (.sy (.leaf ⟨3377, 16, 82, 473, 16, 963, ⟨[[(412316860416, 0)], [(352187318272, 0)]], 3, 4⟩,
    ⟨[[(549546167293, 0), (2317891698303, 0), (24987704097, 0), (536719747, 0), (11704307, 0)], [(182760170749, 0),
    (4067591542, 0), (123050096, 0), (3553056, 0), (82736, 0)], [(139858343, 0), (8848214, 0), (387185, 0), (12189,
    0), (283, 0)], [(197834, 0), (17869, 0), (859, 0), (27, 0), (1, 0)]], 3, 4⟩, 1099511627776, 0, 2438813362,
    ⟨[[(42916788963420, 0), (0, 11554892007), (60468327, 0), (0, 5922), (495, 0)], [(5963178772, 0), (0, 607240), (0,
    30284), (28, 0), (1, 0)], [(0, 1799800), (0, 1275), (16, 0)], [(676, 0), (1, 0)]], 3, 4⟩, 68719476736, 11111398,
    2131366206112072739051136972268793325108598100221765925369211024118816579658891679682142504247, lc0⟩) (.sx (.leaf
    ⟨6780, 16, 165, 613, 16, 1223, ⟨[[(515396075520, 0)], [(354334801920, 0)]], 3, 4⟩, ⟨[[(0, 175698307428),
    (3240258805985, 0), (42007025355, 0), (983014266, 0), (21706190, 0)], [(128885241444, 0), (3389587414, 0),
    (113306900, 0), (3334844, 0), (76725, 0)], [(59369054, 0), (4120176, 0), (184067, 0), (5733, 0), (131, 0)],
    [(46933, 0), (4310, 0), (205, 0), (6, 0)]], 3, 4⟩, 1099511627776, 0, 394458291, ⟨[[(42765559035541, 0), (0,
    8169129081), (37743789, 0), (10578, 0), (382, 0)], [(2972842348, 0), (0, 456502), (0, 8928), (21, 0)], [(0,
    451018), (0, 187), (3, 0)], [(85, 0)]], 3, 4⟩, 68719476736, 5493225,
    2131941124767664106352203999357035914591855317172742879713660893679835570780131400480741630590, lc0⟩) (.sy (.leaf
    ⟨6811, 16, 165, 860, 16, 1697, ⟨[[(446676598784, 0)], [(354334801920, 0)]], 3, 4⟩, ⟨[[(45845901780, 0),
    (2395104835257, 0), (17011766503, 0), (206645898, 0), (2302573, 0)], [(188131519458, 0), (2690652040, 0),
    (46996760, 0), (699593, 0), (8052, 0)], [(93351187, 0), (3376526, 0), (76342, 0), (1190, 0), (14, 0)], [(76147,
    0), (3534, 0), (84, 0), (1, 0)]], 3, 4⟩, 1099511627776, 0, 383935509, ⟨[[(42803468878969, 0), (0, 5529580714),
    (19643809, 0), (9001, 0), (150, 0)], [(2941549288, 0), (0, 420409), (0, 4260), (13, 0)], [(0, 444346), (0, 103),
    (2, 0)], [(83, 0)]], 3, 4⟩, 68719476736, 1533685,
    2145441143168820549777277441637946596240194941279688996751990226033512576419769306963743237676, lc0⟩) (.sx (.leaf
    ⟨13607, 16, 330, 1144, 16, 2233, ⟨[[(377957122048, 0)], [(354334801920, 0)]], 3, 4⟩, ⟨[[(0, 182811012402),
    (3350267433818, 0), (26129855255, 0), (327512469, 0), (3653244, 0)], [(132046186209, 0), (2061093811, 0),
    (37393585, 0), (558600, 0), (6382, 0)], [(36070321, 0), (1351429, 0), (30682, 0), (475, 0), (5, 0)], [(15371, 0),
    (715, 0), (17, 0)]], 3, 4⟩, 1099511627776, 0, 47628298, ⟨[[(42731186036860, 0), (0, 3916601232), (11559962, 0),
    (6828, 0), (69, 0)], [(1471962410, 0), (0, 188297), (0, 1111), (4, 0)], [(0, 111762), (0, 14)], [(10, 0)]], 3,
    4⟩, 68719476736, 471146,
    2788162081850401852335577241167962934702177076166435712528380334990897799131723598313991336105, lc0⟩) (.sy (.leaf
    ⟨13638, 16, 330, 1626, 16, 3154, ⟨[[(309237645312, 0)], [(354334801920, 0)]], 3, 4⟩, ⟨[[(0, 483877518515),
    (2453239838172, 0), (10006872709, 0), (63683350, 0), (356338, 0)], [(192097103265, 0), (1563868673, 0),
    (14448403, 0), (108366, 0), (619, 0)], [(54466541, 0), (1038115, 0), (11836, 0), (92, 0), (1, 0)], [(23492, 0),
    (549, 0), (6, 0)]], 3, 4⟩, 1099511627776, 0, 54326233, ⟨[[(42749100326008, 0), (0, 2658847142), (5864119, 0),
    (3253, 0), (21, 0)], [(1463647976, 0), (0, 144562), (0, 498), (2, 0)], [(0, 110881), (0, 7)], [(10, 0)]], 3, 4⟩,
    68719476736, 121786,
    3390502434625531442366829168588937395027902526633349375547610904617320721992354444777061204051, lc0⟩)
    (.skip)))))) (.sy (.sx (.leaf ⟨6842, 16, 165, 596, 16, 1180, ⟨[[(377957122048, 0)], [(354334801920, 0)]], 3, 4⟩,
    ⟨[[(0, 262107540296), (3264482412668, 0), (44376844894, 0), (1062470678, 0), (23754870, 0)], [(126497778742, 0),
    (3472681629, 0), (119157110, 0), (3553724, 0), (82486, 0)], [(59210633, 0), (4214613, 0), (190849, 0), (5996, 0),
    (138, 0)], [(46698, 0), (4345, 0), (208, 0), (6, 0)]], 3, 4⟩, 1099511627776, 0, 402311041, ⟨[[(42910307145080,
    0), (0, 8132003662), (40205833, 0), (22924, 0), (598, 0)], [(2915426612, 0), (0, 578855), (0, 8829), (34, 0), (1,
    0)], [(0, 436462), (0, 157), (3, 0)], [(80, 0)]], 3, 4⟩, 68719476736, 8204467,
    3000925829157249736274323464175716754995813143092125314804241183555144627747004905879938239530, lc0⟩) (.sy (.leaf
    ⟨6873, 16, 165, 841, 16, 1648, ⟨[[(309237645312, 0)], [(354334801920, 0)]], 3, 4⟩, ⟨[[(487753235781, 0),
    (2428002135376, 0), (18019053960, 0), (223381916, 0), (2518076, 0)], [(185774662584, 0), (2765468275, 0),
    (49434452, 0), (744890, 0), (8647, 0)], [(93384173, 0), (3454657, 0), (79083, 0), (1243, 0), (14, 0)], [(75770,
    0), (3560, 0), (85, 0), (1, 0)]], 3, 4⟩, 1099511627776, 0, 377091923, ⟨[[(42951491239021, 0), (0, 5480227988),
    (20782289, 0), (15371, 0), (221, 0)], [(2884642933, 0), (0, 494428), (0, 4021), (19, 0)], [(0, 429929), (0, 81),
    (2, 0)], [(78, 0)]], 3, 4⟩, 68719476736, 2136386,
    3999396738139777225901411817089505373553771280952404768853300763850576292897306974821442339335, lc0⟩) (.sx (.sy
    (.leaf ⟨13731, 16, 330, 1664, 16, 3236, ⟨[[(103079215104, 0)], [(354334801920, 0)]], 3, 4⟩, ⟨[[(26665704552, 0),
    (2482847429365, 0), (9799706686, 0), (61985011, 0), (349423, 0)], [(190604518959, 0), (1503382504, 0), (13770386,
    0), (103929, 0), (600, 0)], [(51126466, 0), (967368, 0), (11096, 0), (87, 0)], [(21366, 0), (502, 0), (6, 0)]],
    3, 4⟩, 1099511627776, 0, 48248510, ⟨[[(42895501554792, 0), (0, 2651715983), (5489258, 0), (2848, 0), (18, 0)],
    [(1443886878, 0), (0, 138179), (0, 471), (2, 0)], [(0, 108036), (0, 7)], [(10, 0)]], 3, 4⟩, 68719476736, 150292,
    3480479611526886737040053819925192773987016227635112136074439688510007442579440491581728128229, lc0⟩) (.sx (.leaf
    ⟨27488, 16, 661, 2247, 16, 4344, ⟨[[(335007449088, 0)], [(354871672832, 0)]], 3, 4⟩, ⟨[[(0, 446646529342),
    (3446946645471, 0), (14260401759, 0), (91499932, 0), (515784, 0)], [(132516850504, 0), (1092766378, 0),
    (10185815, 0), (76958, 0), (443, 0)], [(18662663, 0), (358882, 0), (4122, 0), (32, 0)], [(3980, 0), (94, 0), (1,
    0)]], 3, 4⟩, 1099511627776, 0, 5334440, ⟨[[(42858618933209, 0), (0, 1893108405), (3101086, 0), (1499, 0), (7,
    0)], [(720990284, 0), (0, 54625), (0, 116)], [(0, 27000), (0, 1)], [(1, 0)]], 3, 4⟩, 68719476736, 69845,
    4048316313207161317924417270440365879812835439647937703672456839508211780714880104021445647717, lc0⟩) (.sy (.leaf
    ⟨27519, 16, 661, 3231, 16, 6229, ⟨[[(317827579904, 0)], [(354871672832, 0)]], 3, 4⟩, ⟨[[(408843850998, 0),
    (2516603809089, 0), (5319293714, 0), (17187089, 0), (48512, 0)], [(192850743763, 0), (811503166, 0), (3814268,
    0), (14436, 0), (42, 0)], [(27648563, 0), (267976, 0), (1542, 0), (6, 0)], [(5928, 0), (70, 0)]], 3, 4⟩,
    1099511627776, 0, 6836999, ⟨[[(42869231593805, 0), (0, 1294294628), (1521016, 0), (572, 0), (2, 0)], [(718973955,
    0), (0, 39099), (0, 52)], [(0, 26891)], [(1, 0)]], 3, 4⟩, 68719476736, 36789,
    4354345410982769156355321559061960451735631321926208558208341262375814642813298306425083493042, lc0⟩) (.skip))))
    (.sy (.sx (.leaf ⟨27550, 16, 661, 2231, 16, 4306, ⟨[[(300647710720, 0)], [(354871672832, 0)]], 3, 4⟩,
    ⟨[[(199696726958, 0), (3454778257092, 0), (14438933629, 0), (93059904, 0), (525985, 0)], [(131942099470, 0),
    (1098322776, 0), (10289263, 0), (77955, 0), (449, 0)], [(18630434, 0), (360029, 0), (4147, 0), (32, 0)], [(3965,
    0), (94, 0), (1, 0)]], 3, 4⟩, 1099511627776, 0, 5357505, ⟨[[(42896264067607, 0), (0, 1890146234), (3166555, 0),
    (1671, 0), (7, 0)], [(717453013, 0), (0, 56047), (0, 111)], [(0, 26775), (0, 1)], [(1, 0)]], 3, 4⟩, 68719476736,
    81404, 4674382378575266754518022343867353086432821539461883668442828383371776743271998509876021962800, lc0⟩)
    (.skip)) (.skip))))) (.sx (.sy (.sx (.leaf ⟨13669, 16, 330, 1126, 16, 2189, ⟨[[(240518168576, 0)],
    [(354334801920, 0)]], 3, 4⟩, ⟨[[(0, 129556061344), (3363777649523, 0), (26862049526, 0), (340147511, 0),
    (3815758, 0)], [(130830936171, 0), (2087295332, 0), (38312135, 0), (575723, 0), (6605, 0)], [(36040618, 0),
    (1365669, 0), (31192, 0), (485, 0), (5, 0)], [(15319, 0), (717, 0), (17, 0)]], 3, 4⟩, 1099511627776, 0, 47486253,
    ⟨[[(42804067401894, 0), (0, 3898163988), (12071164, 0), (9008, 0), (87, 0)], [(1457320375, 0), (0, 203701), (0,
    1056), (5, 0)], [(0, 109903), (0, 11)], [(10, 0)]], 3, 4⟩, 68719476736, 615877,
    4048033510484803126108670033662100352818062258739512245934300303245841286585283622333736247768, lc0⟩) (.sy (.leaf
    ⟨13700, 16, 330, 1605, 16, 3101, ⟨[[(171798691840, 0)], [(354334801920, 0)]], 3, 4⟩, ⟨[[(0, 264884280084),
    (2470256758333, 0), (10306678596, 0), (66227165, 0), (372613, 0)], [(190874992824, 0), (1586942158, 0),
    (14822919, 0), (111812, 0), (641, 0)], [(54528980, 0), (1050435, 0), (12046, 0), (94, 0), (1, 0)], [(23442, 0),
    (551, 0), (7, 0)]], 3, 4⟩, 1099511627776, 0, 53798265, ⟨[[(42822506838911, 0), (0, 2636661120), (6107946, 0),
    (4167, 0), (26, 0)], [(1449062035, 0), (0, 153921), (0, 457), (2, 0)], [(0, 109027), (0, 5)], [(10, 0)]], 3, 4⟩,
    68719476736, 149511,
    4750893653229989481858039391701286930535956692983068174739532302724107200723606897973740969477, lc0⟩) (.sx (.sy
    (.leaf ⟨27426, 16, 661, 3191, 16, 6143, ⟨[[(369367187456, 0)], [(354871672832, 0)]], 3, 4⟩, ⟨[[(0, 125116259581),
    (2502351211660, 0), (5378979891, 0), (17425243, 0), (48993, 0)], [(193654972024, 0), (828303974, 0), (3908279,
    0), (14742, 0), (42, 0)], [(28559078, 0), (277697, 0), (1593, 0), (6, 0)], [(6218, 0), (73, 0)]], 3, 4⟩,
    1099511627776, 0, 7176496, ⟨[[(42796135611139, 0), (0, 1294232595), (1577226, 0), (615, 0), (2, 0)], [(723824188,
    0), (0, 40058), (0, 53)], [(0, 27238)], [(1, 0)]], 3, 4⟩, 68719476736, 29297,
    4389803390866137549395002386325362035726285228524676955989458916109655452558991659877808246463, lc0⟩) (.skip))
    (.skip)))) (.skip)) (.skip)))) (.sx (.sy (.sx (.sy (.leaf ⟨6780, 16, 165, 804, 16, 1568, ⟨[[(515396075520, 0)],
    [(354334801920, 0)]], 3, 4⟩, ⟨[[(0, 188710200861), (2363428225585, 0), (18690397659, 0), (234788425, 0),
    (2608851, 0)], [(188173983934, 0), (2976351566, 0), (54178647, 0), (806676, 0), (9168, 0)], [(105410716, 0),
    (3960212, 0), (89627, 0), (1380, 0), (15, 0)], [(91179, 0), (4228, 0), (99, 0), (2, 0)]], 3, 4⟩, 1099511627776,
    0, 467411783, ⟨[[(42657929039174, 0), (0, 5532587584), (23592002, 0), (19941, 0), (285, 0)], [(2964706055, 0),
    (0, 538891), (0, 4554), (24, 0)], [(0, 453061), (0, 78), (2, 0)], [(86, 0)]], 3, 4⟩, 68719476736, 2816990,
    3839321733808953381850222673532931707671865591246385267587621942659790211458291602964650644552, lc0⟩) (.skip))
    (.skip)) (.skip)) (.skip))) (.sy (.sx (.sy (.sx (.sy (.sx (.sy (.leaf ⟨13793, 16, 330, 1647, 16, 3192, ⟨[[(0,
    34359738368)], [(354334801920, 0)]], 3, 4⟩, ⟨[[(381814204152, 0), (2500761543361, 0), (10065360388, 0),
    (64233309, 0), (364060, 0)], [(189470308805, 0), (1521519683, 0), (14076736, 0), (106839, 0), (619, 0)],
    [(51042317, 0), (975281, 0), (11251, 0), (88, 0), (1, 0)], [(21241, 0), (502, 0), (6, 0)]], 3, 4⟩, 1099511627776,
    0, 47619983, ⟨[[(42969615977920, 0), (0, 2633533835), (5667962, 0), (3548, 0), (22, 0)], [(1429795407, 0), (0,
    146087), (0, 436), (2, 0)], [(0, 106264), (0, 6)], [(10, 0)]], 3, 4⟩, 68719476736, 121968,
    4547577675880277405039023534574452751031825242298500956596063294545364382285093433657166787691, lc0⟩) (.skip))
    (.skip)) (.skip)) (.skip)) (.skip)) (.skip)) (.skip))) (.skip)
theorem c43 : checkC job ⟨6, 8, 8, 10, 9, 13⟩ 1 25 lims t43 560 48 32 189 3 512 = true := by decide +kernel

def t44 : CTree :=
  .skip
theorem c44 : checkC job ⟨6, 8, 8, 10, 9, 13⟩ 1 25 lims t44 656 48 32 93 3 256 = true := by decide +kernel

def t45 : CTree :=
  .skip
theorem c45 : checkC job ⟨6, 8, 8, 10, 9, 13⟩ 1 25 lims t45 400 48 16 45 3 128 = true := by decide +kernel

def t46 : CTree :=
  .sy (.sx (.sy (.out ⟨575, 16, 20, 1893, 16, 1205, ⟨[[], [(343597383680, 0)]], 1, 1⟩, ⟨[[(372344269416, 0), (0,
    2945727168511)], [(0, 160160123038), (0, 1246931697)]], 1, 1⟩, 1099511627776, 0, 77174006935, ⟨[], 0, 0⟩, 0, 0,
    0, lc0⟩ 0 1 643629019462) (.sx (.out ⟨1135, 16, 40, 2421, 16, 1551, ⟨[[], [(343597383680, 0)]], 1, 1⟩, ⟨[[(0,
    161796495928), (0, 3806528308588)], [(0, 107533720519), (0, 858097886)]], 1, 1⟩, 1099511627776, 0, 65040381813,
    ⟨[], 0, 0⟩, 0, 0, 0, lc0⟩ 0 1 434956421721) (.sy (.out ⟨1165, 16, 40, 3662, 16, 2350, ⟨[[], [(343597383680, 0)]],
    1, 1⟩, ⟨[[(0, 347212087583), (0, 2934965794355)], [(0, 162622286044), (0, 655035924)]], 1, 1⟩, 1099511627776, 0,
    40062897613, ⟨[], 0, 0⟩, 0, 0, 0, lc0⟩ 0 1 297072493766) (.sx (.out ⟨2344, 16, 81, 4738, 16, 3051, ⟨[[(0,
    68719476736)], [(347892350976, 0)]], 1, 1⟩, ⟨[[(0, 227315771171), (0, 3821297029384)], [(0, 107890776301), (0,
    440320298)]], 1, 1⟩, 1099511627776, 0, 33245994986, ⟨[], 0, 0⟩, 0, 0, 0, lc0⟩ 0 1 189705834027) (.leaf ⟨4454, 16,
    82, 770, 16, 3077, ⟨[[(0, 412316860416)], [(352187318272, 0)]], 3, 4⟩, ⟨[[(0, 46910446142), (3896799522927, 0),
    (2887105480, 0), (13541613, 0), (34797, 0)], [(109376020034, 0), (450473248, 0), (1606658, 0), (5872, 0), (21,
    0)], [(2940050, 0), (33340, 0), (208, 0), (1, 0)], [(0, 51)]], 3, 4⟩, 1099511627776, 0, 208914,
    ⟨[[(53184918595319, 0), (0, 10541006418), (4493344, 0), (114, 0)], [(3253785867, 0), (1243114, 0), (0, 1132)],
    [(0, 479885), (0, 558)], [(74, 0)]], 3, 4⟩, 68719476736, 45156,
    4180770224701659791868358491651873986626571115471924951143967615086405484608587596502331447380, lc0⟩))))) (.sy
    (.sx (.out ⟨1195, 16, 40, 2400, 16, 1536, ⟨[[], [(343597383680, 0)]], 1, 1⟩, ⟨[[(0, 49462261831), (0,
    3871617479868)], [(0, 103505098072), (0, 826556837)]], 1, 1⟩, 1099511627776, 0, 64508049725, ⟨[], 0, 0⟩, 0, 0, 0,
    lc0⟩ 0 1 322863303579) (.sy (.sx (.out ⟨2465, 16, 81, 4785, 16, 3064, ⟨[[(481036337152, 0)], [(347892350976,
    0)]], 1, 1⟩, ⟨[[(0, 526138633902), (0, 3905506179612)], [(0, 102689788825), (0, 411502827)]], 1, 1⟩,
    1099511627776, 0, 30740139580, ⟨[], 0, 0⟩, 0, 0, 0, lc0⟩ 0 1 247441321546) (.leaf ⟨4577, 16, 82, 747, 16, 3093,
    ⟨[[(0, 412316860416)], [(352187318272, 0)]], 3, 4⟩, ⟨[[(0, 368529968135), (3982594576312, 0), (2764806577, 0),
    (13300709, 0), (32623, 0)], [(104113538554, 0), (420509832, 0), (1457530, 0), (5166, 0), (17, 0)], [(2342766, 0),
    (26560, 0), (160, 0), (1, 0)], [(0, 75), (0, 1)]], 3, 4⟩, 1099511627776, 0, 364696, ⟨[[(53860437990878, 0), (0,
    10575149882), (4304486, 0), (111, 0)], [(3108306190, 0), (1164884, 0), (0, 1051)], [(0, 440254), (0, 506)], [(64,
    0)]], 3, 4⟩, 68719476736, 40143,
    4582031481108671052798331885907507507211725930206890386629135017299272085250156857637089670238, lc0⟩)) (.leaf
    ⟨2281, 16, 41, 581, 16, 2354, ⟨[[(0, 412316860416)], [(352187318272, 0)]], 3, 4⟩, ⟨[[(370721937937, 0),
    (3041441009457, 0), (2235484936, 0), (10543844, 0), (26549, 0)], [(162030856211, 0), (663393382, 0), (2340501,
    0), (8405, 0), (28, 0)], [(7668609, 0), (87182, 0), (529, 0), (2, 0)], [(0, 452), (0, 3)]], 3, 4⟩, 1099511627776,
    0, 1564466, ⟨[[(53641202768178, 0), (0, 13731896709), (7468023, 0), (246, 0)], [(6281243697, 0), (3010047, 0),
    (0, 3664)], [(0, 1805937), (0, 2656), (2, 0)], [(535, 0), (2, 0)]], 3, 4⟩, 68719476736, 94093,
    3962508325389675909406290266672718596255055730832606003121748696392090929454301695590081347098, lc0⟩))) (.leaf
    ⟨1105, 16, 20, 292, 16, 1147, ⟨[[], [(343597383680, 0)]], 3, 4⟩, ⟨[[(0, 104455835296), (2972824658307, 0),
    (4699384849, 0), (43351095, 0), (227150, 0)], [(163112058188, 0), (1360978572, 0), (9841329, 0), (72290, 0),
    (519, 0)], [(16690805, 0), (381116, 0), (4690, 0), (43, 0), (1, 0)], [(0, 1680), (0, 22), (0, 1)]], 3, 4⟩,
    1099511627776, 0, 15022108, ⟨[[(53292514197891, 0), (0, 27715731165), (31756103, 0), (2032, 0), (0, 4)],
    [(13107387095, 0), (12448207, 0), (0, 32245), (0, 5)], [(0, 7904480), (0, 23041), (32, 0)], [(4979, 0), (30,
    0)]], 3, 4⟩, 68719476736, 472352,
    4781971067650939091650955275405106632100118394201213412297138914845348560098304596656367999848, lc0⟩))) (.sx (.sy
    (.sx (.sy (.sx (.out ⟨2283, 16, 81, 4761, 16, 3067, ⟨[[(206158430208, 0)], [(347892350976, 0)]], 1, 1⟩, ⟨[[(0,
    118591486735), (0, 3788089024067)], [(0, 109955798674), (0, 448275335)]], 1, 1⟩, 1099511627776, 0, 33306677440,
    ⟨[], 0, 0⟩, 0, 0, 0, lc0⟩ 0 1 251049665953) (.leaf ⟨4392, 16, 82, 776, 16, 3092, ⟨[[(137438953472, 0)],
    [(352187318272, 0)]], 3, 4⟩, ⟨[[(0, 433333352955), (3862683530667, 0), (2831022845, 0), (13294443, 0), (34303,
    0)], [(111464991439, 0), (458838866, 0), (1638179, 0), (6020, 0), (21, 0)], [(3187670, 0), (36039, 0), (227, 0),
    (1, 0)], [(0, 34)]], 3, 4⟩, 1099511627776, 0, 308073, ⟨[[(52957603143732, 0), (0, 10548434844), (4521222, 0),
    (115, 0)], [(3317089748, 0), (1302826, 0), (0, 1157)], [(0, 495276), (0, 588)], [(78, 0)]], 3, 4⟩, 68719476736,
    47713, 5168186448440618155649053006467349435680422897145008339082853263315196109351331514156680988364, lc0⟩))
    (.leaf ⟨2188, 16, 41, 593, 16, 2314, ⟨[[(412316860416, 0)], [(352187318272, 0)]], 3, 4⟩, ⟨[[(0, 474859738995),
    (2900142152850, 0), (2241023294, 0), (10363343, 0), (27524, 0)], [(170557264431, 0), (711616590, 0), (2585902,
    0), (9663, 0), (36, 0)], [(10227901, 0), (116233, 0), (739, 0), (4, 0)], [(0, 168), (3, 0)]], 3, 4⟩,
    1099511627776, 0, 1836165, ⟨[[(52732544842982, 0), (0, 13924234795), (8115685, 0), (267, 0)], [(6708660502, 0),
    (3430224, 0), (0, 4176)], [(0, 2034963), (0, 3143), (2, 0)], [(655, 0), (2, 0)]], 3, 4⟩, 68719476736, 80970,
    4593128027020948113404737033996811634731957980214281283995329595429791138199770799032341164209, lc0⟩)) (.leaf
    ⟨2219, 16, 41, 389, 16, 1503, ⟨[[(137438953472, 0)], [(352187318272, 0)]], 3, 4⟩, ⟨[[(402503916794, 0),
    (3838503724020, 0), (6224603161, 0), (56953050, 0), (307287, 0)], [(110638543619, 0), (932573323, 0), (6851390,
    0), (51485, 0), (389, 0)], [(6378706, 0), (145861, 0), (1846, 0), (18, 0)], [(0, 182)]], 3, 4⟩, 1099511627776, 0,
    2052797, ⟨[[(52857318473424, 0), (0, 21133266167), (18945452, 0), (917, 0), (0, 1)], [(6603333781, 0), (4916558,
    0), (0, 9606), (0, 1)], [(0, 1992785), (0, 4515), (5, 0)], [(637, 0), (3, 0)]], 3, 4⟩, 68719476736, 95585,
    3620929887675974210189423803539803038589605409297583680439147072257745218748820146821823048973, lc0⟩)) (.leaf
    ⟨1075, 16, 20, 298, 16, 1105, ⟨[[], [(343597383680, 0)]], 3, 4⟩, ⟨[[(100163778727, 0), (2845965368258, 0),
    (5108491843, 0), (45767787, 0), (263724, 0)], [(170253807415, 0), (1476836629, 0), (11259659, 0), (88269, 0),
    (733, 0)], [(21606328, 0), (499881, 0), (6531, 0), (72, 0), (1, 0)], [(0, 791), (14, 0), (1, 0)]], 3, 4⟩,
    1099511627776, 0, 18488918, ⟨[[(52414818424823, 0), (0, 27999127262), (35403854, 0), (2072, 0), (0, 7)],
    [(13826315927, 0), (13207896, 0), (0, 37215), (0, 7)], [(0, 8812431), (0, 25677), (38, 0)], [(6040, 0), (35,
    0)]], 3, 4⟩, 68719476736, 666971,
    3838450712056401353111295770934733758852665763120101767692699321061263548915408860309034901300, lc0⟩)) (.leaf
    ⟨1105, 16, 20, 195, 16, 707, ⟨[[], [(343597383680, 0)]], 3, 4⟩, ⟨[[(174480358376, 0), (3782993042267, 0),
    (14775776004, 0), (261313340, 0), (3117058, 0)], [(108616926492, 0), (1919921757, 0), (29805683, 0), (473886, 0),
    (8282, 0)], [(12658167, 0), (589028, 0), (15241, 0), (353, 0), (11, 0)], [(0, 1181), (0, 36)]], 3, 4⟩,
    1099511627776, 0, 32864444, ⟨[[(52636287360358, 0), (0, 42449333765), (83926196, 0), (6372, 0), (0, 49)],
    [(13391392685, 0), (17631654, 0), (0, 85922), (0, 26)], [(0, 8446820), (0, 34864), (84, 0)], [(5690, 0), (46,
    0)]], 3, 4⟩, 68719476736, 1189444,
    4472049570017640522025245366396942744104004004039182917267513732658906305726287141327243179884, lc0⟩))
theorem c46 : checkC job ⟨6, 8, 8, 10, 9, 13⟩ 1 25 lims t46 944 48 32 51 3 256 = true := by decide +kernel

end PyX.Kron.T2c
