import Verif.Lemmas.V3bJob

/-!
# The volume from pressure and enthalpy in subregion 3b, part D of the certificate
-/

namespace PyX.Kron.V3b

set_option Elab.async false

def t95 : CTree :=
  .sy (.sx (.sy (.leaf ⟨557, 16, 1509, 181, 16, 1162, ⟨[[(28701869067321344, 0), (0, 2507064008059999), (32297253818,
    0), (0, 1206902), (0, 93)], [(21023512310090603, 0), (0, 5710057625497), (153212223, 0), (2430, 0)], [(0,
    28492741124907), (348913819, 0), (390932, 0), (43, 0)], [(93539586064, 0), (0, 2886205), (90, 0)]], 3, 4⟩,
    ⟨[[(34706928461522944, 0), (0, 1395034473661404), (0, 3854189781), (0, 2601299), (0, 301)], [(0,
    35704729284735896), (0, 321407540930), (0, 20794084), (0, 6301), (0, 1)], [(32617670365007, 0), (1621736960, 0),
    (204267, 0), (34, 0)], [(0, 30520009166), (0, 437144), (243, 0)]], 3, 4⟩, 72057594037927936, 19864386021121,
    3999989616305, ⟨[[(8537353219351, 0), (27934589627, 0), (28206261, 0), (0, 34173), (0, 61)], [(0, 15537314333),
    (0, 72893833), (0, 48653), (0, 38)], [(39066048, 0), (145465, 0), (107, 0), (1, 0)], [(0, 94802), (0, 229), (0,
    1)]], 3, 4⟩, 17592186044416, 31198271,
    4634791239082158712081361476432187470988828132569197922355215303087013796488070882579466654373365160570808100706732151513274512,
    lc0⟩) (.leaf ⟨575, 16, 1607, 171, 16, 1156, ⟨[[(8331268757594112, 0), (0, 2636374242170338), (32298109066, 0),
    (0, 1506721), (0, 122)], [(19377727144052675, 0), (0, 5914857333940), (167850794, 0), (3669, 0), (1, 0)], [(0,
    30045587993424), (826913537, 0), (493608, 0), (57, 0)], [(98097524081, 0), (0, 2965505), (121, 0)]], 3, 4⟩,
    ⟨[[(0, 10245774733719552), (0, 1393796933347143), (0, 8216883720), (0, 3254462), (0, 366)], [(0,
    35686929132403096), (0, 345593754955), (0, 31147835), (0, 7659), (0, 1)], [(33314868281140, 0), (1844749020, 0),
    (259588, 0), (41, 0)], [(0, 30515690879), (0, 167159), (293, 0)]], 3, 4⟩, 72057594037927936, 22752253811189,
    3609801929027, ⟨[[(8550524265189, 0), (28833051330, 0), (30261882, 0), (0, 31767), (0, 45)], [(0, 15260042690),
    (0, 72794458), (0, 48120), (0, 68)], [(37832791, 0), (137864, 0), (92, 0), (1, 0)], [(0, 90468), (0, 200)]], 3,
    4⟩, 17592186044416, 28591644,
    5823931210595834405067359746588361344523466080870221398757260735494254241060705339117841389392658548059247225185424405244430148,
    lc0⟩)) (.sy (.leaf ⟨562, 16, 1489, 170, 16, 1221, ⟨[[(0, 35669096649662464), (0, 2710123112197147), (38899435909,
    0), (0, 1015445), (0, 64)], [(18845922609968564, 0), (0, 5624309986672), (183442128, 0), (5933, 0), (1, 0)], [(0,
    17379955153379), (0, 149413589), (375063, 0), (41, 0)], [(78878048475, 0), (0, 4979045), (0, 258)]], 3, 4⟩,
    ⟨[[(0, 26273326961774592), (0, 1477092121654169), (0, 4574309216), (0, 2946641), (0, 338)], [(0,
    34802864069028102), (0, 198241304507), (0, 2874101), (0, 3504)], [(30424841985292, 0), (1602416136, 0), (232440,
    0), (38, 0)], [(0, 29128590804), (0, 1151901), (31, 0)]], 3, 4⟩, 72057594037927936, 14165747018781,
    3423523625280, ⟨[[(7839174258310, 0), (24690943000, 0), (26699655, 0), (0, 26332), (0, 35)], [(0, 13462836498),
    (0, 65185013), (0, 41885), (0, 1)], [(33984567, 0), (131593, 0), (38, 0), (1, 0)], [(0, 83683), (0, 201)]], 3,
    4⟩, 17592186044416, 27586739,
    4549645799004507775792985787987506966413709136119029660456909669983980721255798955973257874408414934787511726223032062020591596,
    lc0⟩) (.leaf ⟨578, 16, 1587, 159, 16, 1215, ⟨[[(34653383465828352, 0), (0, 2847721878274264), (39718231118, 0),
    (0, 1236010), (0, 85)], [(17127188200784421, 0), (0, 5792913426737), (206517741, 0), (8346, 0), (1, 0)], [(0,
    18497223874523), (277533978, 0), (473127, 0), (54, 0)], [(81330594143, 0), (0, 5617072), (0, 346)]], 3, 4⟩,
    ⟨[[(0, 33103012332533760), (0, 1476799718951994), (0, 9512340954), (0, 3679945), (0, 410)], [(0,
    34732056169998622), (0, 202964081980), (0, 8683853), (0, 4265)], [(31139096401569, 0), (1857243981, 0), (294093,
    0), (46, 0)], [(0, 29552942958), (0, 1114176), (33, 0)]], 3, 4⟩, 72057594037927936, 16657190753668,
    3028327645094, ⟨[[(7855178703831, 0), (25582227508, 0), (28602134, 0), (0, 25356), (0, 22)], [(0, 13312225923),
    (0, 65741769), (0, 40687), (0, 16)], [(33418244, 0), (126599, 0), (27, 0), (1, 0)], [(0, 81811), (0, 175)]], 3,
    4⟩, 17592186044416, 26309690,
    3411839453485971039595098310720113779896257254828279084366790546340125148435966501772628026944139250186675486301503350896601043,
    lc0⟩))) (.sx (.sy (.leaf ⟨595, 16, 1716, 160, 16, 1148, ⟨[[(0, 26668326506692608), (0, 2781853721761235),
    (31855419738, 0), (0, 1897611), (0, 158)], [(17567131307887845, 0), (0, 6132807372286), (186135262, 0), (5283,
    0), (1, 0)], [(0, 31499263201761), (1461925010, 0), (629821, 0), (76, 0)], [(103196851088, 0), (0, 3020593),
    (164, 0)]], 3, 4⟩, ⟨[[(0, 146793034237952), (0, 1394980342982238), (0, 13613456736), (0, 4035621), (0, 439)],
    [(0, 35621053990875618), (0, 380397746857), (0, 43565056), (0, 9210), (0, 1)], [(34074382369643, 0), (2123898548,
    0), (325906, 0), (50, 0)], [(0, 30309539930), (156258, 0), (353, 0)]], 3, 4⟩, 72057594037927936, 26322931962648,
    3075228431871, ⟨[[(8539386616970, 0), (29754526334, 0), (32475412, 0), (0, 29669), (0, 23)], [(0, 14920232790),
    (0, 72516959), (0, 46577), (0, 79), (0, 1)], [(36499201, 0), (129767, 0), (81, 0), (1, 0)], [(0, 85866), (0,
    171), (0, 1)]], 3, 4⟩, 17592186044416, 26637060,
    5249192689768595521427276646484881106794008745972222237814199428604778438643884048170757409410298637415183166353845400781799513,
    lc0⟩) (.leaf ⟨615, 16, 1835, 149, 16, 1138, ⟨[[(18529101273047040, 0), (0, 2942190765757727), (30736556990, 0),
    (0, 2401728), (0, 203)], [(15544124173205915, 0), (0, 6353574425371), (208813078, 0), (7373, 0), (1, 0)], [(0,
    32718340850355), (2305244438, 0), (809154, 0), (100, 0)], [(108779667073, 0), (0, 3031255), (223, 0)]], 3, 4⟩,
    ⟨[[(0, 6056327676975104), (0, 1399632758771823), (0, 20219146708), (0, 4958174), (0, 521)], [(0,
    35512155865640302), (0, 427791313250), (0, 58285896), (0, 10968), (0, 1)], [(34922432009255, 0), (2469477576, 0),
    (404747, 0), (59, 0)], [(0, 29873760446), (541691, 0), (423, 0)]], 3, 4⟩, 72057594037927936, 30752740072154,
    2373463619866, ⟨[[(8551518617551, 0), (30862012582, 0), (34845860, 0), (0, 28248), (0, 5)], [(0, 14709542032),
    (0, 72579893), (0, 45435), (0, 80), (0, 1)], [(35635781, 0), (122117, 0), (92, 0)], [(0, 82359), (0, 145), (0,
    1)]], 3, 4⟩, 17592186044416, 24122093,
    7280838664334012162394952295676238840439878080206855234424286242536549446828993936874726839885535189418521131178862901459337128,
    lc0⟩)) (.sy (.leaf ⟨597, 16, 1695, 147, 16, 1209, ⟨[[(0, 14051073483530240), (0, 2999973407810128), (40285478870,
    0), (0, 1522974), (0, 111)], [(15243589912890270, 0), (0, 5958325454462), (235874683, 0), (11482, 0), (1, 0)],
    [(0, 19472081789629), (851173743, 0), (603337, 0), (72, 0)], [(83753488193, 0), (0, 6413572), (0, 458)]], 3, 4⟩,
    ⟨[[(34605124614772736, 0), (0, 1481994915784349), (0, 15637164135), (0, 4562416), (0, 491)], [(0,
    34664666106894141), (0, 214062310516), (0, 15686316), (0, 5132)], [(31992880025241, 0), (2178809071, 0), (368640,
    0), (55, 0)], [(0, 29954856735), (0, 1073374), (37, 0)]], 3, 4⟩, 72057594037927936, 19809424635525,
    2504912703270, ⟨[[(7822140453908, 0), (26339239898, 0), (30518696, 0), (0, 24662), (0, 8)], [(0, 13002233965),
    (0, 65697812), (0, 38707), (0, 26)], [(32434047, 0), (119899, 0), (22, 0), (1, 0)], [(0, 78735), (0, 145)]], 3,
    4⟩, 17592186044416, 24436078,
    6538712509738640332424083506147504775985825770040706277563996379557580406610235678656301526608717995390316834393355942780148365,
    lc0⟩) (.sx (.leaf ⟨727, 16, 2146, 210, 16, 1788, ⟨[[(369446789783552, 0), (0, 3672363842201631), (44579670103,
    0), (0, 2420957), (0, 191)], [(8063086831964648, 0), (0, 3637502161446), (151935668, 0), (7996, 0), (1, 0)], [(0,
    6800701372280), (543753003, 0), (234096, 0), (29, 0)], [(13437801530, 0), (0, 934687), (0, 59)]], 3, 4⟩,
    ⟨[[(22883860950804480, 0), (0, 2216381470775812), (0, 34004416797), (0, 8238132), (0, 858)], [(0,
    26238637447182174), (0, 213482278997), (0, 24997860), (0, 5578)], [(12626670213905, 0), (968706528, 0), (169228,
    0), (25, 0)], [(0, 5685022270), (0, 118783), (26, 0)]], 3, 4⟩, 72057594037927936, 1885115999661, 276673967654,
    ⟨[[(7997414345719, 0), (18651581329, 0), (14527560, 0), (0, 7337)], [(0, 11259736376), (0, 37912540), (0, 14353),
    (0, 12)], [(23562419, 0), (54573, 0), (15, 0)], [(0, 47447), (0, 47)]], 3, 4⟩, 17592186044416, 10144966,
    7445733153633889465104178436598138770068143298881895246457824065668075454306594460031404185609250411635940394374341661766207989,
    lc0⟩) (.sy (.leaf ⟨1244, 16, 3616, 274, 16, 2455, ⟨[[(0, 6960901487214592), (0, 3232868672327709), (21955846589,
    0), (0, 413382), (0, 15)], [(13504514666285352, 0), (0, 3066546340160), (70511049, 0), (2063, 0)], [(0,
    8835263806446), (295773590, 0), (89651, 0), (5, 0)], [(20604125049, 0), (0, 1031823), (0, 47)]], 3, 4⟩, ⟨[[(0,
    36025068896100352), (0, 1520863195497315), (0, 10868516493), (0, 1372900), (0, 72)], [(0, 34588832663468770), (0,
    89570138699), (0, 3233272), (0, 576)], [(16202775556834, 0), (619998732, 0), (55309, 0), (4, 0)], [(0,
    7628107826), (0, 177612), (0, 3)]], 3, 4⟩, 72057594037927936, 2504508682649, 208015723689, ⟨[[(7684513640866, 0),
    (13057312988, 0), (7744985, 0), (0, 2889)], [(0, 6150768448), (0, 15736865), (0, 4339), (0, 2)], [(7561526, 0),
    (13550, 0), (1, 0)], [(0, 9033), (0, 7)]], 3, 4⟩, 17592186044416, 995106,
    6779882666528171154904382880220612567428702429523735064224171063473341735071198242527374798930253201873136701501770944719352337,
    lc0⟩) (.leaf ⟨1264, 16, 3743, 262, 16, 2446, ⟨[[(25710975075794944, 0), (0, 3323926005686415), (22058667063, 0),
    (0, 460117), (0, 17)], [(12404014353432600, 0), (0, 3099291359183), (76393815, 0), (2391, 0)], [(0,
    8967757044630), (403776391, 0), (101809, 0), (6, 0)], [(20778796249, 0), (0, 1119994), (0, 54)]], 3, 4⟩, ⟨[[(0,
    7163311784431616), (0, 1527230873473300), (0, 13000144486), (0, 1518056), (0, 78)], [(0, 34507715749822245), (0,
    92922380881), (0, 4123357), (0, 625)], [(16467884205284, 0), (676199324, 0), (61473, 0), (4, 0)], [(0,
    7689794997), (0, 180287), (0, 4)]], 3, 4⟩, 72057594037927936, 2759151101043, 158560317866, ⟨[[(7682166531487, 0),
    (13299233101, 0), (7997488, 0), (0, 2879), (1, 0)], [(0, 6116654943), (0, 15777062), (0, 4192), (0, 3)],
    [(7522051, 0), (13077, 0), (1, 0)], [(0, 8943), (0, 5)]], 3, 4⟩, 17592186044416, 1040236,
    7278468285838066589901225942316937408463946794635332576076307973214303557329274938016867368107286957086991233183706980206427404,
    lc0⟩)))))
theorem c95 : checkR job con0 true ⟨7, 9, 7, 9, 13, 17⟩ 1 28336 t95 243 21 320 15247 251 16000 = true := by decide +kernel

def t96 : CTree :=
  .sy (.sx (.sx (.sy (.sx (.leaf ⟨1842, 16, 5880, 776, 16, 4464, ⟨[[(0, 24450774841229312), (0, 3613284771310547),
    (11542875452, 0), (0, 1020540), (0, 46)], [(9537261444780096, 0), (0, 1355039091847), (5822449, 0), (0, 523)],
    [(0, 3808009746858), (52717503, 0), (6740, 0)], [(1157702433, 0), (23189, 0), (3, 0)]], 3, 4⟩,
    ⟨[[(30318220978610176, 0), (0, 2630279268292505), (0, 14498029092), (0, 1913467), (0, 104)], [(0,
    21578713866956108), (0, 239552145740), (0, 17437178), (0, 1414)], [(2804795253713, 0), (58050117, 0), (2466, 0)],
    [(0, 280591382), (17552, 0), (3, 0)]], 3, 4⟩, 72057594037927936, 41108764311, 19101189456, ⟨[[(10949895351738,
    0), (9538053362, 0), (2159533, 0), (0, 594), (0, 2)], [(0, 6938371414), (0, 7154624), (0, 1751), (0, 1)],
    [(5349483, 0), (4096, 0), (2, 0)], [(0, 3886), (0, 2)]], 3, 4⟩, 17592186044416, 308750,
    10968738657178844255783899237385942844328252791868612950739239306338921673105305319592452801386264652277493286559340554542886203,
    lc0⟩) (.leaf ⟨1835, 16, 5840, 765, 16, 4473, ⟨[[(0, 31553973434744832), (0, 3645135043176038), (11719272924, 0),
    (0, 1034746), (0, 47)], [(9160720445673419, 0), (0, 1341303018670), (6361728, 0), (0, 487)], [(0, 3639001266546),
    (55192297, 0), (7087, 0)], [(1121719970, 0), (21931, 0), (3, 0)]], 3, 4⟩, ⟨[[(32551846621773824, 0), (0,
    2645559822595215), (0, 15256526382), (0, 1976456), (0, 107)], [(0, 21387619327271104), (0, 235056673044), (0,
    17249655), (0, 1398)], [(2775382267662, 0), (60358814, 0), (2830, 0)], [(0, 275547270), (17191, 0), (3, 0)]], 3,
    4⟩, 72057594037927936, 39482950242, 18153393270, ⟨[[(10792661544850, 0), (9425150417, 0), (2162385, 0), (0, 530),
    (0, 1)], [(0, 6836788355), (0, 7100489), (0, 1687), (0, 1)], [(5306377, 0), (4062, 0), (2, 0)], [(0, 3880), (0,
    2)]], 3, 4⟩, 17592186044416, 298157,
    10688050361741886014529386548790603094188880093366487342880903625965548692119541243571672047324032826993544051853696485649304606,
    lc0⟩)) (.sx (.sy (.leaf ⟨3144, 16, 10143, 1080, 16, 6320, ⟨[[(24182886685835264, 0), (0, 3109344438844881),
    (4463398670, 0), (0, 235592), (0, 5)], [(15573103711746782, 0), (0, 1165135698988), (2247973, 0), (0, 120)], [(0,
    6532895357168), (49987826, 0), (3097, 0)], [(2012894288, 0), (22146, 0), (1, 0)]], 3, 4⟩, ⟨[[(0,
    19162451029065728), (0, 1870256091049863), (0, 5928561536), (0, 367394), (0, 10)], [(0, 30681807306498688), (0,
    179305502686), (0, 6756438), (0, 267)], [(4002400819595, 0), (42472887, 0), (961, 0)], [(0, 387304304), (14018,
    0), (1, 0)]], 3, 4⟩, 72057594037927936, 60690606449, 11156362580, ⟨[[(10959450025397, 0), (6795093895, 0),
    (1105118, 0), (0, 174)], [(0, 4089449806), (0, 2976292), (0, 511)], [(1857182, 0), (992, 0)], [(0, 792)]], 3, 4⟩,
    17592186044416, 116620,
    10842766792687494666215813176229984748283809177625740926156878745585503593286261972811335881521766053942865401436911778293643783,
    lc0⟩) (.leaf ⟨3161, 16, 10266, 1063, 16, 6300, ⟨[[(0, 31946521648955392), (0, 3142697614221953), (4150158578, 0),
    (0, 249498), (0, 6)], [(15170519242150098, 0), (0, 1177073663679), (2088323, 0), (0, 127)], [(0, 6585917643501),
    (53809176, 0), (3271, 0)], [(2048940545, 0), (23960, 0), (2, 0)]], 3, 4⟩, ⟨[[(22170789677613056, 0), (0,
    1870552908252050), (0, 6476443289), (0, 386431), (0, 10)], [(0, 30676170864205160), (0, 185704654917), (0,
    7145583), (0, 279)], [(4011235509520, 0), (43331350, 0), (1020, 0)], [(0, 378783655), (15099, 0), (1, 0)]], 3,
    4⟩, 72057594037927936, 62302382313, 11597305794, ⟨[[(10952394363186, 0), (6848826707, 0), (1129570, 0), (0,
    154)], [(0, 4077552354), (0, 2977495), (0, 506)], [(1848759, 0), (984, 0)], [(0, 785)]], 3, 4⟩, 17592186044416,
    111803,
    10695977478188792484551440042320723187667817336842780192828601786913424222667374879966749329351510585968433362504759004884907459,
    lc0⟩)) (.leaf ⟨1837, 16, 5931, 742, 16, 4445, ⟨[[(28697459109085184, 0), (0, 3690803835741719), (10245179148, 0),
    (0, 1150675), (0, 52)], [(8621202691429762, 0), (0, 1356101171697), (5684460, 0), (0, 537)], [(0, 3665699927593),
    (63597336, 0), (7843, 0)], [(1151197027, 0), (25587, 0), (3, 0)]], 3, 4⟩, ⟨[[(20774616095047680, 0), (0,
    2645760858036978), (0, 18284871631), (0, 2187746), (0, 116)], [(0, 21375496844935723), (0, 251877760397), (0,
    19329775), (0, 1518)], [(2788858610072, 0), (62988102, 0), (3184, 0)], [(0, 264518634), (20031, 0), (3, 0)]], 3,
    4⟩, 72057594037927936, 41886930417, 19173247008, ⟨[[(10799954328567, 0), (9592564117, 0), (2260881, 0), (0, 428),
    (0, 1)], [(0, 6882103746), (0, 7187885), (0, 1688), (0, 2)], [(5376312, 0), (4077, 0), (2, 0)], [(0, 3937), (0,
    2)]], 3, 4⟩, 17592186044416, 335390,
    10788088074895574010980738420462147045655262581345378411557848615751277827678163617574324015598539758399797396547089789149518786,
    lc0⟩))) (.sy (.sx (.leaf ⟨1827, 16, 5800, 755, 16, 4483, ⟨[[(15289301082865664, 0), (0, 3676018952422370),
    (11917007964, 0), (0, 1047256), (0, 47)], [(8800240066335720, 0), (0, 1327398374261), (6925463, 0), (0, 449)],
    [(0, 3475447791071), (57485950, 0), (7419, 0)], [(1086479419, 0), (20615, 0), (3, 0)]], 3, 4⟩, ⟨[[(0,
    18963986273583104), (0, 2661260803427003), (0, 16011529202), (0, 2039300), (0, 110)], [(0, 21203233054658414),
    (0, 230410297712), (0, 17035198), (0, 1380)], [(2747122267668, 0), (62636634, 0), (3187, 0)], [(0, 270964967),
    (16776, 0), (3, 0)]], 3, 4⟩, 72057594037927936, 39963344268, 17326435856, ⟨[[(10651875062212, 0), (9321171956,
    0), (2162881, 0), (0, 484), (0, 1)], [(0, 6752160536), (0, 7057433), (0, 1627), (0, 1)], [(5278342, 0), (4040,
    0), (2, 0)], [(0, 3886), (0, 2)]], 3, 4⟩, 17592186044416, 300631,
    10494917118520001993513093926250015514826341068876869032616821947596555072067861730500789303047947774689596403058308602013059386,
    lc0⟩) (.leaf ⟨1819, 16, 5759, 744, 16, 4493, ⟨[[(22007540240220160, 0), (0, 3705287750377883), (12134793362, 0),
    (0, 1057824), (0, 48)], [(8453818756514918, 0), (0, 1313114168569), (7510843, 0), (0, 409)], [(0, 3316656722992),
    (59582062, 0), (7734, 0)], [(1051786767, 0), (19241, 0), (3, 0)]], 3, 4⟩, ⟨[[(7296771930472448, 0), (0,
    2676783987477417), (0, 16758483924), (0, 2101484), (0, 113)], [(0, 21020685509050127), (0, 225562945472), (0,
    16790535), (0, 1361)], [(2719339347251, 0), (64863399, 0), (3535, 0)], [(0, 266762400), (16306, 0), (3, 0)]], 3,
    4⟩, 72057594037927936, 39029249814, 17703737746, ⟨[[(10501399881143, 0), (9211017055, 0), (2163072, 0), (0, 449),
    (0, 1)], [(0, 6658700665), (0, 7011519), (0, 1563), (0, 1)], [(5244443, 0), (4015, 0), (2, 0)], [(0, 3889), (0,
    2)]], 3, 4⟩, 17592186044416, 324642,
    10074107401349987871336914842507819493175843803121817493520912658817975169882766531284828144299206990632932972289608614498209071,
    lc0⟩)) (.leaf ⟨1570, 16, 5048, 518, 16, 3182, ⟨[[(6883216946069504, 0), (0, 3213816317099559), (9051921925, 0),
    (0, 1006587), (0, 45)], [(13912189447103573, 0), (0, 2294266701389), (11428141, 0), (0, 813)], [(0,
    11752983413381), (232363278, 0), (28896, 0), (2, 0)], [(7545144109, 0), (160953, 0), (23, 0)]], 3, 4⟩,
    ⟨[[(7621194052763648, 0), (0, 1905172709965519), (0, 13951583655), (0, 1633809), (0, 86)], [(0,
    30105114233075450), (0, 348918829241), (0, 27048718), (0, 2123)], [(7844572448662, 0), (190987337, 0), (10748,
    0), (1, 0)], [(0, 1473627938), (110020, 0), (17, 0)]], 3, 4⟩, 72057594037927936, 465286877480, 75941620650,
    ⟨[[(10573093855719, 0), (13207671075, 0), (4431606, 0), (0, 1076), (0, 2)], [(0, 7837023935), (0, 11597880), (0,
    3625), (0, 5)], [(7197080, 0), (7658, 0), (4, 0)], [(0, 6189), (0, 5)]], 3, 4⟩, 17592186044416, 517192,
    10442420224520540414791612858198067586502265887272485523886529185695475581712597838914220220241693112966757578545238993189409289,
    lc0⟩))) (.sy (.sx (.leaf ⟨1558, 16, 4913, 522, 16, 3232, ⟨[[(14496636451930112, 0), (0, 3231347043505376),
    (10782651685, 0), (0, 922873), (0, 42)], [(13731975131626103, 0), (0, 2227247244158), (14535108, 0), (0, 598)],
    [(0, 10652307602200), (215099995, 0), (28198, 0), (2, 0)], [(6906154661, 0), (117873, 0), (19, 0)]], 3, 4⟩,
    ⟨[[(10768160776544256, 0), (0, 1935555086699640), (0, 12805424643), (0, 1572510), (0, 84)], [(0,
    29753676137867660), (0, 312480765884), (0, 23470612), (0, 1903)], [(7681265264423, 0), (195276891, 0), (11584,
    0), (1, 0)], [(0, 1497728728), (88947, 0), (15, 0)]], 3, 4⟩, 72057594037927936, 432477523548, 69181872575,
    ⟨[[(10285954927194, 0), (12623793610, 0), (4205023, 0), (0, 1132), (0, 1)], [(0, 7567640851), (0, 11240957), (0,
    3325), (0, 4)], [(6991222, 0), (7477, 0), (4, 0)], [(0, 6078), (0, 5)]], 3, 4⟩, 17592186044416, 539806,
    9700790463938080399447230092388714252739188608397942544074513116175496737108798853246668505331596799006268032677969015415988521,
    lc0⟩) (.leaf ⟨1559, 16, 4892, 510, 16, 3262, ⟨[[(18581616841392128, 0), (0, 3310293437268200), (11395298910, 0),
    (0, 940941), (0, 42)], [(12818074785215394, 0), (0, 2199148310401), (16926714, 0), (0, 450)], [(0,
    9762653446627), (227765812, 0), (30312, 0), (2, 0)], [(6523718584, 0), (97987, 0), (17, 0)]], 3, 4⟩, ⟨[[(0,
    22989850706718720), (0, 1966413083072142), (0, 13897509761), (0, 1666115), (0, 88)], [(0, 29386559448059532), (0,
    298363402550), (0, 22630491), (0, 1840)], [(7564907105381, 0), (207941384, 0), (13476, 0), (1, 0)], [(0,
    1468329964), (82327, 0), (14, 0)]], 3, 4⟩, 72057594037927936, 416890908896, 60273519205, ⟨[[(10020062538192, 0),
    (12283279604, 0), (4158393, 0), (0, 1064), (0, 1)], [(0, 7307571085), (0, 10966424), (0, 3033), (0, 4)],
    [(6788538, 0), (7248, 0), (3, 0)], [(0, 5932), (0, 4)]], 3, 4⟩, 17592186044416, 550685,
    8016695970815540982410723680150382424588766083090824016822732717230815132189407456203701823735930475107976740104594983425543210,
    lc0⟩)) (.leaf ⟨1251, 16, 3992, 319, 16, 2060, ⟨[[(0, 16444143330902016), (0, 2655055177894064), (7822778755, 0),
    (0, 830904), (0, 37)], [(19800042051635151, 0), (0, 3579494953308), (24247629, 0), (0, 920)], [(0,
    32838480762585), (822446754, 0), (104316, 0), (6, 0)], [(44116210834, 0), (827042, 0), (129, 0)]], 3, 4⟩, ⟨[[(0,
    24944458257588224), (0, 1247115534050206), (0, 10105051314), (0, 1141977), (0, 60)], [(0, 37722159963213251), (0,
    418975251708), (0, 33016685), (0, 2596)], [(19609979186636, 0), (545731620, 0), (35698, 0), (3, 0)], [(0,
    7285555506), (510740, 0), (79, 0)]], 3, 4⟩, 72057594037927936, 5627617742840, 522334373024, ⟨[[(10153387541677,
    0), (19843766060, 0), (10665625, 0), (0, 3826), (0, 1)], [(0, 9334533979), (0, 21968575), (0, 9710), (0, 17)],
    [(10862401, 0), (18031, 0), (13, 0)], [(0, 11815), (0, 15)]], 3, 4⟩, 17592186044416, 1397622,
    8944770869589897175043709325829763673589691730274932273866904812975448622110447764925601584268123627372821490433967274557938074,
    lc0⟩))) (.sx (.sy (.sx (.sx (.leaf ⟨1847, 16, 6063, 730, 16, 4405, ⟨[[(15625986317467648, 0), (0,
    3705223706869893), (8426605964, 0), (0, 1261296), (0, 56)], [(8436766618831136, 0), (0, 1386881748666), (4235496,
    0), (0, 637)], [(0, 3864529959678), (69569354, 0), (8244, 0)], [(1221283221, 0), (31226, 0), (4, 0)]], 3, 4⟩,
    ⟨[[(0, 16813303445839872), (0, 2630388566902430), (0, 20654940295), (0, 2340522), (0, 123)], [(0,
    21549664842552354), (0, 275417822888), (0, 21803932), (0, 1663)], [(2827912697703, 0), (62846482, 0), (3129, 0)],
    [(0, 256432457), (23620, 0), (3, 0)]], 3, 4⟩, 72057594037927936, 45515514331, 19965996702, ⟨[[(10960249720552,
    0), (9877514445, 0), (2361543, 0), (0, 373), (0, 1)], [(0, 7021845110), (0, 7326216), (0, 1745), (0, 2)],
    [(5478411, 0), (4138, 0), (1, 0)], [(0, 3984), (0, 3)]], 3, 4⟩, 17592186044416, 349821,
    10566572741949806906419509585009589233350113368753770966531766305246927190813662093323719534143160052971742774843768458120454254,
    lc0⟩) (.leaf ⟨1839, 16, 6021, 719, 16, 4413, ⟨[[(15235406965555200, 0), (0, 3737278027921112), (8559628044, 0),
    (0, 1278294), (0, 57)], [(8062315995076574, 0), (0, 1371309251369), (4914907, 0), (0, 592)], [(0, 3686848968190),
    (72913949, 0), (8686, 0), (1, 0)], [(1182627245, 0), (29713, 0), (4, 0)]], 3, 4⟩, ⟨[[(0, 30429888398344192), (0,
    2646641413886411), (0, 21604095834), (0, 2414299), (0, 126)], [(0, 21352175859516550), (0, 270505047059), (0,
    21562060), (0, 1644)], [(2801003462088, 0), (65907924, 0), (3565, 0)], [(0, 251835356), (23109, 0), (3, 0)]], 3,
    4⟩, 72057594037927936, 43538071642, 18615744820, ⟨[[(10805738482786, 0), (9766429716, 0), (2358117, 0), (0,
    353)], [(0, 6927823624), (0, 7281900), (0, 1676), (0, 2)], [(5446003, 0), (4117, 0), (1, 0)], [(0, 3986), (0,
    3)]], 3, 4⟩, 17592186044416, 361533,
    9741643215253227232156075670562977900886033700410179935205676143792047542869892570293634893448778271316454106163400230525898869,
    lc0⟩)) (.leaf ⟨1585, 16, 5170, 501, 16, 3159, ⟨[[(10196253264265216, 0), (0, 3282983328720020), (7646133888, 0),
    (0, 1127869), (0, 50)], [(13071704482529077, 0), (0, 2338609768024), (10399184, 0), (0, 902)], [(0,
    11909881861181), (269042300, 0), (32329, 0), (2, 0)], [(7816323562, 0), (189484, 0), (26, 0)]], 3, 4⟩,
    ⟨[[(9563286164062208, 0), (0, 1906578494696276), (0, 16426745790), (0, 1801558), (0, 93)], [(0,
    30068440601435380), (0, 374998466894), (0, 30170326), (0, 2300)], [(7885850717771, 0), (200972788, 0), (11990,
    0), (1, 0)], [(0, 1403782272), (126890, 0), (18, 0)]], 3, 4⟩, 72057594037927936, 487345040981, 72303758245,
    ⟨[[(10573276902751, 0), (13447522955, 0), (4618795, 0), (0, 936)], [(0, 7821125697), (0, 11654732), (0, 3573),
    (0, 4)], [(7170788, 0), (7607, 0), (3, 0)], [(0, 6109), (0, 5)]], 3, 4⟩, 17592186044416, 570056,
    8931296618330060352152029402231305958193028682492047281091110808921660641925949466775139341107890585005384750088517337613749002,
    lc0⟩)) (.leaf ⟨1263, 16, 4188, 311, 16, 1975, ⟨[[(0, 22992456135327744), (0, 2614176683005835), (4614107851, 0),
    (0, 981539), (0, 44)], [(20097514731857515, 0), (0, 3793183427993), (12212998, 0), (0, 1723)], [(0,
    39763709128071), (936394961, 0), (108593, 0), (6, 0)], [(52672333009, 0), (1474415, 0), (191, 0)]], 3, 4⟩, ⟨[[(0,
    35309736712065024), (0, 1197778809549333), (0, 11609767945), (0, 1215356), (0, 62)], [(0, 38264535850269964), (0,
    519989244710), (0, 42917988), (0, 3183)], [(20193164525352, 0), (511081051, 0), (30344, 0), (2, 0)], [(0,
    6793228229), (753403, 0), (105, 0)]], 3, 4⟩, 72057594037927936, 6456891128856, 633410687632, ⟨[[(10731502526476,
    0), (21945757958, 0), (12081292, 0), (0, 3364), (1, 0)], [(0, 10075340535), (0, 23759715), (0, 11699), (0, 21)],
    [(11635178, 0), (19600, 0), (13, 0)], [(0, 12382), (0, 19)]], 3, 4⟩, 17592186044416, 1548085,
    9359569810242591149730729117693084308780638888884529689588499041741549997787818244554008222425683768381864868973935829830070655,
    lc0⟩)) (.leaf ⟨784, 16, 2560, 235, 16, 1585, ⟨[[(24629388546211840, 0), (0, 3392067774538561), (14914063020, 0),
    (0, 4873151), (0, 431)], [(10977492304949086, 0), (0, 4546183201727), (56562077, 0), (0, 5271)], [(0,
    20621894164379), (1270632489, 0), (306515, 0), (37, 0)], [(28739706853, 0), (1330089, 0), (386, 0)]], 3, 4⟩,
    ⟨[[(6047627357437952, 0), (0, 1945674058845011), (0, 39690080914), (0, 8205957), (0, 832)], [(0,
    29282116691483136), (0, 728349002151), (0, 120887906), (0, 18191), (0, 2)], [(15420928310036, 0), (929874680, 0),
    (129845, 0), (19, 0)], [(0, 5273645826), (982287, 0), (280, 0)]], 3, 4⟩, 72057594037927936, 3927996676959,
    463638415032, ⟨[[(10152004611254, 0), (26233501586, 0), (18734493, 0), (0, 7656), (12, 0)], [(0, 15081689284),
    (0, 46121366), (0, 26028), (0, 41)], [(28371708, 0), (60177, 0), (61, 0)], [(0, 49108), (0, 89)]], 3, 4⟩,
    17592186044416, 9679546,
    7184145810613487920306839695455375637085080711651835288373190118340277952426666300134238642431187844417215951097075932444300432,
    lc0⟩))
theorem c96 : checkR job con0 true ⟨7, 9, 7, 9, 13, 17⟩ 1 28336 t96 381 21 640 31247 251 32000 = true := by decide +kernel

def t97 : CTree :=
  .sy (.leaf ⟨623, 16, 1949, 151, 16, 1065, ⟨[[(14237622691995648, 0), (0, 2814329326976314), (20367489645, 0), (0,
    3221503), (0, 284)], [(16631755525642789, 0), (0, 6810240087110), (151581925, 0), (0, 368)], [(0,
    49571263538009), (3418237375, 0), (932666, 0), (114, 0)], [(145233013098, 0), (2504059, 0), (1312, 0)]], 3, 4⟩,
    ⟨[[(0, 34594327701753856), (0, 1308429838012611), (0, 22903537648), (0, 5081697), (0, 524)], [(0,
    36449080257009762), (0, 684942833265), (0, 107674265), (0, 17438), (0, 2)], [(37479322657689, 0), (2501680192,
    0), (381907, 0), (56, 0)], [(0, 28707960177), (2750857, 0), (930, 0)]], 3, 4⟩, 72057594037927936, 41352990366187,
    2968869110829, ⟨[[(9414086521223, 0), (36236237776, 0), (40294714, 0), (0, 30612), (19, 0)], [(0, 16898546249),
    (0, 81749239), (0, 61302), (0, 151), (0, 1)], [(40136577, 0), (132939, 0), (180, 0)], [(0, 89271), (0, 191), (0,
    1)]], 3, 4⟩, 17592186044416, 24559342,
    7517249611058898701017649546917898726449583649824531834264539050740790599146221429618993870201854189975360744722010879382742240,
    lc0⟩) (.sx (.leaf ⟨782, 16, 2533, 222, 16, 1613, ⟨[[(0, 5093832859566080), (0, 3542910270678415), (17669330777,
    0), (0, 4972403), (0, 436)], [(9292731411457611, 0), (0, 4386392753807), (83338879, 0), (0, 1875)], [(0,
    17017161114146), (1396623680, 0), (346880, 0), (43, 0)], [(25349815450, 0), (884895, 0), (307, 0)]], 3, 4⟩,
    ⟨[[(17759194382510080, 0), (0, 2009436534144105), (0, 45304865706), (0, 9091954), (0, 909)], [(0,
    28509175367290843), (0, 656745989028), (0, 110497312), (0, 16717), (0, 1)], [(15030312292222, 0), (1061035552,
    0), (165118, 0), (23, 0)], [(0, 5178223280), (816633, 0), (238, 0)]], 3, 4⟩, 72057594037927936, 3739061663530,
    334502105135, ⟨[[(9625647186233, 0), (24871351807, 0), (18337486, 0), (0, 8213), (9, 0)], [(0, 14119305714), (0,
    44240356), (0, 23129), (0, 20)], [(27053815, 0), (56619, 0), (69, 0)], [(0, 47470), (0, 75)]], 3, 4⟩,
    17592186044416, 9169576,
    8548071839321084159021005669916833141546222838045339726660379244909010717529843632341413035244666687744535088315910963942864646,
    lc0⟩) (.sy (.leaf ⟨1331, 16, 4250, 281, 16, 2160, ⟨[[(20598246115803136, 0), (0, 3129465135603963), (9913893677,
    0), (0, 998515), (0, 43)], [(14310820490077940, 0), (0, 3602140721405), (47506135, 0), (371, 0)], [(0,
    23808902419014), (1161454403, 0), (152104, 0), (9, 0)], [(37504949459, 0), (284539, 0), (86, 0)]], 3, 4⟩, ⟨[[(0,
    30245454402531328), (0, 1354576785148632), (0, 15418826738), (0, 1552708), (0, 78)], [(0, 36430193902133925), (0,
    361813211107), (0, 30154412), (0, 2343)], [(19072331631946, 0), (739308547, 0), (60961, 0), (4, 0)], [(0,
    6924107141), (377672, 0), (60, 0)]], 3, 4⟩, 72057594037927936, 5650773291221, 168358394379, ⟨[[(9176028937469,
    0), (17874384579, 0), (10260309, 0), (0, 3633), (1, 0)], [(0, 7752336636), (0, 18903494), (0, 6950), (0, 5)],
    [(8826710, 0), (13991, 0), (13, 0)], [(0, 9251), (0, 9)]], 3, 4⟩, 17592186044416, 888736,
    7598280315271883329299112461128307196895686855345408565657268985062104154089609229304407616091324196813607393134916332864306410,
    lc0⟩) (.leaf ⟨1359, 16, 4411, 269, 16, 2144, ⟨[[(8966163631046656, 0), (0, 3238492772833544), (8658740319, 0),
    (0, 1130565), (0, 49)], [(12988647627354415, 0), (0, 3688788381164), (49933560, 0), (450, 0)], [(0,
    24064648133251), (1371609447, 0), (173371, 0), (11, 0)], [(39097329098, 0), (390034, 0), (99, 0)]], 3, 4⟩,
    ⟨[[(5665875054579712, 0), (0, 1361113641858236), (0, 17745283310), (0, 1702243), (0, 83)], [(0,
    36348468757560722), (0, 390993049085), (0, 33586663), (0, 2532)], [(19315237517255, 0), (797895414, 0), (67205,
    0), (5, 0)], [(0, 6669172666), (437444, 0), (65, 0)]], 3, 4⟩, 72057594037927936, 6136145283512, 91562201630,
    ⟨[[(9166003707039, 0), (18215056318, 0), (10681526, 0), (0, 3653)], [(0, 7662400000), (0, 18802921), (0, 7324),
    (0, 3)], [(8637742, 0), (13358, 0), (17, 0)], [(0, 8818), (0, 8)]], 3, 4⟩, 17592186044416, 888624,
    8769827400931674126293799157073551181075545774913370306154644867229273454569764979483046816606330532618546821244378853610082880,
    lc0⟩)))
theorem c97 : checkR job con0 true ⟨7, 9, 7, 9, 13, 17⟩ 1 28336 t97 423 21 640 31247 251 32000 = true := by decide +kernel

def t98 : CTree :=
  .sx (.sy (.sx (.leaf ⟨757, 16, 2343, 216, 16, 1701, ⟨[[(12418338910281728, 0), (0, 3637014461559379), (31380107341,
    0), (0, 3744146), (0, 321)], [(8365032083841192, 0), (0, 3961901801849), (128350970, 0), (4386, 0), (1, 0)], [(0,
    11118912443223), (1042137685, 0), (307265, 0), (38, 0)], [(18232902651, 0), (0, 230016), (86, 0)]], 3, 4⟩, ⟨[[(0,
    17049343006341120), (0, 2120176673480649), (0, 41350858995), (0, 8900278), (0, 905)], [(0, 27289637919198699),
    (0, 415628393002), (0, 64827740), (0, 10882), (0, 1)], [(13902290526773, 0), (1077729736, 0), (181251, 0), (26,
    0)], [(0, 5543216261), (281178, 0), (118, 0)]], 3, 4⟩, 72057594037927936, 2861712946254, 232024308858,
    ⟨[[(8750026348388, 0), (21546026743, 0), (16230091, 0), (0, 7908), (1, 0)], [(0, 12582112414), (0, 40741752), (0,
    17427), (0, 20)], [(25181039, 0), (53787, 0), (44, 0)], [(0, 47282), (0, 51)]], 3, 4⟩, 17592186044416, 9196126,
    7840854157923704276971648155362124933010433752472492189189691957732989405819221931078104541532874374397775072956616171146823315,
    lc0⟩) (.sy (.leaf ⟨1297, 16, 3954, 277, 16, 2310, ⟨[[(0, 16144856116494336), (0, 3215793756354543), (16287321087,
    0), (0, 706317), (0, 29)], [(13521792784492515, 0), (0, 3303226743541), (63990120, 0), (1524, 0)], [(0,
    15320747531876), (767417376, 0), (125968, 0), (8, 0)], [(27269799869, 0), (0, 557180), (2, 0)]], 3, 4⟩, ⟨[[(0,
    6901777938608128), (0, 1443014551168044), (0, 13691655918), (0, 1502021), (0, 77)], [(0, 35459603884460898), (0,
    211870089327), (0, 15573827), (0, 1405)], [(17752950766193, 0), (715849048, 0), (62207, 0), (4, 0)], [(0,
    7464802815), (53030, 0), (24, 0)]], 3, 4⟩, 72057594037927936, 4078518972663, 150779861484, ⟨[[(8356687618424, 0),
    (15237641171, 0), (8853245, 0), (0, 3243)], [(0, 6841544325), (0, 17073692), (0, 5096), (0, 4)], [(8069289, 0),
    (13259, 0), (6, 0)], [(0, 9009), (0, 6)]], 3, 4⟩, 17592186044416, 902968,
    7092615927929500773546399758614061260410629265501102107684296698374894528484982954597910503276001236954050294905421661408038326,
    lc0⟩) (.leaf ⟨1321, 16, 4097, 265, 16, 2296, ⟨[[(0, 34646052311728128), (0, 3315721077071843), (15726644035, 0),
    (0, 795904), (0, 33)], [(12309544413114395, 0), (0, 3354880809242), (68823212, 0), (1769, 0)], [(0,
    15441710505659), (932587996, 0), (143428, 0), (9, 0)], [(27966692492, 0), (0, 575342), (2, 0)]], 3, 4⟩,
    ⟨[[(13235502633017344, 0), (0, 1449100114739823), (0, 15975366916), (0, 1652321), (0, 83)], [(0,
    35354492831355782), (0, 227214349050), (0, 17676227), (0, 1522)], [(18018687670109, 0), (777025281, 0), (68782,
    0), (5, 0)], [(0, 7386980298), (77484, 0), (26, 0)]], 3, 4⟩, 72057594037927936, 4456628637196, 79785385070,
    ⟨[[(8350734536656, 0), (15528468658, 0), (9177940, 0), (0, 3188)], [(0, 6783688810), (0, 17048773), (0, 5146),
    (0, 5)], [(7965557, 0), (12660, 0), (8, 0)], [(0, 8769), (0, 5)]], 3, 4⟩, 17592186044416, 867320,
    7556193322178957904764101485472609754324223279333614567796320792291728688963465408778249321487863663655321464414492521082349074,
    lc0⟩))) (.sx (.sy (.leaf ⟨1343, 16, 4261, 267, 16, 2220, ⟨[[(0, 32603510630858752), (0, 3287178988126521),
    (12214651840, 0), (0, 968380), (0, 41)], [(12533514822607464, 0), (0, 3512886952951), (60826291, 0), (1195, 0)],
    [(0, 19424325789266), (1173560559, 0), (160873, 0), (10, 0)], [(33024356945, 0), (0, 145389), (46, 0)]], 3, 4⟩,
    ⟨[[(1652400417783808, 0), (0, 1406455666943966), (0, 17034027491), (0, 1688941), (0, 84)], [(0,
    35833112185478150), (0, 306230935630), (0, 25433497), (0, 2020)], [(18709047378477, 0), (799847592, 0), (69333,
    0), (5, 0)], [(0, 7073421449), (245910, 0), (44, 0)]], 3, 4⟩, 72057594037927936, 5318570672989, 69585756624,
    ⟨[[(8739316739144, 0), (16809297932, 0), (9880189, 0), (0, 3391), (0, 1)], [(0, 7192038036), (0, 17844095), (0,
    6071), (0, 5)], [(8263964, 0), (12817, 0), (12, 0)], [(0, 8752), (0, 6)]], 3, 4⟩, 17592186044416, 856003,
    8010178323761439922782052625170727984145294942562286726539330992635220856981058338224380782176644143329878376717972222252115382,
    lc0⟩) (.leaf ⟨1369, 16, 4421, 255, 16, 2203, ⟨[[(17438096354607104, 0), (0, 3398669920302549), (11093400647, 0),
    (0, 1094634), (0, 47)], [(11190524975881801, 0), (0, 3580457839043), (65090269, 0), (1392, 0)], [(0,
    19499039838046), (1393372150, 0), (183440, 0), (12, 0)], [(34201172157, 0), (0, 100189), (53, 0)]], 3, 4⟩,
    ⟨[[(13891026914656256, 0), (0, 1413966663758140), (0, 19556627617), (0, 1849628), (0, 90)], [(0,
    35717884459797650), (0, 330784341496), (0, 28387949), (0, 2180)], [(18982186259300, 0), (866527783, 0), (76339,
    0), (5, 0)], [(0, 6885278410), (290476, 0), (48, 0)]], 3, 4⟩, 72057594037927936, 5816055585230, 154795440218,
    ⟨[[(8741444790470, 0), (17165838871, 0), (10285464, 0), (0, 3297), (0, 2)], [(0, 7143408952), (0, 17797797), (0,
    6449), (0, 5)], [(8152311, 0), (12126, 0), (16, 0)], [(0, 8428), (0, 5)]], 3, 4⟩, 17592186044416, 839694,
    7934514960456174323638859571106681923155198383446525570600636325662772784447687078965981716194406307526611435169418178629570361,
    lc0⟩)) (.sy (.leaf ⟨1345, 16, 4247, 253, 16, 2281, ⟨[[(0, 1686893132300288), (0, 3421390695726823), (15006289447,
    0), (0, 897261), (0, 37)], [(11032630099827345, 0), (0, 3404642892838), (74263173, 0), (2047, 0)], [(0,
    15483087829887), (1123295521, 0), (163441, 0), (10, 0)], [(28691867357, 0), (0, 593699), (3, 0)]], 3, 4⟩,
    ⟨[[(26180593019584512, 0), (0, 1456850961492955), (0, 18470914278), (0, 1813569), (0, 89)], [(0,
    35241455606460117), (0, 244537261946), (0, 19937531), (0, 1646)], [(18306328875969, 0), (844292053, 0), (75890,
    0), (5, 0)], [(0, 7293398251), (104010, 0), (28, 0)]], 3, 4⟩, 72057594037927936, 4887951605712, 119165771301,
    ⟨[[(8350972340880, 0), (15846461269, 0), (9522262, 0), (0, 3085), (0, 1)], [(0, 6744306510), (0, 17030589), (0,
    5283), (0, 7)], [(7889764, 0), (11990, 0), (10, 0)], [(0, 8539), (0, 4)]], 3, 4⟩, 17592186044416, 875403,
    7254468449107910636038852157610452147635558178137229334418951045607301708398218313867942876184458476317789136116459221010171992,
    lc0⟩) (.leaf ⟨1370, 16, 4404, 241, 16, 2265, ⟨[[(2355454315528192, 0), (0, 3532970389647948), (14099403224, 0),
    (0, 1011747), (0, 42)], [(9687846171788212, 0), (0, 3451522085227), (80385022, 0), (2364, 0)], [(0,
    15426621824401), (1343314790, 0), (186354, 0), (12, 0)], [(29444342278, 0), (0, 612037), (4, 0)]], 3, 4⟩,
    ⟨[[(31745472907454464, 0), (0, 1466453863004123), (0, 21191079006), (0, 1986135), (0, 96)], [(0,
    35121352399135518), (0, 263969314915), (0, 22364035), (0, 1776)], [(18618445603950, 0), (918085839, 0), (83560,
    0), (6, 0)], [(0, 7183109226), (132755, 0), (31, 0)]], 3, 4⟩, 72057594037927936, 5369862112347, 214837349343,
    ⟨[[(8349951997510, 0), (16173012610, 0), (9881948, 0), (0, 2895), (0, 2)], [(0, 6706809547), (0, 16985885), (0,
    5502), (0, 9)], [(7813252, 0), (11207, 0), (13, 0)], [(0, 8281), (0, 2)]], 3, 4⟩, 17592186044416, 848390,
    7662120977979545428565144138648890191478456714545115124314451055060733232671493330925759566663716147567338552925398225617018954,
    lc0⟩)))) (.sy (.sx (.sy (.leaf ⟨1294, 16, 3923, 264, 16, 2372, ⟨[[(6016002005876736, 0), (0, 3326933481155882),
    (19046119209, 0), (0, 623534), (0, 25)], [(12276376267893653, 0), (0, 3216906908613), (73937637, 0), (2165, 0)],
    [(0, 11994197215201), (669966134, 0), (123123, 0), (8, 0)], [(23905655402, 0), (0, 897967), (0, 31)]], 3, 4⟩,
    ⟨[[(0, 32302326236692480), (0, 1489583739875843), (0, 14616586505), (0, 1594803), (0, 81)], [(0,
    34920489538684830), (0, 155735626195), (0, 10523381), (0, 1054)], [(17268289879610, 0), (734357654, 0), (66020,
    0), (5, 0)], [(0, 7596112869), (0, 64960), (10, 0)]], 3, 4⟩, 72057594037927936, 3593960118469, 112531450054,
    ⟨[[(8010395011849, 0), (14374360272, 0), (8547084, 0), (0, 3022)], [(0, 6442818095), (0, 16380870), (0, 4542),
    (0, 4)], [(7738517, 0), (12784, 0), (4, 0)], [(0, 8852), (0, 5)]], 3, 4⟩, 17592186044416, 926828,
    7359320609138597523313011747596791563563555179096214223315226780575605601235105246430085005698580645363458001991510092582996874,
    lc0⟩) (.leaf ⟨1317, 16, 4064, 252, 16, 2359, ⟨[[(0, 25039675951874048), (0, 3427201825516116), (18717702259, 0),
    (0, 700071), (0, 28)], [(11064276970760547, 0), (0, 3253867523836), (80165320, 0), (2502, 0)], [(0,
    12043702283498), (828343191, 0), (140187, 0), (9, 0)], [(24289513898, 0), (0, 964130), (0, 35)]], 3, 4⟩, ⟨[[(0,
    19234762215612416), (0, 1497255187254506), (0, 17050157262), (0, 1754492), (0, 87)], [(0, 34809627713853684), (0,
    166204873564), (0, 12112802), (0, 1140)], [(17557425739512, 0), (799887080, 0), (73007, 0), (5, 0)], [(0,
    7584379305), (0, 54357), (11, 0)]], 3, 4⟩, 72057594037927936, 3952179976276, 59067540759, ⟨[[(8005126355741, 0),
    (14648400311, 0), (8842045, 0), (0, 2955)], [(0, 6398634135), (0, 16373356), (0, 4501), (0, 6)], [(7669610, 0),
    (12163, 0), (6, 0)], [(0, 8673), (0, 4)]], 3, 4⟩, 17592186044416, 912995,
    7087291779009449129441068958337314913103199726739175218866962477304943028382087470208018864914233244409221912556729284651824490,
    lc0⟩)) (.sy (.leaf ⟨1285, 16, 3876, 250, 16, 2435, ⟨[[(27582051707224064, 0), (0, 3419470416445228),
    (22097830488, 0), (0, 512981), (0, 19)], [(11253895822870101, 0), (0, 3128050548061), (83051431, 0), (2764, 0)],
    [(0, 9049095184813), (529078183, 0), (115775, 0), (7, 0)], [(20920229273, 0), (0, 1219290), (0, 62)]], 3, 4⟩,
    ⟨[[(5978523024031744, 0), (0, 1534538833437494), (0, 15338489651), (0, 1674078), (0, 85)], [(0,
    34400081837490170), (0, 97109393631), (0, 5081834), (0, 676)], [(16747743746311, 0), (738036079, 0), (68148, 0),
    (5, 0)], [(0, 7746229572), (0, 183214), (0, 4)]], 3, 4⟩, 72057594037927936, 3047082119840, 99793226451,
    ⟨[[(7679895602818, 0), (13554575817, 0), (8260911, 0), (0, 2855), (1, 0)], [(0, 6084981840), (0, 15809576), (0,
    4040), (0, 5)], [(7486071, 0), (12534, 0), (2, 0)], [(0, 8843), (0, 4)]], 3, 4⟩, 17592186044416, 968103,
    7089120571686986266925706301674042841682623419995559735820151284390288574507969297173442697598809891966207732273198654168610945,
    lc0⟩) (.leaf ⟨1307, 16, 4014, 238, 16, 2423, ⟨[[(0, 32004327901544448), (0, 3518651936099559), (22053915619, 0),
    (0, 572506), (0, 21)], [(10050433702704605, 0), (0, 3150824088557), (90560469, 0), (3187, 0)], [(0,
    9065036930643), (674148262, 0), (131763, 0), (8, 0)], [(21014390940, 0), (0, 1330751), (0, 71)]], 3, 4⟩,
    ⟨[[(11258217179480064, 0), (0, 1543603242731594), (0, 17902470016), (0, 1842008), (0, 91)], [(0,
    34280423574218216), (0, 102230441491), (0, 6112020), (0, 729)], [(17051587949318, 0), (806228542, 0), (75389, 0),
    (5, 0)], [(0, 7800604259), (0, 186490), (0, 4)]], 3, 4⟩, 72057594037927936, 3375669415093, 61300972920,
    ⟨[[(7673805096551, 0), (13810066328, 0), (8527857, 0), (0, 2796), (1, 0)], [(0, 6050460992), (0, 15819607), (0,
    3869), (0, 7)], [(7446738, 0), (11903, 0), (3, 0)], [(0, 8724), (0, 2)]], 3, 4⟩, 17592186044416, 960596,
    7094576723521214596411665186523974354243688297275895022702981383146048444081198467398091076351840298437675418589613630849384953,
    lc0⟩))) (.sx (.sy (.leaf ⟨1340, 16, 4212, 240, 16, 2344, ⟨[[(0, 5592342996320256), (0, 3533097989917701),
    (18261329407, 0), (0, 786597), (0, 32)], [(9795556001069112, 0), (0, 3286915029936), (87206986, 0), (2885, 0)],
    [(0, 12013530710599), (1011524305, 0), (159757, 0), (10, 0)], [(24662935845, 0), (0, 1037745), (0, 40)]], 3, 4⟩,
    ⟨[[(0, 21222890358982656), (0, 1506107056808312), (0, 19702187090), (0, 1925064), (0, 94)], [(0,
    34674370047517781), (0, 178112832057), (0, 13815008), (0, 1231)], [(17863712110500, 0), (871585903, 0), (80534,
    0), (6, 0)], [(0, 7560512262), (0, 42870), (12, 0)]], 3, 4⟩, 72057594037927936, 4358169750524, 146132132932,
    ⟨[[(8007306876387, 0), (14956636576, 0), (9157804, 0), (0, 2824)], [(0, 6374492453), (0, 16377653), (0, 4500),
    (0, 9)], [(7631114, 0), (11455, 0), (8, 0)], [(0, 8510), (0, 2)]], 3, 4⟩, 17592186044416, 961187,
    7256303127528790511537554530810722680526790797243546417256566971191391559408882505081650741300492609763154577634397548819004753,
    lc0⟩) (.leaf ⟨1363, 16, 4366, 228, 16, 2328, ⟨[[(33424065977860096, 0), (0, 3643904493876072), (17650058467, 0),
    (0, 884040), (0, 36)], [(8466511507125097, 0), (0, 3313992539553), (95143995, 0), (3320, 0)], [(0,
    11883334329037), (1222934021, 0), (182133, 0), (12, 0)], [(25013872239, 0), (0, 1119365), (0, 45)]], 3, 4⟩,
    ⟨[[(0, 30517399393947648), (0, 1516966196049941), (0, 22592429467), (0, 2107588), (0, 101)], [(0,
    34530102752464914), (0, 191622325953), (0, 15638389), (0, 1325)], [(18197194254478, 0), (950232559, 0), (88662,
    0), (6, 0)], [(0, 7527283803), (0, 30463), (13, 0)]], 3, 4⟩, 72057594037927936, 4819826520050, 238194805612,
    ⟨[[(8012702770131, 0), (15284495292, 0), (9485344, 0), (0, 2580), (0, 1)], [(0, 6364690668), (0, 16372092), (0,
    4527), (0, 12)], [(7614394, 0), (10622, 0), (10, 0)], [(0, 8345)]], 3, 4⟩, 17592186044416, 911128,
    6832788783955083441804643630754298812991393570214816723437296996110100985498477113260370029812238057179471959955315371321615166,
    lc0⟩)) (.sy (.leaf ⟨1328, 16, 4159, 226, 16, 2409, ⟨[[(31232847260499968, 0), (0, 3623276148513077),
    (21922700096, 0), (0, 639704), (0, 24)], [(8798715418595060, 0), (0, 3167849161537), (99076523, 0), (3668, 0)],
    [(0, 9006333352790), (842279231, 0), (150114, 0), (9, 0)], [(21062137800, 0), (0, 1456568), (0, 81)]], 3, 4⟩,
    ⟨[[(1659429473021952, 0), (0, 1553986064135338), (0, 20698288772), (0, 2021482), (0, 99)], [(0,
    34135000687231628), (0, 108303587927), (0, 7212695), (0, 784)], [(17375018480715, 0), (880900671, 0), (83198, 0),
    (6, 0)], [(0, 7849754178), (0, 190057), (0, 5)]], 3, 4⟩, 72057594037927936, 3746589984576, 144164937918,
    ⟨[[(7680837755029, 0), (14114197107, 0), (8813074, 0), (0, 2656), (1, 0)], [(0, 6050928827), (0, 15863433), (0,
    3684), (0, 11)], [(7466101, 0), (11173, 0), (4, 0)], [(0, 8660)]], 3, 4⟩, 17592186044416, 1018793,
    6648635967137084262179444885075551322765323276816017182005844941978779144355676380142246538453375759806089958146863117573415659,
    lc0⟩) (.leaf ⟨1351, 16, 4310, 214, 16, 2393, ⟨[[(0, 29952313517981696), (0, 3732530311371158), (21681405129, 0),
    (0, 715247), (0, 27)], [(7496538846060954, 0), (0, 3176803991145), (108703902, 0), (4213, 0)], [(0,
    8854672160554), (1036723093, 0), (171111, 0), (11, 0)], [(21047181062, 0), (0, 1598159), (0, 93)]], 3, 4⟩, ⟨[[(0,
    22183151962558464), (0, 1565876583003216), (0, 23737003637), (0, 2212702), (0, 106)], [(0, 33964197514886955),
    (0, 115381915236), (0, 8383850), (0, 841)], [(17720455459214, 0), (962454978, 0), (91600, 0), (6, 0)], [(0,
    7893660412), (0, 193935), (0, 5)]], 3, 4⟩, 72057594037927936, 4164396112004, 233950380815, ⟨[[(7680289957973, 0),
    (14413483805, 0), (9101396, 0), (0, 2422), (1, 0)], [(0, 6037923595), (0, 15860883), (0, 3438), (0, 15)],
    [(7459474, 0), (10310, 0), (5, 0)], [(0, 8534), (2, 0)]], 3, 4⟩, 17592186044416, 995374,
    5380904438356456395995701800045756152835815593013253398890568986471592456934281580505059357794849300379194323606387659046322099,
    lc0⟩))))
theorem c98 : checkR job con0 true ⟨7, 9, 7, 9, 13, 17⟩ 1 28336 t98 243 21 320 31247 251 32000 = true := by decide +kernel

def t99 : CTree :=
  .sx (.leaf ⟨797, 16, 2703, 230, 16, 1528, ⟨[[(24632222389772288, 0), (0, 3367744454231623), (5789809422, 0), (0,
    5786989), (0, 506)], [(11131747678522827, 0), (0, 4876559557989), (20837766, 0), (0, 10061), (0, 1)], [(0,
    25167456279617), (1434596762, 0), (320530, 0), (38, 0)], [(34785726810, 0), (2304550, 0), (575, 0)]], 3, 4⟩,
    ⟨[[(34026295847919616, 0), (0, 1883795385008803), (0, 45105687141), (0, 8752742), (0, 868)], [(0,
    29927002559690526), (0, 913356786122), (0, 156541657), (0, 22354), (0, 2)], [(15934700512433, 0), (867836697, 0),
    (111031, 0), (16, 0)], [(0, 4768686509), (1427593, 0), (373, 0)]], 3, 4⟩, 72057594037927936, 4468711244294,
    530322447807, ⟨[[(10716430002286, 0), (28807959290, 0), (20957946, 0), (0, 7119), (32, 0)], [(0, 16146369408),
    (0, 49228776), (0, 30651), (0, 26), (0, 1)], [(29872957, 0), (65553, 0), (60, 0), (0, 1)], [(0, 49728), (0,
    125)]], 3, 4⟩, 17592186044416, 9584904,
    8803087321094872857308361987737232331834415909698999528525948903471586189232874701763979279217334370754186765375708294978246411,
    lc0⟩) (.sy (.leaf ⟨1337, 16, 4463, 285, 16, 2012, ⟨[[(0, 33447244226297856), (0, 2948896452843621), (3934801538,
    0), (0, 1212289), (0, 53)], [(16167187585252492, 0), (0, 3927717945949), (21907249, 0), (0, 1284)], [(0,
    35038038965604), (1323189953, 0), (153206, 0), (9, 0)], [(51077277511, 0), (1433662, 0), (196, 0)]], 3, 4⟩,
    ⟨[[(29087821297541120, 0), (0, 1256220112518420), (0, 15771033373), (0, 1513551), (0, 75)], [(0,
    37541862147815979), (0, 525184836119), (0, 45317879), (0, 3277)], [(20044437911498, 0), (657578121, 0), (48442,
    0), (3, 0)], [(0, 6172079104), (767165, 0), (102, 0)]], 3, 4⟩, 72057594037927936, 6920106145955, 347581976941,
    ⟨[[(10136904020261, 0), (20982164723, 0), (12060084, 0), (0, 3876), (8, 0)], [(0, 8944216519), (0, 21544389), (0,
    9842), (0, 2)], [(9983234, 0), (16530, 0), (17, 0)], [(0, 10011), (0, 16)]], 3, 4⟩, 17592186044416, 1190493,
    8333267721181805093783833122536393028037945193130631538179271895200146586965627288627239046514659858206907416697162383823845644,
    lc0⟩) (.sx (.leaf ⟨1629, 16, 5535, 435, 16, 3101, ⟨[[(33959006939430912, 0), (0, 3602410048959679), (2277196677,
    0), (0, 1621361), (0, 70)], [(9263750289109397, 0), (0, 2441535313779), (10197600, 0), (0, 989)], [(0,
    11158980713098), (443652887, 0), (49896, 0), (3, 0)], [(8272059448, 0), (270722, 0), (35, 0)]], 3, 4⟩, ⟨[[(0,
    11320249516974080), (0, 1952984106116554), (0, 27173174235), (0, 2514761), (0, 122)], [(0, 29474442207600475),
    (0, 452993471892), (0, 39731673), (0, 2803)], [(7925639481956, 0), (262304269, 0), (19344, 0), (1, 0)], [(0,
    1118828469), (175298, 0), (22, 0)]], 3, 4⟩, 72057594037927936, 563546583456, 46193440750, ⟨[[(10293447744047, 0),
    (13904115767, 0), (5192251, 0), (0, 1090), (2, 0)], [(0, 7554244252), (0, 11662114), (0, 3647), (1, 0)],
    [(6934504, 0), (7480, 0), (6, 0)], [(0, 5606), (0, 7)]], 3, 4⟩, 17592186044416, 427974,
    9032922990846228406392906282215421153535117715411324869655973642126488466519110924570756645315331945603372404890211030343215469,
    lc0⟩) (.leaf ⟨1625, 16, 5504, 421, 16, 3126, ⟨[[(32501158702874624, 0), (0, 3683406540236395), (2780402245, 0),
    (0, 1648097), (0, 71)], [(8322470635460602, 0), (0, 2389435309664), (14488130, 0), (0, 718)], [(0,
    10089376614831), (473029531, 0), (53838, 0), (3, 0)], [(7760754777, 0), (235944, 0), (32, 0)]], 3, 4⟩,
    ⟨[[(16199672593125376, 0), (0, 1987428731835761), (0, 29038378742), (0, 2651222), (0, 128)], [(0,
    29046878033485891), (0, 433523093340), (0, 38296964), (0, 2704)], [(7848524354658, 0), (285821234, 0), (22250,
    0), (2, 0)], [(0, 1112100535), (162786, 0), (21, 0)]], 3, 4⟩, 72057594037927936, 557445546828, 35926123206,
    ⟨[[(10015842971867, 0), (13554240116, 0), (5149322, 0), (0, 1147), (1, 0)], [(0, 7324131490), (0, 11432404), (0,
    3609), (1, 0)], [(6798104, 0), (7177, 0), (7, 0)], [(0, 5517), (0, 6)]], 3, 4⟩, 17592186044416, 412947,
    9733973529253970108982317806232469272695437926987491660401674427446021790767287976718351893768172305179191956643136614878500584,
    lc0⟩)))
theorem c99 : checkR job con0 true ⟨7, 9, 7, 9, 13, 17⟩ 1 28336 t99 381 21 640 63247 251 64000 = true := by decide +kernel

def t100 : CTree :=
  .sy (.sx (.leaf ⟨1645, 16, 5711, 444, 16, 3017, ⟨[[(0, 32657483995201536), (0, 3501698383769661), (0, 658622575),
    (0, 1709309), (0, 74)], [(10380607934439436, 0), (0, 2588200924742), (333893, 0), (0, 1620)], [(0,
    13585855493074), (423626157, 0), (45630, 0), (3, 0)], [(9690794914, 0), (379809, 0), (45, 0)]], 3, 4⟩,
    ⟨[[(14734567177195520, 0), (0, 1886254243524916), (0, 26566823143), (0, 2436811), (0, 118)], [(0,
    30246541324685105), (0, 523581659390), (0, 45912378), (0, 3168)], [(8100631842741, 0), (222970278, 0), (14410,
    0), (1, 0)], [(0, 1048224244), (219056, 0), (27, 0)]], 3, 4⟩, 72057594037927936, 605431258207, 65511387874,
    ⟨[[(10872410921283, 0), (14949052938, 0), (5555108, 0), (0, 1028), (3, 0)], [(0, 8062504091), (0, 12332797), (0,
    4015), (2, 0)], [(7253710, 0), (8290, 0), (4, 0)], [(0, 5701), (0, 9)]], 3, 4⟩, 17592186044416, 476257,
    9287674529588979693975771208307596643527570291646220149611167318508292265994597452336817401889354504843461272948424494645915812,
    lc0⟩) (.leaf ⟨1645, 16, 5694, 430, 16, 3041, ⟨[[(26096132942807040, 0), (0, 3598883092423433), (0, 559130358),
    (0, 1767082), (0, 76)], [(9262137936824520, 0), (0, 2543062518892), (4389024, 0), (0, 1373)], [(0,
    12359652106472), (468319308, 0), (51032, 0), (3, 0)], [(9159835017, 0), (349963, 0), (43, 0)]], 3, 4⟩,
    ⟨[[(12029737054679040, 0), (0, 1923012014012939), (0, 28694192801), (0, 2588351), (0, 124)], [(0,
    29806812878804888), (0, 507719924584), (0, 44914963), (0, 3097)], [(8034109485612, 0), (251833620, 0), (17887,
    0), (1, 0)], [(0, 1024466196), (208868, 0), (26, 0)]], 3, 4⟩, 72057594037927936, 601705911250, 52443301784,
    ⟨[[(10575700015274, 0), (14579153191, 0), (5506041, 0), (0, 1187), (2, 0)], [(0, 7802995804), (0, 12052398), (0,
    4034), (3, 0)], [(7071868, 0), (7956, 0), (6, 0)], [(0, 5532), (0, 9)]], 3, 4⟩, 17592186044416, 427100,
    10430485824096622568300078444312164996465414656996213306269460907565041888553371566749033551484910689868586063904130427199906847,
    lc0⟩)) (.sx (.sy (.leaf ⟨2794, 16, 9812, 548, 16, 3810, ⟨[[(2651522292154368, 0), (0, 3009177022135178), (0,
    1139655448), (0, 391676), (0, 8)], [(16160523396940565, 0), (0, 2223766765461), (0, 667619), (0, 370)], [(0,
    23056300878715), (394445132, 0), (20964, 0), (1, 0)], [(16906606697, 0), (356625, 0), (21, 0)]], 3, 4⟩,
    ⟨[[(32169541037817856, 0), (0, 1204324250315962), (0, 9288676882), (0, 413525), (0, 10)], [(0,
    38454037882796532), (0, 353298690252), (0, 15659899), (0, 532)], [(10338496740202, 0), (147920833, 0), (4927,
    0)], [(0, 1214602519), (151723, 0), (9, 0)]], 3, 4⟩, 72057594037927936, 1037595857387, 57985611408,
    ⟨[[(10874209925079, 0), (11933325585, 0), (3553223, 0), (0, 604), (1, 0)], [(0, 4780958367), (0, 5793252), (0,
    1567), (1, 0)], [(2538327, 0), (2352, 0), (1, 0)], [(0, 1148), (0, 2)]], 3, 4⟩, 17592186044416, 127007,
    10094899352411292448715476804397161029831266257832486304215704854652043670931869609795371423463167880903080478673728682992707612,
    lc0⟩) (.leaf ⟨2832, 16, 10019, 537, 16, 3788, ⟨[[(0, 30942126267039744), (0, 3074135567981610), (0, 1779138474),
    (0, 417490), (0, 9)], [(15361353921124870, 0), (0, 2271654944672), (0, 1262978), (0, 394)], [(0, 23335045901437),
    (424748338, 0), (22390, 0), (1, 0)], [(17451552862, 0), (386127, 0), (22, 0)]], 3, 4⟩, ⟨[[(0, 6854566867525632),
    (0, 1206957963501830), (0, 9869232410), (0, 431209), (0, 10)], [(0, 38412316515396955), (0, 367295367942), (0,
    16381658), (0, 550)], [(10353883087546, 0), (152115581, 0), (5161, 0)], [(0, 1129518740), (160263, 0), (10, 0)]],
    3, 4⟩, 72057594037927936, 1073176005609, 53702512011, ⟨[[(10878580779057, 0), (12066187679, 0), (3643364, 0), (0,
    690), (1, 0)], [(0, 4740209662), (0, 5778366), (0, 1645), (2, 0)], [(2484498, 0), (2358, 0), (1, 0)], [(0, 1088),
    (0, 2)]], 3, 4⟩, 17592186044416, 130693,
    10694914123817535860181583577049689074933977345594448082609432963052247309355497883309335031130053242459733866539035950018500363,
    lc0⟩)) (.sy (.sx (.leaf ⟨3342, 16, 11708, 843, 16, 6038, ⟨[[(0, 303020738183168), (0, 3673752856149546), (0,
    1359374160), (0, 480511), (0, 10)], [(8804653066600117, 0), (0, 1311287446135), (426347, 0), (0, 196)], [(0,
    6410629840752), (127453403, 0), (6833, 0)], [(2422770315, 0), (50313, 0), (3, 0)]], 3, 4⟩, ⟨[[(0,
    18041051061125120), (0, 1925982044942048), (0, 15494031183), (0, 681595), (0, 16)], [(0, 29957274258042782), (0,
    272212254023), (0, 12141340), (0, 412)], [(4051122467847, 0), (64175111, 0), (2290, 0)], [(0, 235181843), (28858,
    0), (2, 0)]], 3, 4⟩, 72057594037927936, 80334780270, 6088565577, ⟨[[(10651692950149, 0), (7433078829, 0),
    (1422727, 0), (0, 168)], [(0, 3900727014), (0, 3019936), (0, 539)], [(1740504, 0), (1007, 0)], [(0, 655), (0,
    1)]], 3, 4⟩, 17592186044416, 110272,
    9997231782378250215073472213195175110020276339592004861405129977730870595271766605747097947654055370541471305784425355124302614,
    lc0⟩) (.leaf ⟨3339, 16, 11681, 829, 16, 6062, ⟨[[(18358080104169472, 0), (0, 3719999833419968), (0, 1326128678),
    (0, 487255), (0, 10)], [(8259773015013094, 0), (0, 1297320093411), (1013684, 0), (0, 178)], [(0, 6095429849046),
    (133352493, 0), (7189, 0)], [(2351323278, 0), (48078, 0), (3, 0)]], 3, 4⟩, ⟨[[(0, 23906938496401408), (0,
    1945000061730815), (0, 16063395805), (0, 701531), (0, 17)], [(0, 29735946996407698), (0, 267730316655), (0,
    11987278), (0, 407)], [(4037643008064, 0), (68025911, 0), (2517, 0)], [(0, 233578336), (28092, 0), (2, 0)]], 3,
    4⟩, 72057594037927936, 80812808862, 6367103009, ⟨[[(10505540101899, 0), (7340436069, 0), (1417806, 0), (0, 174)],
    [(0, 3841340074), (0, 2986766), (0, 548)], [(1722079, 0), (982, 0), (1, 0)], [(0, 646), (0, 1)]], 3, 4⟩,
    17592186044416, 112425,
    10114979559041007482315235807084803989313534882149158827753892408960394215644711353455159261896875239237070742769591292965017533,
    lc0⟩)) (.leaf ⟨2883, 16, 10171, 521, 16, 3837, ⟨[[(4061675780800512, 0), (0, 3216841631899031), (0, 1818217218),
    (0, 439370), (0, 9)], [(13696636775078920, 0), (0, 2267871996208), (745764, 0), (0, 339)], [(0, 21515407617623),
    (478845419, 0), (25529, 0), (1, 0)], [(16785535496, 0), (363600, 0), (22, 0)]], 3, 4⟩, ⟨[[(30749750587170816, 0),
    (0, 1237912952582668), (0, 10683893753), (0, 459857), (0, 11)], [(0, 38034218786245181), (0, 358259404771), (0,
    16103898), (0, 541)], [(10345759813978, 0), (173996870, 0), (6419, 0)], [(0, 1113869660), (153522, 0), (9, 0)]],
    3, 4⟩, 72057594037927936, 1095591714557, 33029273309, ⟨[[(10570780525514, 0), (11703627211, 0), (3586389, 0), (0,
    738), (1, 0)], [(0, 4503550549), (0, 5509174), (0, 1680), (2, 0)], [(2335751, 0), (2141, 0), (2, 0)], [(0, 995),
    (0, 2)]], 3, 4⟩, 17592186044416, 106586,
    10459709550148165849163494917474694045538390199259339731699251102842377662276061463749943992817058134095676356719656673870307322,
    lc0⟩)))
theorem c100 : checkR job con0 true ⟨7, 9, 7, 9, 13, 17⟩ 1 28336 t100 741 21 1280 63749 251 64000 = true := by decide +kernel

def t101 : CTree :=
  .sy (.sx (.sy (.leaf ⟨2817, 16, 9680, 541, 16, 3954, ⟨[[(0, 12806960992387072), (0, 3149191740157126), (168258371,
    0), (0, 378301), (0, 8)], [(14595908375444992, 0), (0, 2128625311524), (3955691, 0), (0, 229)], [(0,
    19210835327793), (421952936, 0), (23365, 0), (1, 0)], [(14653949291, 0), (260747, 0), (17, 0)]], 3, 4⟩,
    ⟨[[(26980236870828032, 0), (0, 1258841757792520), (0, 9601130532), (0, 430991), (0, 10)], [(0,
    37806893657700248), (0, 308649488018), (0, 13706370), (0, 475)], [(10235277947359, 0), (176888044, 0), (6667,
    0)], [(0, 1338271126), (122944, 0), (8, 0)]], 3, 4⟩, 72057594037927936, 990380702474, 31532343843,
    ⟨[[(10283008236587, 0), (10984753587, 0), (3258649, 0), (0, 574), (1, 0)], [(0, 4394560407), (0, 5318028), (0,
    1388), (1, 0)], [(2342285, 0), (1988, 0), (2, 0)], [(0, 1076), (0, 1)]], 3, 4⟩, 17592186044416, 147113,
    9683584215174022839816008194806521709912744592695472967361686809473321505083931821594370716662229093718768083063986713761998697,
    lc0⟩) (.sx (.leaf ⟨3322, 16, 11513, 833, 16, 6123, ⟨[[(0, 18657714174197760), (0, 3719071773939112), (0,
    534159209), (0, 466718), (0, 10)], [(8285122870196340, 0), (0, 1269107067991), (1841056, 0), (0, 151)], [(0,
    5786909233439), (129963098, 0), (7108, 0)], [(2230588641, 0), (42428, 0), (3, 0)]], 3, 4⟩, ⟨[[(22153447648690176,
    0), (0, 1959550711312447), (0, 15661579812), (0, 692030), (0, 16)], [(0, 29564004241049795), (0, 252872076118),
    (0, 11290283), (0, 387)], [(4013088702657, 0), (69529297, 0), (2618, 0)], [(0, 247541604), (25794, 0), (2, 0)]],
    3, 4⟩, 72057594037927936, 76958978612, 6070926495, ⟨[[(10355190352234, 0), (7163245724, 0), (1375394, 0), (0,
    162)], [(0, 3776583641), (0, 2935257), (0, 516)], [(1706593, 0), (944, 0), (1, 0)], [(0, 655), (0, 1)]], 3, 4⟩,
    17592186044416, 114236,
    9796857564783677354907188743186399461647549823323363966150949664631582288308961886231087841271713594668857657076071261290760621,
    lc0⟩) (.leaf ⟨3317, 16, 11481, 819, 16, 6147, ⟨[[(13338228220395520, 0), (0, 3761657371365690), (0, 442867968),
    (0, 471355), (0, 10)], [(7789004620893950, 0), (0, 1254473136062), (2445115, 0), (0, 132)], [(0, 5494559028013),
    (134790394, 0), (7414, 0)], [(2160794219, 0), (40024, 0), (3, 0)]], 3, 4⟩, ⟨[[(26852706286141440, 0), (0,
    1977768683477820), (0, 16194264586), (0, 710905), (0, 17)], [(0, 29342776164766988), (0, 247864504963), (0,
    11105411), (0, 381)], [(3997606091691, 0), (73005415, 0), (2826, 0)], [(0, 247044898), (24947, 0), (2, 0)]], 3,
    4⟩, 72057594037927936, 77134286307, 4226250429, ⟨[[(10216618676039, 0), (7075691042, 0), (1370902, 0), (0, 164)],
    [(0, 3722285849), (0, 2906164), (0, 522)], [(1691687, 0), (921, 0), (1, 0)], [(0, 649)]], 3, 4⟩, 17592186044416,
    104940,
    9864060661089119629247757562263783807832180674553212039988664503946828032173056402065053703893838928142474412748717002726428897,
    lc0⟩))) (.sy (.leaf ⟨2853, 16, 9776, 527, 16, 4007, ⟨[[(0, 7956178002444288), (0, 3269941639692113), (380552419,
    0), (0, 390468), (0, 8)], [(13187765581811020, 0), (0, 2112600676357), (6063167, 0), (0, 168)], [(0,
    17590175511412), (457365674, 0), (25618, 0), (1, 0)], [(13950415550, 0), (231783, 0), (15, 0)]], 3, 4⟩, ⟨[[(0,
    32292743048585216), (0, 1288527231074072), (0, 10300724205), (0, 456570), (0, 11)], [(0, 37449522951925169), (0,
    297086413657), (0, 13282323), (0, 461)], [(10202561672703, 0), (194351205, 0), (7702, 0)], [(0, 1343061089),
    (114815, 0), (7, 0)]], 3, 4⟩, 72057594037927936, 996110441545, 15617750727, ⟨[[(10020037329248, 0), (10662523079,
    0), (3198242, 0), (0, 576)], [(0, 4205404344), (0, 5108557), (0, 1358), (1, 0)], [(2231744, 0), (1830, 0), (2,
    0)], [(0, 1012), (0, 1)]], 3, 4⟩, 17592186044416, 97519,
    9853592177765330564965814443123963047797640808691760623774199962662691923811333368785059691222501154961789135137797085728013985,
    lc0⟩) (.leaf ⟨2888, 16, 9976, 515, 16, 3986, ⟨[[(635612019916800, 0), (0, 3336754695435722), (0, 224856161), (0,
    415992), (0, 9)], [(12376879606722985, 0), (0, 2149740311451), (5923770, 0), (0, 178)], [(0, 17709054817448),
    (493584178, 0), (27376, 0), (1, 0)], [(14358562631, 0), (252637, 0), (16, 0)]], 3, 4⟩, ⟨[[(0, 12540498050727936),
    (0, 1292410889546341), (0, 10947273916), (0, 476289), (0, 11)], [(0, 37405000455045809), (0, 309146393578), (0,
    13917496), (0, 478)], [(10248108740369, 0), (201224041, 0), (8061, 0)], [(0, 1276852308), (121581, 0), (8, 0)]],
    3, 4⟩, 72057594037927936, 1035339887741, 10404128098, ⟨[[(10017682620741, 0), (10776803318, 0), (3281227, 0), (0,
    609)], [(0, 4175681139), (0, 5090111), (0, 1453), (1, 0)], [(2193941, 0), (1802, 0), (2, 0)], [(0, 966), (0,
    1)]], 3, 4⟩, 17592186044416, 49771,
    9917934463329704356197731407066835621432058510662098939004385636059426965786460197698830921924681944153342392459959363473227488,
    lc0⟩))) (.sx (.sx (.leaf ⟨1799, 16, 6309, 557, 16, 4194, ⟨[[(0, 1634110039916544), (0, 4077793331855606), (0,
    3558049078), (0, 2182246), (0, 93)], [(4017015188827898, 0), (0, 1388162173265), (3265891, 0), (0, 702)], [(0,
    3115276487757), (154580895, 0), (16687, 0), (1, 0)], [(1240685742, 0), (51018, 0), (6, 0)]], 3, 4⟩, ⟨[[(0,
    23955273241812992), (0, 2718384217549222), (0, 47349518831), (0, 4071397), (0, 191)], [(0, 20385036287040414),
    (0, 370627374877), (0, 33404150), (0, 2254)], [(2785703393811, 0), (100863469, 0), (7744, 0), (1, 0)], [(0,
    155620559), (38728, 0), (5, 0)]], 3, 4⟩, 72057594037927936, 48361903399, 19308856834, ⟨[[(10361789116828, 0),
    (10546509111, 0), (2998709, 0), (0, 560)], [(0, 7032242691), (0, 7963419), (0, 2253), (2, 0)], [(5877298, 0),
    (4796, 0), (5, 0)], [(0, 4041), (0, 5)]], 3, 4⟩, 17592186044416, 234852,
    10333613728667113317217549463463151325816516680034215428798743186987433309822315884654302457414737990240574125650237493197822543,
    lc0⟩) (.sy (.leaf ⟨3330, 16, 11616, 801, 16, 6109, ⟨[[(0, 23511741400023040), (0, 3806704668852085), (0,
    1181944974), (0, 497831), (0, 11)], [(7244048041262682, 0), (0, 1266842391511), (2268921, 0), (0, 139)], [(0,
    5488787225284), (144081581, 0), (7853, 0)], [(2207186407, 0), (43130, 0), (3, 0)]], 3, 4⟩, ⟨[[(0,
    31949644451201024), (0, 1982243567484694), (0, 17183778760), (0, 740754), (0, 17)], [(0, 29287871187836526), (0,
    257703225783), (0, 11618550), (0, 394)], [(4010035401933, 0), (75446563, 0), (2955, 0)], [(0, 232680707), (26363,
    0), (2, 0)]], 3, 4⟩, 72057594037927936, 80580792877, 4557175809, ⟨[[(10220560167990, 0), (7159118051, 0),
    (1408793, 0), (0, 177)], [(0, 3728331114), (0, 2923915), (0, 564)], [(1689898, 0), (929, 0), (1, 0)], [(0, 633),
    (0, 1)]], 3, 4⟩, 17592186044416, 100067,
    9868580663136087608148434433679499789849386554936162365395140962596183423749609250333236324938991229935819043257303078370864693,
    lc0⟩) (.leaf ⟨3342, 16, 11752, 782, 16, 6069, ⟨[[(0, 12830309323505664), (0, 3852860356987696), (0, 1970759607),
    (0, 525665), (0, 11)], [(6686021187230874, 0), (0, 1279477379656), (2080001, 0), (0, 146)], [(0, 5477840959684),
    (153931099, 0), (8318, 0)], [(2255630144, 0), (46436, 0), (3, 0)]], 3, 4⟩, ⟨[[(0, 33535086375157760), (0,
    1986969121076178), (0, 18205977340), (0, 771243), (0, 18)], [(0, 29227581268705384), (0, 267904602181), (0,
    12144330), (0, 408)], [(4022157313715, 0), (77975140, 0), (3087, 0)], [(0, 217602904), (27824, 0), (2, 0)]], 3,
    4⟩, 72057594037927936, 82178594348, 2720421216, ⟨[[(10221288666109, 0), (7245678586, 0), (1451008, 0), (0, 190)],
    [(0, 3735049019), (0, 2942797), (0, 618)], [(1687986, 0), (936, 0), (1, 0)], [(0, 615), (0, 1)]], 3, 4⟩,
    17592186044416, 92179,
    9956967808810251258167937592244110474466639679539853769327176251590422840103055406698618475724320116132615764758327652779013641,
    lc0⟩))) (.sy (.sx (.leaf ⟨3323, 16, 11578, 787, 16, 6133, ⟨[[(0, 10231972794138624), (0, 3847028459615782), (0,
    1069091470), (0, 501583), (0, 11)], [(6772327412676069, 0), (0, 1250411789950), (2932988, 0), (0, 118)], [(0,
    5197749437047), (148867513, 0), (8158, 0)], [(2134676757, 0), (40436, 0), (3, 0)]], 3, 4⟩, ⟨[[(0,
    24354630547095552), (0, 2000761573796452), (0, 17735833340), (0, 760106), (0, 18)], [(0, 29066001516932998), (0,
    252215016052), (0, 11406638), (0, 387)], [(3996379715535, 0), (79011816, 0), (3165, 0)], [(0, 233340547), (25412,
    0), (2, 0)]], 3, 4⟩, 72057594037927936, 80151648704, 3360565047, ⟨[[(10084351888084, 0), (7071725190, 0),
    (1404576, 0), (0, 174)], [(0, 3677536162), (0, 2895470), (0, 571)], [(1677883, 0), (902, 0), (1, 0)], [(0,
    629)]], 3, 4⟩, 17592186044416, 92256,
    9757564097278963974750372157324865260157145814255747157768549182222851309332872809593485488643907189033221224277906807956319921,
    lc0⟩) (.leaf ⟨3315, 16, 11537, 773, 16, 6157, ⟨[[(0, 7215256585207808), (0, 3885472079243939), (0, 928028921),
    (0, 504291), (0, 11)], [(6324422444052302, 0), (0, 1233314682338), (3618793, 0), (0, 96)], [(0, 4915422037717),
    (153249804, 0), (8444, 0)], [(2062120266, 0), (37612, 0), (2, 0)]], 3, 4⟩, ⟨[[(0, 12214915154534400), (0,
    2019083758065624), (0, 18280473517), (0, 779212), (0, 18)], [(0, 28843974786784396), (0, 246405951387), (0,
    11176298), (0, 379)], [(3982483100288, 0), (82466456, 0), (3369, 0)], [(0, 234671470), (24409, 0), (1, 0)]], 3,
    4⟩, 72057594037927936, 79628169640, 4131413015, ⟨[[(9950752283699, 0), (6985585039, 0), (1400249, 0), (0, 169)],
    [(0, 3628745456), (0, 2868158), (0, 577)], [(1667506, 0), (874, 0), (1, 0)], [(0, 626)]], 3, 4⟩, 17592186044416,
    83795,
    9668629767460720236364069665759899216252117422524935529594356622305956314665162998965407039134283193868872970356652737421196067,
    lc0⟩)) (.leaf ⟨2961, 16, 10395, 491, 16, 3940, ⟨[[(0, 10570357733359616), (0, 3478720644562603), (0, 1597462741),
    (0, 472184), (0, 10)], [(10653757982164034, 0), (0, 2228211695147), (5592742, 0), (0, 200)], [(0,
    17906817191022), (574320578, 0), (31282, 0), (1, 0)], [(15243805018, 0), (299446, 0), (19, 0)]], 3, 4⟩, ⟨[[(0,
    5275068092145664), (0, 1300693894611963), (0, 12307814722), (0, 517095), (0, 12)], [(0, 37294487922123715), (0,
    334669511690), (0, 15237964), (0, 512)], [(10337847867534, 0), (215734965, 0), (8810, 0)], [(0, 1133736493),
    (135801, 0), (8, 0)]], 3, 4⟩, 72057594037927936, 1123115647663, 20323649358, ⟨[[(10015917542862, 0),
    (11020733596, 0), (3468859, 0), (0, 671)], [(0, 4116863400), (0, 5051030), (0, 1705), (1, 0)], [(2114651, 0),
    (1742, 0), (3, 0)], [(0, 867), (0, 1)]], 3, 4⟩, 17592186044416, 119656,
    9949910172710626022531782425962079190565629852309839562087451668458652339717438979017908953872527921062735109200095711201384795,
    lc0⟩)))
theorem c101 : checkR job con0 true ⟨7, 9, 7, 9, 13, 17⟩ 1 28336 t101 783 21 1280 63749 251 64000 = true := by decide +kernel

def t102 : CTree :=
  .sx (.sy (.sx (.leaf ⟨1608, 16, 5343, 427, 16, 3187, ⟨[[(0, 1509959522746368), (0, 3676846220484631), (5725894469,
    0), (0, 1488207), (0, 65)], [(8444598777761568, 0), (0, 2298815781591), (19225093, 0), (0, 395)], [(0,
    9103420514384), (432166584, 0), (51024, 0), (3, 0)], [(6996406241, 0), (166868, 0), (25, 0)]], 3, 4⟩, ⟨[[(0,
    34902578069901312), (0, 2014981919388420), (0, 27161376694), (0, 2555306), (0, 125)], [(0, 28747382047841042),
    (0, 381403570124), (0, 33242973), (0, 2411)], [(7709176711849, 0), (287248583, 0), (22782, 0), (2, 0)], [(0,
    1198125549), (131806, 0), (18, 0)]], 3, 4⟩, 72057594037927936, 512879360724, 33480431871, ⟨[[(9763367349690, 0),
    (12927373834, 0), (4858117, 0), (0, 1069), (1, 0)], [(0, 7096156158), (0, 11098670), (0, 3188)], [(6665934, 0),
    (6896, 0), (6, 0)], [(0, 5588), (0, 5)]], 3, 4⟩, 17592186044416, 425016,
    8483246442119172356841537063354357808830703603732677369559570649201584039616098467139742908918583069999342487666481791133336677,
    lc0⟩) (.leaf ⟨1601, 16, 5303, 414, 16, 3215, ⟨[[(0, 27951492604821504), (0, 3744378938099496), (6575565083, 0),
    (0, 1487899), (0, 64)], [(7658420066739028, 0), (0, 2244759551474), (23461959, 0), (0, 121)], [(0,
    8186857279168), (447630226, 0), (53596, 0), (3, 0)], [(6524009066, 0), (130788, 0), (22, 0)]], 3, 4⟩, ⟨[[(0,
    32505857132388352), (0, 2048323875791152), (0, 28766641811), (0, 2677007), (0, 130)], [(0, 28353069796246412),
    (0, 359735541781), (0, 31512641), (0, 2292)], [(7625073935128, 0), (305607269, 0), (25133, 0), (2, 0)], [(0,
    1202608021), (118248, 0), (16, 0)]], 3, 4⟩, 72057594037927936, 502354325497, 23172032382, ⟨[[(9515122934561, 0),
    (12598817738, 0), (4811205, 0), (0, 1067)], [(0, 6898273564), (0, 10911676), (0, 3098)], [(6567727, 0), (6661,
    0), (6, 0)], [(0, 5563), (0, 5)]], 3, 4⟩, 17592186044416, 436357,
    8846474444592294473516800109949640419995772024879930470855538897162468537922830365166979464933356306877136535536335527341794287,
    lc0⟩)) (.sx (.sy (.leaf ⟨2815, 16, 9467, 535, 16, 4103, ⟨[[(5578271235866624, 0), (0, 3254165201709117),
    (1766908000, 0), (0, 351841), (0, 8)], [(13433817486765836, 0), (0, 2023905276826), (8314263, 0), (0, 91)], [(0,
    15828488065145), (418117146, 0), (24230, 0), (1, 0)], [(12514399238, 0), (165298, 0), (12, 0)]], 3, 4⟩,
    ⟨[[(34458714716782592, 0), (0, 1310943982126624), (0, 9705777181), (0, 442360), (0, 11)], [(0,
    37200992668404578), (0, 262300016733), (0, 11603731), (0, 413)], [(10068430856272, 0), (196388519, 0), (7925,
    0)], [(0, 1475275741), (93779, 0), (6, 0)]], 3, 4⟩, 72057594037927936, 918597825566, 14627497940,
    ⟨[[(9752884489230, 0), (10121631642, 0), (2992095, 0), (0, 516)], [(0, 4080314373), (0, 4950080), (0, 1178)],
    [(2202632, 0), (1746, 0), (1, 0)], [(0, 1041), (0, 1)]], 3, 4⟩, 17592186044416, 108507,
    8952043523691807282134989592025917653552971124853623138374197469395513331892040103592284624531301398870271933029101738648282091,
    lc0⟩) (.leaf ⟨2848, 16, 9656, 524, 16, 4083, ⟨[[(11550840622645248, 0), (0, 3317597511751119), (1249854122, 0),
    (0, 374743), (0, 8)], [(12667852603377995, 0), (0, 2055867546209), (8338090, 0), (0, 96)], [(0, 15924078881547),
    (451861285, 0), (25887, 0), (1, 0)], [(12852023614, 0), (181253, 0), (13, 0)]], 3, 4⟩, ⟨[[(0, 18367316844380160),
    (0, 1314589124373033), (0, 10337648131), (0, 461905), (0, 11)], [(0, 37153652315567793), (0, 272929771751), (0,
    12178951), (0, 428)], [(10119480803941, 0), (203555830, 0), (8301, 0)], [(0, 1419672243), (99605, 0), (6, 0)]],
    3, 4⟩, 72057594037927936, 955004266372, 7837045853, ⟨[[(9760741866770, 0), (10233975654, 0), (3062732, 0), (0,
    534)], [(0, 4058776052), (0, 4935691), (0, 1245)], [(2172028, 0), (1716, 0), (2, 0)], [(0, 1003), (0, 1)]], 3,
    4⟩, 17592186044416, 106579,
    9396666113987528059856059901692648971528255050568003434907648127514731518007739966600001000322312774451510662778878199775288146,
    lc0⟩)) (.leaf ⟨1611, 16, 5426, 395, 16, 3180, ⟨[[(4852329201074176, 0), (0, 3825657610762178), (4333015248, 0),
    (0, 1660102), (0, 71)], [(6689080347952735, 0), (0, 2272816201595), (23821969, 0), (0, 120)], [(0,
    8132564880824), (515720002, 0), (60200, 0), (4, 0)], [(6748335272, 0), (157441, 0), (25, 0)]], 3, 4⟩, ⟨[[(0,
    12399293027504128), (0, 2056660305345432), (0, 32640704011), (0, 2916391), (0, 139)], [(0, 28231174023208960),
    (0, 388876311201), (0, 34730219), (0, 2463)], [(7700293895673, 0), (328567760, 0), (27545, 0), (2, 0)], [(0,
    1126637785), (133812, 0), (18, 0)]], 3, 4⟩, 72057594037927936, 536947844813, 26957068192, ⟨[[(9514924443718, 0),
    (12889038119, 0), (5055111, 0), (0, 1109)], [(0, 6933332511), (0, 11039656), (0, 3512), (1, 0)], [(6612757, 0),
    (6583, 0), (9, 0)], [(0, 5459), (0, 5)]], 3, 4⟩, 17592186044416, 437986,
    9372383882404430482387897506814754073828521599695777096521083986644369913794180788335485745585926657235575656316383286436586062,
    lc0⟩))) (.sx (.sy (.leaf ⟨1592, 16, 5260, 401, 16, 3243, ⟨[[(0, 9457992038989824), (0, 3806740463407806),
    (7594977110, 0), (0, 1474978), (0, 64)], [(6947721197954161, 0), (0, 2188639052557), (27845938, 0), (164, 0)],
    [(0, 7330964909644), (458050768, 0), (55677, 0), (3, 0)], [(6062134466, 0), (92947, 0), (18, 0)]], 3, 4⟩, ⟨[[(0,
    23951610110115840), (0, 2080851228673704), (0, 30306336444), (0, 2794298), (0, 135)], [(0, 27960335200671092),
    (0, 336369926109), (0, 29574330), (0, 2161)], [(7538657855644, 0), (322323496, 0), (27294, 0), (2, 0)], [(0,
    1213729394), (103707, 0), (14, 0)]], 3, 4⟩, 72057594037927936, 492039511979, 23224390683, ⟨[[(9282155706359, 0),
    (12289222154, 0), (4768234, 0), (0, 1038)], [(0, 6722391254), (0, 10752458), (0, 3012)], [(6498984, 0), (6443,
    0), (7, 0)], [(0, 5575), (0, 4)]], 3, 4⟩, 17592186044416, 425312,
    8722236935913487604062004979281349390602605860567665691937403397608895323881265762234658602439606801752807952660212755658442006,
    lc0⟩) (.leaf ⟨1601, 16, 5380, 382, 16, 3208, ⟨[[(6078154979983360, 0), (0, 3886961015539332), (5395362148, 0),
    (0, 1644401), (0, 70)], [(5989661749645746, 0), (0, 2209840408713), (28757117, 0), (200, 0)], [(0,
    7248213992579), (528440437, 0), (62542, 0), (4, 0)], [(6253027786, 0), (114809, 0), (21, 0)]], 3, 4⟩, ⟨[[(0,
    7675270734786560), (0, 2090651498720588), (0, 34349325248), (0, 3043052), (0, 144)], [(0, 27833257807651962), (0,
    363773537679), (0, 32611525), (0, 2322)], [(7624399358575, 0), (347386121, 0), (29897, 0), (2, 0)], [(0,
    1145402092), (117681, 0), (16, 0)]], 3, 4⟩, 72057594037927936, 524994726183, 34592540514, ⟨[[(9280920295765, 0),
    (12572106496, 0), (5007052, 0), (0, 1037), (0, 1)], [(0, 6763495689), (0, 10875521), (0, 3433)], [(6558947, 0),
    (6296, 0), (9, 0)], [(0, 5487), (0, 4)]], 3, 4⟩, 17592186044416, 385918,
    8779632334460557569142338428896172237865102550374238618165661333147504284727795675805369788677586794250246132494222211896954526,
    lc0⟩)) (.leaf ⟨840, 16, 2791, 255, 16, 2193, ⟨[[(0, 34928660972568576), (0, 4132038034048510), (16425958511, 0),
    (0, 6477767), (0, 553)], [(3091201576542877, 0), (0, 2263869937070), (69979127, 0), (2082, 0)], [(0,
    3433803676988), (527453285, 0), (128474, 0), (16, 0)], [(3012009586, 0), (65593, 0), (33, 0)]], 3, 4⟩,
    ⟨[[(6678409506168832, 0), (0, 2854712476750171), (0, 91215483318), (0, 16357168), (0, 1559)], [(0,
    18537218853448664), (0, 436592867271), (0, 77754480), (0, 11276), (0, 1)], [(5052199629911, 0), (472435347, 0),
    (82549, 0), (11, 0)], [(0, 809595124), (127256, 0), (36, 0)]], 3, 4⟩, 72057594037927936, 326683030889,
    128962973275, ⟨[[(9049236110655, 0), (17974035184, 0), (10646271, 0), (0, 3174), (0, 4)], [(0, 12403734908), (0,
    29872598), (0, 12810), (0, 6)], [(23078042, 0), (32428, 0), (64, 0)], [(0, 37575), (0, 29)]], 3, 4⟩,
    17592186044416, 5520265,
    8865072088833304349005319808905446332626114271611398525039759863091453691003200532350241075992807937762862835245971633710316060,
    lc0⟩))
theorem c102 : checkR job con0 true ⟨7, 9, 7, 9, 13, 17⟩ 1 28336 t102 423 21 640 63247 251 64000 = true := by decide +kernel

def t103 : CTree :=
  .sx (.sy (.sx (.sx (.leaf ⟨1757, 16, 6034, 539, 16, 4274, ⟨[[(8470954725441536, 0), (0, 4117887711238793),
    (732752469, 0), (0, 1992718), (0, 85)], [(3579324679784557, 0), (0, 1283377919052), (9421966, 0), (0, 295)], [(0,
    2496692687113), (151770386, 0), (17064, 0), (1, 0)], [(1031537143, 0), (32894, 0), (4, 0)]], 3, 4⟩,
    ⟨[[(35561254910230528, 0), (0, 2779979034053708), (0, 47230628613), (0, 4113993), (0, 194)], [(0,
    19670308985793064), (0, 310397021239), (0, 27975066), (0, 1933)], [(2700637983634, 0), (111507492, 0), (9147, 0),
    (1, 0)], [(0, 175239235), (29428, 0), (4, 0)]], 3, 4⟩, 72057594037927936, 44485897987, 16763304937,
    ⟨[[(9816737653907, 0), (9896021794, 0), (2852224, 0), (0, 480)], [(0, 6680690198), (0, 7702832), (0, 2034), (1,
    0)], [(5806293, 0), (4347, 0), (5, 0)], [(0, 4244), (0, 4)]], 3, 4⟩, 17592186044416, 249953,
    9677451794720536763867447718104397510837690096129961291889841270914097728804910578532021872812939263733587388668634356566669062,
    lc0⟩) (.leaf ⟨1745, 16, 5986, 529, 16, 4280, ⟨[[(10802093887111168, 0), (0, 4138335363738511), (1149684722, 0),
    (0, 1987280), (0, 85)], [(3348155671536345, 0), (0, 1260353723221), (10792096, 0), (0, 203)], [(0,
    2349940064871), (154496850, 0), (17473, 0), (1, 0)], [(990843584, 0), (29789, 0), (4, 0)]], 3, 4⟩, ⟨[[(0,
    11844348272771072), (0, 2796737517165021), (0, 48457106975), (0, 4199949), (0, 197)], [(0, 19471680287560546),
    (0, 301299676264), (0, 27225703), (0, 1882)], [(2682288316088, 0), (115282716, 0), (9614, 0), (1, 0)], [(0,
    176019325), (27963, 0), (4, 0)]], 3, 4⟩, 72057594037927936, 42831029272, 18777141853, ⟨[[(9697643312854, 0),
    (9805571405, 0), (2855487, 0), (0, 469)], [(0, 6628004668), (0, 7692450), (0, 2052), (1, 0)], [(5827408, 0),
    (4282, 0), (5, 0)], [(0, 4295), (0, 3)]], 3, 4⟩, 17592186044416, 260835,
    9439511595276807280626531049394638816328151018286889079570220342430624370645579912185377187518606016148618358369204040035039434,
    lc0⟩)) (.sy (.leaf ⟨2904, 16, 9903, 497, 16, 4117, ⟨[[(0, 7746017258405888), (0, 3488787358357792), (1093270517,
    0), (0, 403964), (0, 9)], [(10652633885329146, 0), (0, 2057737024644), (10808111, 0), (0, 27)], [(0,
    14472433871981), (513468242, 0), (29458, 0), (1, 0)], [(12431150370, 0), (161345, 0), (12, 0)]], 3, 4⟩,
    ⟨[[(12049885149106176, 0), (0, 1348064454700159), (0, 11669805116), (0, 506859), (0, 12)], [(0,
    36745704220805669), (0, 269351209357), (0, 12169741), (0, 424)], [(10134558788659, 0), (226640429, 0), (9618,
    0)], [(0, 1390077615), (95498, 0), (6, 0)]], 3, 4⟩, 72057594037927936, 991728911039, 26371328532,
    ⟨[[(9510164448300, 0), (10038559083, 0), (3081909, 0), (0, 505)], [(0, 3877755999), (0, 4748457), (0, 1286)],
    [(2062258, 0), (1543, 0), (2, 0)], [(0, 925), (0, 1)]], 3, 4⟩, 17592186044416, 107021,
    9146726723021340059377337012691197667341016123389490758703848322321299524757597753759525195489880029453633606710697738440433778,
    lc0⟩) (.leaf ⟨2937, 16, 10102, 485, 16, 4095, ⟨[[(32828877760856064, 0), (0, 3558090597310270), (481168620, 0),
    (0, 430094), (0, 9)], [(9815730982506328, 0), (0, 2088038201318), (10984561, 0), (0, 27)], [(0, 14492623751193),
    (554670874, 0), (31484, 0), (1, 0)], [(12766762458, 0), (177390, 0), (13, 0)]], 3, 4⟩, ⟨[[(9203029959069696, 0),
    (0, 1352901885456567), (0, 12384860711), (0, 528429), (0, 12)], [(0, 36686942401855037), (0, 280388141073), (0,
    12752792), (0, 439)], [(10196019891878, 0), (235278827, 0), (10058, 0)], [(0, 1333411801), (101227, 0), (6, 0)]],
    3, 4⟩, 72057594037927936, 1034653370291, 34821409068, ⟨[[(9512690432809, 0), (10153141629, 0), (3163088, 0), (0,
    503), (0, 1)], [(0, 3859234729), (0, 4730853), (0, 1389)], [(2034676, 0), (1498, 0), (2, 0)], [(0, 885), (0,
    1)]], 3, 4⟩, 17592186044416, 133740,
    9191440838124878424390030675903705949749215231027395405669613350345082754229321939473147753339909195330519385317467830705505055,
    lc0⟩))) (.sx (.sy (.leaf ⟨2952, 16, 10256, 488, 16, 4017, ⟨[[(0, 35008839562297344), (0, 3522575090645243), (0,
    591990742), (0, 452744), (0, 10)], [(10186209924383717, 0), (0, 2157651895828), (8375926, 0), (0, 111)], [(0,
    16125416115161), (568795924, 0), (31601, 0), (1, 0)], [(13973318409, 0), (237161, 0), (16, 0)]], 3, 4⟩, ⟨[[(0,
    6787829363802112), (0, 1327217600438465), (0, 12377112702), (0, 523680), (0, 12)], [(0, 36986127113368375), (0,
    307595496105), (0, 14007028), (0, 476)], [(10277002374609, 0), (226829804, 0), (9500, 0)], [(0, 1234158207),
    (118369, 0), (7, 0)]], 3, 4⟩, 72057594037927936, 1083436210979, 28723737260, ⟨[[(9756551784377, 0), (10574344840,
    0), (3310923, 0), (0, 578), (0, 1)], [(0, 3980568026), (0, 4878319), (0, 1544), (1, 0)], [(2069694, 0), (1603,
    0), (2, 0)], [(0, 874), (0, 1)]], 3, 4⟩, 17592186044416, 131246,
    9620099636778311445903621909119499329101761059706898474784636306514482770907971407629208973542469094573406873180020014524798114,
    lc0⟩) (.leaf ⟨2987, 16, 10468, 476, 16, 3993, ⟨[[(34129380978950144, 0), (0, 3596350645655060), (0, 1315188722),
    (0, 482196), (0, 10)], [(9293376578636271, 0), (0, 2193755644695), (8375774, 0), (0, 117)], [(0, 16159048655077),
    (613699236, 0), (33785, 0), (1, 0)], [(14387849574, 0), (258838, 0), (17, 0)]], 3, 4⟩, ⟨[[(0, 17597538863779840),
    (0, 1332040093409765), (0, 13105632270), (0, 545299), (0, 13)], [(0, 36922209096303720), (0, 320099366890), (0,
    14650524), (0, 493)], [(10331209309659, 0), (235195420, 0), (9924, 0)], [(0, 1165874470), (125065, 0), (8, 0)]],
    3, 4⟩, 72057594037927936, 1131052267775, 37603132850, ⟨[[(9761884631994, 0), (10702292135, 0), (3408674, 0), (0,
    583), (0, 1)], [(0, 3960731881), (0, 4860021), (0, 1690), (1, 0)], [(2036954, 0), (1564, 0), (3, 0)], [(0, 827),
    (0, 1)]], 3, 4⟩, 17592186044416, 81034,
    9114308745932221095214429001708771048851335329762332930203215572332479121667726321159332014662111436806072740312816807853834876,
    lc0⟩)) (.leaf ⟨1629, 16, 5675, 356, 16, 3099, ⟨[[(20697702135300096, 0), (0, 3997682352691071), (0, 1173265490),
    (0, 2060324), (0, 87)], [(4634408365572261, 0), (0, 2327458469160), (24549248, 0), (0, 117)], [(0,
    7896621265589), (678373056, 0), (75867, 0), (5, 0)], [(7251293585, 0), (222286, 0), (32, 0)]], 3, 4⟩,
    ⟨[[(25794680853356544, 0), (0, 2077311851075025), (0, 41233158668), (0, 3430449), (0, 158)], [(0,
    27929214177114210), (0, 454604954918), (0, 41699677), (0, 2824)], [(7854608228614, 0), (379908779, 0), (32798,
    0), (2, 0)], [(0, 948617111), (168225, 0), (21, 0)]], 3, 4⟩, 72057594037927936, 617619574021, 51030817435,
    ⟨[[(9509277395243, 0), (13527408936, 0), (5656987, 0), (0, 1083), (0, 3)], [(0, 7020946198), (0, 11288092), (0,
    4953), (1, 0)], [(6694143, 0), (6255, 0), (16, 0)], [(0, 5068), (0, 5)]], 3, 4⟩, 17592186044416, 301727,
    9311470537790536622261612148825289392622019118223382372216977056469209437331470859818091658986810117329154177963426086895309912,
    lc0⟩))) (.sy (.sx (.leaf ⟨1609, 16, 5501, 363, 16, 3168, ⟨[[(30409996578144256, 0), (0, 3970150990528081),
    (2872946185, 0), (0, 1831533), (0, 78)], [(4997520567959434, 0), (0, 2229856654449), (29737847, 0), (240, 0)],
    [(0, 7123357522408), (607633212, 0), (70228, 0), (4, 0)], [(6458112576, 0), (139762, 0), (23, 0)]], 3, 4⟩, ⟨[[(0,
    27060778816675840), (0, 2100985716903218), (0, 38668014660), (0, 3302810), (0, 154)], [(0, 27674958886182461),
    (0, 393353061072), (0, 35802845), (0, 2488)], [(7709242057658, 0), (374240090, 0), (32643, 0), (2, 0)], [(0,
    1068737543), (132578, 0), (17, 0)]], 3, 4⟩, 72057594037927936, 566410063956, 45973109194, ⟨[[(9286671560309, 0),
    (12887568276, 0), (5282991, 0), (0, 994), (0, 2)], [(0, 6820929688), (0, 11006506), (0, 4034)], [(6627515, 0),
    (6095, 0), (12, 0)], [(0, 5351), (0, 4)]], 3, 4⟩, 17592186044416, 390891,
    9103099693956841293692533649390396291553508326009386372246027101009564462207432983077350728781777127757217058396167964361872865,
    lc0⟩) (.leaf ⟨1597, 16, 5448, 350, 16, 3196, ⟨[[(0, 26340829406887936), (0, 4023580877160250), (4206547322, 0),
    (0, 1796169), (0, 76)], [(4389808794861681, 0), (0, 2157175298467), (35408526, 0), (609, 0)], [(0,
    6277826527418), (616194017, 0), (72191, 0), (5, 0)], [(5937150569, 0), (90022, 0), (19, 0)]], 3, 4⟩, ⟨[[(0,
    18349001439543296), (0, 2135546344072256), (0, 40467462144), (0, 3433481), (0, 159)], [(0, 27272006770931715),
    (0, 364442799970), (0, 33265849), (0, 2321)], [(7640066855972, 0), (393149350, 0), (34961, 0), (2, 0)], [(0,
    1102297163), (113812, 0), (15, 0)]], 3, 4⟩, 72057594037927936, 554712518554, 54822525309, ⟨[[(9057566463321, 0),
    (12567605613, 0), (5220999, 0), (0, 837), (0, 2)], [(0, 6663328981), (0, 10846897), (0, 3863), (0, 2)],
    [(6603379, 0), (5722, 0), (13, 0)], [(0, 5430), (0, 2)]], 3, 4⟩, 17592186044416, 372464,
    8187014831798356692746959902373629824355347055622616576163892564427243434991643035309852048709213815930125904838492674398429292,
    lc0⟩)) (.leaf ⟨1480, 16, 5144, 221, 16, 2058, ⟨[[(9967042589245440, 0), (0, 3754049558314733), (618114989, 0),
    (0, 1856881), (0, 78)], [(6748808600629343, 0), (0, 4060174511381), (62465321, 0), (902, 0)], [(0,
    23924159023152), (2584917329, 0), (294255, 0), (18, 0)], [(47047557524, 0), (1032228, 0), (175, 0)]], 3, 4⟩,
    ⟨[[(0, 20091906567675904), (0, 1397503522956152), (0, 29037204354), (0, 2390404), (0, 109)], [(0,
    35795502070794258), (0, 537719946697), (0, 49587472), (0, 3373)], [(20377958780471, 0), (1085731030, 0), (96611,
    0), (6, 0)], [(0, 5270918132), (725301, 0), (91, 0)]], 3, 4⟩, 72057594037927936, 8783143719828, 519212922943,
    ⟨[[(9172909198522, 0), (19909386775, 0), (12932557, 0), (0, 2624), (0, 20)], [(0, 7405184231), (0, 18301955), (0,
    11978), (0, 9)], [(7913055, 0), (9989, 0), (46, 0)], [(0, 6670), (0, 5)]], 3, 4⟩, 17592186044416, 851810,
    8145155474163972530483848644227015227184809483639597157979688225676598774079015010443328462512086001030181855966459113839170228,
    lc0⟩))
theorem c103 : checkR job con0 true ⟨7, 9, 7, 9, 13, 17⟩ 1 28336 t103 423 21 640 63749 251 64000 = true := by decide +kernel

def t104 : CTree :=
  .sx (.sy (.sx (.sy (.leaf ⟨1396, 16, 4588, 243, 16, 2185, ⟨[[(31027476925595648, 0), (0, 3516377459905428),
    (9726509387, 0), (0, 1237129), (0, 52)], [(9765164464195386, 0), (0, 3646753689529), (69851097, 0), (1615, 0)],
    [(0, 19460185012061), (1646461060, 0), (209242, 0), (13, 0)], [(35455364780, 0), (0, 45277), (62, 0)]], 3, 4⟩,
    ⟨[[(19197494707881984, 0), (0, 1423321024951839), (0, 22298245526), (0, 2021084), (0, 97)], [(0,
    35598116914946042), (0, 358031266561), (0, 31551572), (0, 2349)], [(19278282870426, 0), (939503332, 0), (83877,
    0), (6, 0)], [(0, 6671889662), (338710, 0), (53, 0)]], 3, 4⟩, 72057594037927936, 6369749926684, 261288113561,
    ⟨[[(8741406519394, 0), (17529967058, 0), (10716414, 0), (0, 3100), (0, 4)], [(0, 7095272446), (0, 17720624), (0,
    6997), (0, 7)], [(8035486, 0), (11322, 0), (20, 0)], [(0, 8062), (0, 4)]], 3, 4⟩, 17592186044416, 835418,
    8370332270130654138493492988982468461530617822648746125241844358527156791651920185454442220233123755622810591592490224713461783,
    lc0⟩) (.leaf ⟨1425, 16, 4764, 231, 16, 2164, ⟨[[(0, 29191193636634624), (0, 3642128239730591), (8080539575, 0),
    (0, 1398298), (0, 59)], [(8257364936532102, 0), (0, 3712510106736), (75200038, 0), (1870, 0)], [(0,
    19291946793733), (1938401990, 0), (238807, 0), (15, 0)], [(36808618280, 0), (20963, 0), (71, 0)]], 3, 4⟩,
    ⟨[[(1951156752119808, 0), (0, 1433376454734603), (0, 25246997846), (0, 2201546), (0, 103)], [(0,
    35442163450301733), (0, 387771553745), (0, 34899602), (0, 2525)], [(19581756616056, 0), (1018241011, 0), (91891,
    0), (6, 0)], [(0, 6425768714), (390492, 0), (57, 0)]], 3, 4⟩, 72057594037927936, 6996727697309, 374936330284,
    ⟨[[(8739599922983, 0), (17914087292, 0), (11190527, 0), (0, 2740), (0, 8)], [(0, 7041516002), (0, 17607102), (0,
    7717), (0, 11)], [(7897615, 0), (10384, 0), (26, 0)], [(0, 7633), (0, 2)]], 3, 4⟩, 17592186044416, 777105,
    8364897964490028445892799052842934848605456037366911335780411171438295530196376587757621339586558410855423531237443469111059008,
    lc0⟩)) (.sy (.leaf ⟨1396, 16, 4569, 229, 16, 2246, ⟨[[(0, 8905488434003968), (0, 3651466422371140), (12978926919,
    0), (0, 1141105), (0, 47)], [(8274565449801077, 0), (0, 3495184845135), (87292511, 0), (2725, 0)], [(0,
    15254684387851), (1597270584, 0), (212602, 0), (13, 0)], [(30229890861, 0), (0, 630239), (5, 0)]], 3, 4⟩,
    ⟨[[(14960972405741568, 0), (0, 1476787953896184), (0, 24127196461), (0, 2168439), (0, 103)], [(0,
    34963953145955206), (0, 285388400399), (0, 24939639), (0, 1910)], [(18940888230560, 0), (997969819, 0), (91743,
    0), (6, 0)], [(0, 7048841148), (163727, 0), (33, 0)]], 3, 4⟩, 72057594037927936, 5919366149356, 319740595484,
    ⟨[[(8352501464614, 0), (16530521289, 0), (10274946, 0), (0, 2568), (0, 4)], [(0, 6677481952), (0, 16926986), (0,
    5820), (0, 13)], [(7740318, 0), (10299, 0), (17, 0)], [(0, 7988)]], 3, 4⟩, 17592186044416, 835598,
    7407573655634430180708530769043988181386512842702930389834392149985223324937193775946707118352242008322948346428807266910681889,
    lc0⟩) (.leaf ⟨1422, 16, 4740, 217, 16, 2226, ⟨[[(0, 16351055337095168), (0, 3775528499604141), (11605544628, 0),
    (0, 1286498), (0, 53)], [(6787188779992561, 0), (0, 3532861835415), (95043735, 0), (3133, 0)], [(0,
    14936384823988), (1889348947, 0), (242533, 0), (15, 0)], [(31034535296, 0), (0, 647726), (7, 0)]], 3, 4⟩, ⟨[[(0,
    8470116248182784), (0, 1489323034414887), (0, 27307425551), (0, 2362354), (0, 110)], [(0, 34801071564842149), (0,
    309134280937), (0, 27687087), (0, 2052)], [(19292448013812, 0), (1085126200, 0), (100534, 0), (7, 0)], [(0,
    6895989188), (197172, 0), (36, 0)]], 3, 4⟩, 72057594037927936, 6534666889264, 438308379883, ⟨[[(8357076817449,
    0), (16905521700, 0), (10687007, 0), (0, 2009), (0, 7)], [(0, 6660871810), (0, 16840858), (0, 6231), (0, 19)],
    [(7681331, 0), (9223, 0), (22, 0)], [(0, 7669), (2, 0)]], 3, 4⟩, 17592186044416, 874511,
    6214741429318055539869780271548315387944119113367604233804853800241804976718448878821145904370420108057464096031007805998679095,
    lc0⟩))) (.sx (.leaf ⟨779, 16, 2677, 159, 16, 1596, ⟨[[(11265837598318592, 0), (0, 4082302559343515),
    (10594389586, 0), (0, 7131342), (0, 594)], [(3093562044553067, 0), (0, 4041237039114), (179321676, 0), (9852, 0),
    (1, 0)], [(0, 9940580905351), (2612668914, 0), (618390, 0), (77, 0)], [(20716509381, 0), (154774, 0), (189, 0)]],
    3, 4⟩, ⟨[[(13269194293102592, 0), (0, 2176172873656954), (0, 90231970639), (0, 14937748), (0, 1369)], [(0,
    26370179297607863), (0, 656105300793), (0, 120839263), (0, 16800), (0, 1)], [(15047899220192, 0), (1722102296,
    0), (314571, 0), (41, 0)], [(0, 4497124431), (712860, 0), (195, 0)]], 3, 4⟩, 72057594037927936, 4502593186286,
    593400112993, ⟨[[(8740185269632, 0), (24750325080, 0), (21366921, 0), (0, 3628), (0, 49)], [(0, 13180260321), (0,
    43713851), (0, 31145), (0, 98), (1, 0)], [(27440924, 0), (40663, 0), (235, 0)], [(0, 46258), (8, 0), (0, 2)]], 3,
    4⟩, 17592186044416, 5514868,
    7849935136940842051295416425748781969279160552211971973790949803799845599144710823061706489495198256526349120215042931124384209,
    lc0⟩) (.leaf ⟨764, 16, 2619, 147, 16, 1626, ⟨[[(0, 12894468891992064), (0, 4155405300768841), (18811049152, 0),
    (0, 6436932), (0, 527)], [(2310811328674189, 0), (0, 3739663605946), (226944900, 0), (16099, 0), (2, 0)], [(0,
    7387030297006), (2521603579, 0), (617941, 0), (78, 0)], [(16880408668, 0), (0, 702731), (20, 0)]], 3, 4⟩, ⟨[[(0,
    8098168784801792), (0, 2242010621538782), (0, 96520096959), (0, 15862049), (0, 1445)], [(0, 25602890241856664),
    (0, 517841701198), (0, 95275233), (0, 13493), (0, 1)], [(14732969387878, 0), (1823754110, 0), (340665, 0), (44,
    0)], [(0, 4912978826), (373981, 0), (122, 0)]], 3, 4⟩, 72057594037927936, 4206688747426, 619689667244,
    ⟨[[(8356710491002, 0), (23594211373, 0), (20633259, 0), (0, 1075), (0, 39)], [(0, 12716297682), (0, 42885995),
    (0, 24042), (0, 163), (1, 0)], [(27815880, 0), (35293, 0), (199, 0), (1, 0)], [(0, 49658), (59, 0), (0, 2)]], 3,
    4⟩, 17592186044416, 6345289,
    5194393126342683938593533808481850053460782446471416088706261080592853185223481159957749615368250827192887108384021867767804639,
    lc0⟩))) (.sy (.leaf ⟨681, 16, 2241, 100, 16, 1154, ⟨[[(17083558185820160, 0), (0, 3782590609346777),
    (36519710920, 0), (0, 3740325), (0, 294)], [(5750448660181835, 0), (0, 6370306004727), (459876313, 0), (36311,
    0), (4, 0)], [(0, 19300237336590), (5886079099, 0), (1691438, 0), (214, 0)], [(90451754238, 0), (0, 12193863),
    (0, 1318)]], 3, 4⟩, ⟨[[(0, 6877355769431040), (0, 1545447330693337), (0, 55641613914), (0, 9755183), (0, 913)],
    [(0, 33606115416658322), (0, 340269153798), (0, 57379084), (0, 9539), (0, 1)], [(36654274982605, 0), (4325766476,
    0), (823089, 0), (109, 0)], [(0, 30477649488), (0, 835096), (63, 0)]], 3, 4⟩, 72057594037927936, 43483404112080,
    3694014780632, ⟨[[(7843113719905, 0), (31026779157, 0), (39943837, 0), (0, 14473), (0, 25)], [(0, 12671818945),
    (0, 66377350), (0, 30886), (0, 409), (3, 0)], [(31549173, 0), (74401, 0), (186, 0), (3, 0)], [(0, 69961), (93,
    0), (0, 3)]], 3, 4⟩, 17592186044416, 18468349,
    6742052262958335142300505111360013676924112241285877305655517073596400729573772793014012032952499811603308400109522020575367239,
    lc0⟩) (.sy (.leaf ⟨1300, 16, 4403, 110, 16, 1388, ⟨[[(0, 17048495037251584), (0, 3690529741745864), (15735423946,
    0), (0, 1033629), (0, 40)], [(6717923202036708, 0), (0, 5901889966765), (247600802, 0), (10337, 0), (1, 0)], [(0,
    33071631028179), (7127465962, 0), (958562, 0), (61, 0)], [(168310425282, 0), (0, 13023301), (0, 741)]], 3, 4⟩,
    ⟨[[(22303335386608640, 0), (0, 957223528134501), (0, 20286794408), (0, 1685553), (0, 77)], [(0,
    40585028753049838), (0, 233150682434), (0, 20681879), (0, 1603)], [(46193262845129, 0), (3003436885, 0), (287198,
    0), (19, 0)], [(0, 37024598921), (0, 471640), (22, 0)]], 3, 4⟩, 72057594037927936, 91297462862704, 5559220788667,
    ⟨[[(7827129636132, 0), (26307633040, 0), (28154129, 0), (0, 1596), (0, 20)], [(0, 6812770348), (0, 29009831), (0,
    8879), (0, 206), (1, 0)], [(9139852, 0), (13355, 0), (44, 0), (1, 0)], [(0, 10424), (24, 0)]], 3, 4⟩,
    17592186044416, 2381088,
    5587463484124512480609945369081240221955891865548015056929459406866274471984107449811208789581669337393363501632907417712953805,
    lc0⟩) (.leaf ⟨1356, 16, 4687, 103, 16, 1377, ⟨[[(20729004403261440, 0), (0, 3912610979484025), (15026688469, 0),
    (0, 1189902), (0, 46)], [(4065236289555265, 0), (0, 6009350240371), (280972242, 0), (12120, 0), (1, 0)], [(0,
    31130526124263), (8662010303, 0), (1122244, 0), (71, 0)], [(172002372215, 0), (0, 14692113), (0, 863)]], 3, 4⟩,
    ⟨[[(0, 18293343078410240), (0, 971147504697847), (0, 22762567033), (0, 1831162), (0, 82)], [(0,
    40384879097954310), (0, 253135153407), (0, 23002402), (0, 1710)], [(47397158543786, 0), (3280158518, 0), (314148,
    0), (20, 0)], [(0, 36960484444), (0, 445340), (23, 0)]], 3, 4⟩, 72057594037927936, 104664081407546,
    6892726497279, ⟨[[(7845661002256, 0), (26938230928, 0), (28784807, 0), (5564, 0), (0, 29)], [(0, 6698048235), (0,
    27970007), (0, 6541), (0, 279), (1, 0)], [(8749697, 0), (9256, 0), (47, 0), (1, 0)], [(0, 9278), (31, 0)]], 3,
    4⟩, 17592186044416, 2684277,
    5323332472069270437327875747018915606817471475690673645446530330391854683263258480669402794072870686182247953654496904907028182,
    lc0⟩)))
theorem c104 : checkR job con0 true ⟨7, 9, 7, 9, 13, 17⟩ 1 28336 t104 243 21 320 31749 251 32000 = true := by decide +kernel

def t105 : CTree :=
  .sx (.sx (.sy (.leaf ⟨463, 16, 922, 245, 16, 1279, ⟨[[(0, 7824928882679808), (0, 2079417421844949), (34180349767,
    0), (0, 442926), (9, 0)], [(27021987360324050, 0), (0, 4439546688890), (112071338, 0), (0, 703)], [(0,
    322609562087), (0, 1640611345), (106083, 0), (1, 0)], [(57716268095, 0), (0, 3182656), (0, 18)]], 3, 4⟩, ⟨[[(0,
    26111162840829952), (0, 1606598137676376), (12815699309, 0), (0, 570953), (0, 32)], [(0, 33346428080704872), (0,
    220057539981), (18029550, 0), (123, 0)], [(24325473661344, 0), (714570769, 0), (21748, 0), (5, 0)], [(0,
    21961497589), (0, 1299961), (0, 9)]], 3, 4⟩, 72057594037927936, 1346177542983, 3694606083019, ⟨[[(7242538967742,
    0), (17521765404, 0), (14621985, 0), (0, 15252), (77, 0)], [(0, 13546311475), (0, 55123955), (0, 28702), (93,
    0)], [(37642110, 0), (145139, 0), (18, 0), (0, 1)], [(0, 101338), (0, 340)]], 3, 4⟩, 17592186044416, 45072021,
    2861163506510567394641453300656895196276557050155165157205513919110654988498456760236777468087201052457077076633494883019941628,
    lc0⟩) (.leaf ⟨472, 16, 970, 234, 16, 1280, ⟨[[(0, 9074038161321984), (0, 2151917293536057), (35272136368, 0), (0,
    447733), (8, 0)], [(26113723932753201, 0), (0, 4552769585690), (117050623, 0), (0, 382)], [(0, 1177569213846),
    (0, 1612880214), (113987, 0), (2, 0)], [(59034149530, 0), (0, 3375011), (0, 35)]], 3, 4⟩, ⟨[[(0,
    23680268400979968), (0, 1595427933514118), (11906802431, 0), (0, 655783), (0, 53)], [(0, 33478493405529679), (0,
    202024376915), (18217401, 0), (106, 0)], [(24709664194490, 0), (741234663, 0), (30727, 0), (7, 0)], [(0,
    22634731263), (0, 1314304), (0, 18)]], 3, 4⟩, 72057594037927936, 1779127581966, 3741614569836, ⟨[[(7241855592093,
    0), (17987092986, 0), (15619974, 0), (0, 19108), (35, 0)], [(0, 13337060590), (0, 55862098), (0, 31168), (101,
    0)], [(36645738, 0), (144536, 0), (33, 0)], [(0, 97664), (0, 329)]], 3, 4⟩, 17592186044416, 41423150,
    3035945752301414697330014091790058705673309595291697305899606550446984970404389673270176400764823445885249309840094915004598757,
    lc0⟩)) (.sy (.leaf ⟨455, 16, 877, 234, 16, 1326, ⟨[[(23743206851829760, 0), (0, 2158274504238831), (37165842391,
    0), (0, 448160), (15, 0)], [(25967905738955569, 0), (0, 4370885134942), (114962193, 0), (0, 627)],
    [(6625836312296, 0), (0, 1974322625), (97873, 0)], [(55599806289, 0), (0, 3531409), (0, 31)]], 3, 4⟩,
    ⟨[[(5148366917568512, 0), (0, 1674009856659255), (14110318725, 0), (0, 577932), (0, 32)], [(0,
    32568356476852547), (0, 172880521035), (20492248, 0), (526, 0)], [(22546659363920, 0), (576863986, 0), (19832,
    0), (4, 0)], [(0, 19699758867), (0, 1257269), (0, 32)]], 3, 4⟩, 72057594037927936, 2880312205321, 3509538086198,
    ⟨[[(6726169632017, 0), (15571988200, 0), (14053269, 0), (0, 15269), (10, 0)], [(0, 12077400571), (0, 50417622),
    (0, 32347), (84, 0)], [(34061791, 0), (137992, 0), (37, 0)], [(0, 93961), (0, 332)]], 3, 4⟩, 17592186044416,
    41752279,
    3007158976286240318191966089698041189026582457000537887879474986223885022970525024572766466291294628643928513747290895018412847,
    lc0⟩) (.leaf ⟨464, 16, 923, 223, 16, 1328, ⟨[[(0, 34326900401471488), (0, 2232556015637726), (38429447741, 0),
    (0, 438900), (17, 0)], [(25051107908814120, 0), (0, 4479076954797), (120275720, 0), (0, 274)], [(5956222071321,
    0), (0, 1974518110), (102962, 0)], [(56640682322, 0), (0, 3758548), (0, 52)]], 3, 4⟩, ⟨[[(0, 14912977568892928),
    (0, 1662802939823612), (13201357920, 0), (0, 663658), (0, 53)], [(0, 32699153267095936), (0, 152103322253),
    (21420918, 0), (669, 0)], [(22876278649260, 0), (601277949, 0), (27484, 0), (6, 0)], [(0, 20371059293), (0,
    1299791), (0, 49)]], 3, 4⟩, 72057594037927936, 2752246051476, 3555196935770, ⟨[[(6720801117575, 0), (15953016944,
    0), (15036080, 0), (0, 16421), (0, 10)], [(0, 11862960691), (0, 50975087), (0, 34623), (87, 0)], [(33074599, 0),
    (137004, 0), (43, 0)], [(0, 90354), (0, 321)]], 3, 4⟩, 17592186044416, 38681871,
    2236980376908756850203219343408051167915893017199669958662602309556445145468659781523073568128807016612100024902428744601567646,
    lc0⟩))) (.sx (.sy (.leaf ⟨443, 16, 826, 223, 16, 1372, ⟨[[(22605344989806592, 0), (0, 2209201063849932),
    (39712451117, 0), (0, 447907), (21, 0)], [(25263693239546935, 0), (0, 4291261961495), (115849397, 0), (0, 656)],
    [(13015167869780, 0), (0, 2305173125), (87916, 0), (0, 1)], [(55591450009, 0), (0, 3734487), (0, 38)]], 3, 4⟩,
    ⟨[[(7272616598642688, 0), (0, 1738637356306842), (15523760366, 0), (0, 568312), (0, 29)], [(0,
    31841146782499657), (0, 135472266342), (22721322, 0), (848, 0)], [(20948027686144, 0), (438390439, 0), (15338,
    0), (3, 0)], [(0, 17439108441), (0, 1215053), (0, 47)]], 3, 4⟩, 72057594037927936, 5630197104349, 3402629313232,
    ⟨[[(6279178453118, 0), (13833756732, 0), (13393456, 0), (0, 12232), (0, 16)], [(0, 10881023892), (0, 46351725),
    (0, 35330), (77, 0)], [(31333885, 0), (133065, 0), (50, 0)], [(0, 89298), (0, 335)]], 3, 4⟩, 17592186044416,
    41312508,
    2439592199749871645950915990841255160490375845120812240621841739631557472857433411612181709066339762010388488198984262027233096,
    lc0⟩) (.leaf ⟨450, 16, 869, 212, 16, 1375, ⟨[[(24870829509165056, 0), (0, 2282605911739650), (41104282224, 0),
    (0, 424981), (24, 0)], [(24343153004839467, 0), (0, 4392726808747), (121098930, 0), (0, 329)], [(12498383793629,
    0), (0, 2333526810), (89988, 0), (0, 2)], [(56501482833, 0), (0, 3978505), (0, 60)]], 3, 4⟩, ⟨[[(0,
    35799926644445184), (0, 1727266849136855), (14646091596, 0), (0, 648169), (0, 50)], [(0, 31973071585333778), (0,
    112194846992), (24260479, 0), (1137, 0)], [(21218661486435, 0), (457275540, 0), (20706, 0), (4, 0)], [(0,
    18102229181), (0, 1276059), (0, 70)]], 3, 4⟩, 72057594037927936, 5709683968491, 3460045105882, ⟨[[(6287734794650,
    0), (14217693480, 0), (14329656, 0), (0, 12446), (0, 24)], [(0, 10767658368), (0, 47215490), (0, 37600), (78,
    0)], [(30798472, 0), (133669, 0), (52, 0)], [(0, 87349), (0, 329)]], 3, 4⟩, 17592186044416, 39430880,
    2831819744449845357185809958728081371880709901428816148704520137496849245963964437954095294673045157189166442943409131037072027,
    lc0⟩)) (.sy (.leaf ⟨427, 16, 770, 212, 16, 1417, ⟨[[(24289436484308992, 0), (0, 2231493058439021), (41697647900,
    0), (0, 446165), (24, 0)], [(24852704440224719, 0), (0, 4199817277543), (114675952, 0), (0, 765)],
    [(18974643965255, 0), (0, 2606943674), (76947, 0), (0, 2)], [(57158375291, 0), (0, 3771813), (0, 44)]], 3, 4⟩,
    ⟨[[(0, 17123028674803712), (0, 1800831726929414), (17042728393, 0), (0, 546080), (0, 23)], [(0,
    31158333664437602), (0, 108366364951), (24528535, 0), (1045, 0)], [(19548239111896, 0), (300301636, 0), (9367,
    0), (1, 0)], [(0, 15136593896), (0, 1164440), (0, 52)]], 3, 4⟩, 72057594037927936, 7842373110723, 3351013456079,
    ⟨[[(5892837578928, 0), (12295150419, 0), (12586839, 0), (0, 8694), (0, 22)], [(0, 9924209838), (0, 42891891), (0,
    37852), (69, 0)], [(29370928, 0), (130362, 0), (64, 0)], [(0, 87184), (0, 349)]], 3, 4⟩, 17592186044416,
    43705268,
    2153584757347259459688541096270460866272204659882994461938189145959388186633408406334243746530071645175445072236152784579335700,
    lc0⟩) (.leaf ⟨433, 16, 810, 200, 16, 1421, ⟨[[(24168052560293888, 0), (0, 2303716798850017), (43198125508, 0),
    (0, 413055), (30, 0)], [(23956229359505472, 0), (0, 4297418069133), (119620032, 0), (0, 523)], [(18603733617991,
    0), (0, 2663164182), (76593, 0), (0, 3)], [(58123291075, 0), (0, 4019939), (0, 59)]], 3, 4⟩, ⟨[[(0,
    11691031561803776), (0, 1789184185464911), (16221317960, 0), (0, 613993), (0, 44)], [(0, 31294499497426200), (0,
    83086427185), (26471645, 0), (1453, 0)], [(19757134507823, 0), (311656627, 0), (11803, 0), (2, 0)], [(0,
    15780775350), (0, 1232750), (0, 78)]], 3, 4⟩, 72057594037927936, 8118688102387, 3422169081833, ⟨[[(5891723862332,
    0), (12615775748, 0), (13455131, 0), (0, 8522), (0, 24)], [(0, 9798515489), (0, 43725541), (0, 40294), (69, 0)],
    [(28859712, 0), (131557, 0), (65, 0)], [(0, 85491), (0, 346)]], 3, 4⟩, 17592186044416, 41977639,
    2635719973836087708444223712011055849640115052671701413198866263265327016066548770004153631112279398934822227794227499161722565,
    lc0⟩)))
theorem c105 : checkR job con0 true ⟨7, 9, 7, 9, 13, 17⟩ 1 28336 t105 153 21 160 28235 251 32000 = true := by decide +kernel

def t106 : CTree :=
  .sx (.sx (.sy (.leaf ⟨482, 16, 1022, 223, 16, 1281, ⟨[[(0, 35723807216525312), (0, 2230318556111007), (36464968839,
    0), (0, 455914), (7, 0)], [(25136665033707246, 0), (0, 4673208266300), (123063088, 0), (72, 0)], [(0,
    2063197276757), (0, 1576869324), (124181, 0), (3, 0)], [(60402591712, 0), (0, 3604452), (0, 61)]], 3, 4⟩, ⟨[[(0,
    16506495653861376), (0, 1585236389941823), (10836090125, 0), (0, 786378), (0, 78)], [(0, 33601536985944064), (0,
    183804729735), (18369029, 0), (74, 0)], [(25110060826928, 0), (778526328, 0), (42981, 0), (9, 0)], [(0,
    23318103096), (0, 1338672), (0, 29)]], 3, 4⟩, 72057594037927936, 2277914660632, 3765229436074, ⟨[[(7235239997555,
    0), (18448350579, 0), (16762380, 0), (0, 21359), (3, 0)], [(0, 13095244041), (0, 56445253), (0, 33921), (98, 0)],
    [(35547991, 0), (142957, 0), (43, 0)], [(0, 93760), (0, 315)]], 3, 4⟩, 17592186044416, 37999746,
    2619501091435310995579313346736706118128211312792931073753667091178955239465569006136225076700266663985247521759621367329041613,
    lc0⟩) (.leaf ⟨492, 16, 1078, 212, 16, 1282, ⟨[[(0, 26483573514727424), (0, 2314271057396346), (37748669565, 0),
    (0, 468623), (5, 0)], [(24072260493562203, 0), (0, 4798743062466), (130372615, 0), (698, 0)], [(0,
    2977706112580), (0, 1528687021), (137543, 0), (5, 0)], [(61785117402, 0), (0, 3881504), (0, 96)]], 3, 4⟩, ⟨[[(0,
    5123746957535232), (0, 1576223930670289), (9527120376, 0), (0, 972733), (0, 108)], [(0, 33715468913976637), (0,
    165445699640), (18462700, 0), (28, 0)], [(25532898676283, 0), (830094462, 0), (59229, 0), (12, 0)], [(0,
    24017254184), (0, 1375522), (0, 43)]], 3, 4⟩, 72057594037927936, 2853671065664, 3755821252227, ⟨[[(7233954943333,
    0), (18952690302, 0), (18035639, 0), (0, 22413), (0, 19)], [(0, 12889026508), (0, 57126973), (0, 36609), (89,
    0)], [(34634022, 0), (141358, 0), (48, 0)], [(0, 90631), (0, 299)]], 3, 4⟩, 17592186044416, 35148491,
    4434708474046782551224389432579306531085828673375891972806131673306469685524657411566751034810836680789413274694103991298183988,
    lc0⟩)) (.sy (.leaf ⟨472, 16, 973, 212, 16, 1331, ⟨[[(27247760107188224, 0), (0, 2313163806470334), (39841193435,
    0), (0, 426925), (18, 0)], [(24069786396485943, 0), (0, 4594509652249), (126735208, 0), (236, 0)],
    [(5261358780762, 0), (0, 1972284534), (109116, 0), (1, 0)], [(57703738480, 0), (0, 4031760), (0, 85)]], 3, 4⟩,
    ⟨[[(0, 19379319476633600), (0, 1653808112081851), (12136371652, 0), (0, 797456), (0, 79)], [(0,
    32844050032133455), (0, 130344812790), (22600105, 0), (835, 0)], [(23238245419044, 0), (635347448, 0), (38164,
    0), (8, 0)], [(0, 21085161133), (0, 1362481), (0, 70)]], 3, 4⟩, 72057594037927936, 2600361650558, 3589885003899,
    ⟨[[(6731811595099, 0), (16416820626, 0), (16141105, 0), (0, 16976), (0, 23)], [(0, 11743641664), (0, 51896363),
    (0, 37008), (84, 0)], [(32513200, 0), (137046, 0), (45, 0)], [(0, 88392), (0, 311)]], 3, 4⟩, 17592186044416,
    36540574,
    4446819535020241639640902088816231493034901799496368260233236074894963975532851563424602799118964656746355124595442812378898415,
    lc0⟩) (.sx (.leaf ⟨631, 16, 1355, 299, 16, 1939, ⟨[[(12267783275552768, 0), (0, 3101006662700050), (52777885375,
    0), (0, 555856), (21, 0)], [(15126023991473061, 0), (0, 3084038785705), (87180774, 0), (597, 0)], [(887945614237,
    0), (0, 603724348), (39860, 0), (1, 0)], [(9641619206, 0), (0, 693973), (0, 20)]], 3, 4⟩, ⟨[[(0,
    17100213418569728), (0, 2390709790039946), (15375570270, 0), (0, 1452036), (0, 162)], [(0, 24332842545191363),
    (0, 88678797507), (16656394, 0), (578, 0)], [(8837766807967, 0), (264411417, 0), (20135, 0), (4, 0)], [(0,
    4106722025), (0, 262962), (0, 16)]], 3, 4⟩, 72057594037927936, 124788632170, 358496277417, ⟨[[(6848790459827, 0),
    (11819061559, 0), (8117062, 0), (0, 5783), (0, 6)], [(0, 9110481866), (0, 28041547), (0, 13709), (20, 0)],
    [(19087023, 0), (55008, 0), (12, 0)], [(0, 39270), (0, 92)]], 3, 4⟩, 17592186044416, 9753466,
    5061982786744821935325373622191815762722239059155477816016120642094060225893294265221903342885371255937958740908300766672866578,
    lc0⟩) (.leaf ⟨620, 16, 1312, 289, 16, 1965, ⟨[[(0, 21052526395981824), (0, 3129099318529494), (54714994514, 0),
    (0, 512852), (31, 0)], [(14767793821731557, 0), (0, 3038916892257), (87548175, 0), (621, 0)], [(2042443671440,
    0), (0, 672367505), (35976, 0)], [(9459217099, 0), (0, 720936), (0, 22)]], 3, 4⟩, ⟨[[(0, 28041602882809856), (0,
    2426088286840416), (16325441557, 0), (0, 1439724), (0, 161)], [(0, 23928321463724434), (0, 68770874277),
    (18503247, 0), (922, 0)], [(8449580897253, 0), (234348494, 0), (18169, 0), (4, 0)], [(0, 3882495229), (0,
    266695), (0, 20)]], 3, 4⟩, 72057594037927936, 276767137008, 356591162889, ⟨[[(6607210055596, 0), (11188334936,
    0), (7999056, 0), (0, 5023), (0, 7)], [(0, 8668606659), (0, 27164920), (0, 14375), (19, 0)], [(18458119, 0),
    (54929, 0), (12, 0)], [(0, 38843), (0, 94)]], 3, 4⟩, 17592186044416, 9940761,
    5656558855999965705633584139997963144129611631513168782800811913084576070164104291304960949817455088980984667752352803569082227,
    lc0⟩)))) (.sy (.sx (.leaf ⟨458, 16, 916, 200, 16, 1379, ⟨[[(6537054698610688, 0), (0, 2362885534344264),
    (42693273657, 0), (0, 393092), (29, 0)], [(23367480302921984, 0), (0, 4502292400739), (127489695, 0), (159, 0)],
    [(11963224523450, 0), (0, 2366027921), (91753, 0), (0, 2)], [(57434048215, 0), (0, 4270662), (0, 92)]], 3, 4⟩,
    ⟨[[(7232418611845120, 0), (0, 1718064148893715), (13621264587, 0), (0, 776215), (0, 76)], [(0,
    32116283797156949), (0, 87148374437), (26298454, 0), (1483, 0)], [(21516441271540, 0), (483149794, 0), (28582,
    0), (6, 0)], [(0, 18817216463), (0, 1363678), (0, 98)]], 3, 4⟩, 72057594037927936, 5790163280987, 3510557208497,
    ⟨[[(6276274284499, 0), (14558748408, 0), (15327914, 0), (0, 12253), (0, 28)], [(0, 10574390557), (0, 47847186),
    (0, 39902), (76, 0)], [(30020372, 0), (133411, 0), (51, 0)], [(0, 84798), (0, 321)]], 3, 4⟩, 17592186044416,
    37363978,
    4819413444145577486364218402137689990264017912393750861785581199586195277263017478367006492312460587751136311743153639120316842,
    lc0⟩) (.leaf ⟨440, 16, 854, 188, 16, 1425, ⟨[[(8081767426281472, 0), (0, 2383442396434415), (44940181180, 0), (0,
    365375), (38, 0)], [(23014789212452870, 0), (0, 4404554628165), (125587933, 0), (0, 131)], [(18224645189931, 0),
    (0, 2729692680), (74646, 0), (0, 5)], [(59135498846, 0), (0, 4311758), (0, 85)]], 3, 4⟩, ⟨[[(0,
    3145922375297024), (0, 1778379217528923), (15261351723, 0), (0, 728219), (0, 69)], [(0, 31417529079123742), (0,
    55448742906), (29097593, 0), (1946, 0)], [(19972935923872, 0), (326363256, 0), (16046, 0), (3, 0)], [(0,
    16467999948), (0, 1330054), (0, 110)]], 3, 4⟩, 72057594037927936, 8418322163034, 3494542118976,
    ⟨[[(5887874557047, 0), (12940512601, 0), (14360801, 0), (0, 8341), (0, 24)], [(0, 9649800829), (0, 44473090), (0,
    42543), (69, 0)], [(28262435, 0), (132212, 0), (64, 0)], [(0, 83565), (0, 341)]], 3, 4⟩, 17592186044416,
    40404425,
    4387578890519631045828792705864777903078038350370510687521551833011417503068661582399211936582434221963945115167760090123865985,
    lc0⟩)) (.sx (.sy (.leaf ⟨650, 16, 1335, 237, 16, 1712, ⟨[[(0, 17236921466331136), (0, 1698553094623119),
    (15403040279, 0), (0, 63280), (3, 0)], [(31612178595874146, 0), (0, 3210821395526), (46611716, 0), (115, 0)],
    [(16155983255002, 0), (0, 1674489569), (32517, 0)], [(81341454054, 0), (0, 3170169), (0, 44)]], 3, 4⟩,
    ⟨[[(22223191821129728, 0), (0, 1060319490095091), (3933438999, 0), (0, 140899), (0, 8)], [(0, 39907706132034383),
    (0, 41387197841), (8733429, 0), (277, 0)], [(26943511342886, 0), (315025657, 0), (11298, 0), (1, 0)], [(0,
    24017285010), (0, 898109), (0, 38)]], 3, 4⟩, 72057594037927936, 8046380044801, 4314848353884, ⟨[[(6271171782170,
    0), (11971288245, 0), (10484925, 0), (0, 6346), (0, 12)], [(0, 7459300604), (0, 27869780), (0, 19259), (28, 0)],
    [(15050888, 0), (54836, 0), (16, 0)], [(0, 30306), (0, 92)]], 3, 4⟩, 17592186044416, 7348649,
    5320677022968613553800810999901513186382351498160667900803418800157024415589222087340431207539728576478399762093894297792660806,
    lc0⟩) (.leaf ⟨661, 16, 1383, 230, 16, 1712, ⟨[[(0, 5766054165422080), (0, 1743652000574721), (15862762239, 0),
    (0, 59340), (3, 0)], [(31091196326239244, 0), (0, 3277678410983), (48519140, 0), (189, 0)], [(15874490076986, 0),
    (0, 1701198554), (33042, 0)], [(82605270305, 0), (0, 3334093), (0, 54)]], 3, 4⟩, ⟨[[(0, 4681121394423808), (0,
    1056480897713364), (3708950413, 0), (0, 157671), (0, 9)], [(0, 39926245582993914), (0, 32401152019), (9175766,
    0), (311, 0)], [(27104659330064, 0), (327324955, 0), (13251, 0), (1, 0)], [(0, 24478274847), (0, 939498), (0,
    44)]], 3, 4⟩, 72057594037927936, 8157146895424, 4327000791847, ⟨[[(6276788483058, 0), (12161066193, 0),
    (10853965, 0), (0, 6345), (0, 12)], [(0, 7363810872), (0, 27936206), (0, 19532), (27, 0)], [(14706304, 0),
    (54073, 0), (15, 0)], [(0, 29366), (0, 89)]], 3, 4⟩, 17592186044416, 6972367,
    5844021637956055247758569715444427041209719370830323531971896696510689262092792967106051285114632138612370979421544271990892970,
    lc0⟩)) (.sx (.leaf ⟨582, 16, 1182, 258, 16, 2039, ⟨[[(15507995605237760, 0), (0, 3174989270506964), (59705041398,
    0), (0, 398387), (57, 0)], [(14186547394646629, 0), (0, 2923204872876), (86054288, 0), (375, 0)],
    [(5226442477157, 0), (0, 872135729), (24500, 0), (0, 2)], [(9573847264, 0), (0, 751653), (0, 21)]], 3, 4⟩, ⟨[[(0,
    8026154679287808), (0, 2523133913575017), (19613640902, 0), (0, 1320054), (0, 147)], [(0, 22798520425687525), (0,
    23153372373), (22848893, 0), (1730, 0)], [(7402557568587, 0), (140163429, 0), (9720, 0), (2, 0)], [(0,
    3203557638), (0, 264958), (0, 26)]], 3, 4⟩, 72057594037927936, 659660680304, 356013279138, ⟨[[(5981777545314, 0),
    (9522181157, 0), (7536697, 0), (0, 3078), (0, 5)], [(0, 7566856265), (0, 24912883), (0, 16476), (18, 0)],
    [(17008191, 0), (55852, 0), (16, 0)], [(0, 38617), (0, 108)]], 3, 4⟩, 17592186044416, 11360878,
    5288391082951530968720875886951503665167037424649433020463954651537193002322149695791405123884177071056885058042531022166504123,
    lc0⟩) (.leaf ⟨569, 16, 1138, 248, 16, 2062, ⟨[[(0, 26222522844028928), (0, 3176539698388231), (61002387766, 0),
    (0, 371505), (64, 0)], [(14130855909366114, 0), (0, 2888790734373), (84727125, 0), (206, 0)], [(6227655523473,
    0), (0, 932259410), (21106, 0), (0, 2)], [(9781457490, 0), (0, 744944), (0, 19)]], 3, 4⟩, ⟨[[(0,
    33203673048252416), (0, 2552348043010633), (20820709113, 0), (0, 1258007), (0, 139)], [(0, 22443529047207080),
    (0, 12911944042), (23789922, 0), (1905, 0)], [(7094806609793, 0), (108496319, 0), (6437, 0), (2, 0)], [(0,
    2971244441), (0, 259429), (0, 27)]], 3, 4⟩, 72057594037927936, 759971933759, 359874494663, ⟨[[(5797479309409, 0),
    (9010710227, 0), (7330041, 0), (0, 2568), (0, 5)], [(0, 7236357466), (0, 24148018), (0, 17126), (18, 0)],
    [(16540494, 0), (56106, 0), (19, 0)], [(0, 38496), (0, 113)]], 3, 4⟩, 17592186044416, 11842150,
    4787125386162611694387886385914961536884855923858995723652013608232274852580984459054380096874023111680629609665746031062024542,
    lc0⟩))))
theorem c106 : checkR job con0 true ⟨7, 9, 7, 9, 13, 17⟩ 1 28336 t106 153 21 160 28737 251 32000 = true := by decide +kernel

def t107 : CTree :=
  .sx (.sy (.leaf ⟨503, 16, 1139, 201, 16, 1282, ⟨[[(0, 32015416258682880), (0, 2405554855011120), (39145358536, 0),
    (0, 487767), (2, 0)], [(22923967280527470, 0), (0, 4931233623650), (139449988, 0), (1547, 0)], [(0,
    3919635528963), (0, 1464535114), (155369, 0), (8, 0)], [(63193617103, 0), (0, 4223484), (0, 144)]], 3, 4⟩, ⟨[[(0,
    1484111214067712), (0, 1567453168523118), (7881195605, 0), (0, 1225220), (0, 144)], [(0, 33793868153297694), (0,
    146901944277), (18461884, 0), (0, 32)], [(25966188209565, 0), (899674540, 0), (80256, 0), (16, 0)], [(0,
    24719891827), (0, 1426651), (0, 60)]], 3, 4⟩, 72057594037927936, 3531091032186, 3730311158322, ⟨[[(7231949836428,
    0), (19481948123, 0), (19399400, 0), (0, 22607), (0, 32)], [(0, 12673115533), (0, 57730415), (0, 38839), (76,
    0)], [(33706881, 0), (139120, 0), (47, 0)], [(0, 87557), (0, 281)]], 3, 4⟩, 17592186044416, 32916576,
    6120377984691971289302930851092506766712111841772424221681115477379874126411610169240392518454687904036356257147121615257907275,
    lc0⟩) (.sx (.leaf ⟨663, 16, 1563, 288, 16, 1892, ⟨[[(0, 20337236362264576), (0, 3178785817836691), (50684176542,
    0), (0, 703075), (0, 9)], [(14134949146238391, 0), (0, 3268650754865), (95289659, 0), (1575, 0)], [(0,
    2246901566230), (0, 400430778), (60107, 0), (4, 0)], [(10610619385, 0), (0, 712654), (0, 29)]], 3, 4⟩, ⟨[[(0,
    9126957093969920), (0, 2300927986694507), (8288290584, 0), (0, 2293025), (0, 275)], [(0, 25403799775518248), (0,
    110505659942), (11870869, 0), (0, 391)], [(10055533180450, 0), (383565847, 0), (40299, 0), (8, 0)], [(0,
    4838668719), (0, 267474), (0, 10)]], 3, 4⟩, 72057594037927936, 458902473091, 384006913806, ⟨[[(7377174499381, 0),
    (13854283048, 0), (9460406, 0), (0, 7218), (0, 8)], [(0, 10021143175), (0, 31165695), (0, 14068), (15, 0)],
    [(20485467, 0), (56276, 0), (13, 0)], [(0, 40909), (0, 84)]], 3, 4⟩, 17592186044416, 9659209,
    5349744321135649333489322126179090967658651561734203192775934749987765263424401715814898134567568210913919043006179816909627095,
    lc0⟩) (.leaf ⟨652, 16, 1520, 277, 16, 1920, ⟨[[(32770924746465280, 0), (0, 3225579875730275), (53282688495, 0),
    (0, 612799), (6, 0)], [(13616653621181370, 0), (0, 3215245364217), (97411800, 0), (1835, 0)], [(0, 901445579260),
    (0, 481733076), (54321, 0), (3, 0)], [(10082715046, 0), (0, 771362), (0, 37)]], 3, 4⟩, ⟨[[(25384626964332544, 0),
    (0, 2339023510996631), (8988101218, 0), (0, 2330342), (0, 281)], [(0, 24948061805302507), (0, 80911885324),
    (15410404, 0), (231, 0)], [(9603894139805, 0), (353956180, 0), (39011, 0), (7, 0)], [(0, 4622921785), (0,
    288230), (0, 19)]], 3, 4⟩, 72057594037927936, 263111635706, 365904218069, ⟨[[(7100909010635, 0), (13144669776,
    0), (9386490, 0), (0, 6346), (0, 8)], [(0, 9531901324), (0, 30311104), (0, 14556), (15, 0)], [(19859110, 0),
    (56386, 0), (10, 0)], [(0, 40674), (0, 86)]], 3, 4⟩, 17592186044416, 9786035,
    5992464546555929129614227896292089282330310392279433554959510664274273444668471552987809082004378305306603970304561921344930222,
    lc0⟩))) (.sy (.sx (.leaf ⟨636, 16, 1413, 283, 16, 1944, ⟨[[(0, 10790336751001600), (0, 3178913577052266),
    (54196791993, 0), (0, 536256), (21, 0)], [(14182034378082240, 0), (0, 3124163566078), (92272432, 0), (1203, 0)],
    [(620510786636, 0), (0, 587057962), (43239, 0), (1, 0)], [(9685051307, 0), (0, 748951), (0, 30)]], 3, 4⟩, ⟨[[(0,
    8206762765094912), (0, 2382587317033381), (12950034000, 0), (0, 1836384), (0, 218)], [(0, 24435934872641981), (0,
    71675366425), (17656501, 0), (695, 0)], [(8999283871259, 0), (288804564, 0), (27354, 0), (5, 0)], [(0,
    4253997038), (0, 281798), (0, 21)]], 3, 4⟩, 72057594037927936, 106858273607, 362138645459, ⟨[[(6844315260643, 0),
    (12118556054, 0), (8666400, 0), (0, 5682), (0, 7)], [(0, 9077272597), (0, 28693520), (0, 14484), (18, 0)],
    [(19109294, 0), (55723, 0), (11, 0)], [(0, 39649), (0, 90)]], 3, 4⟩, 17592186044416, 9802489,
    6233866558656972826734258623290930863783335238389784686943763651439090953512355798829956036321656911320027700528032399847177102,
    lc0⟩) (.sy (.leaf ⟨986, 16, 2143, 380, 16, 2708, ⟨[[(0, 22255611749441536), (0, 2522035287968026), (22116923879,
    0), (0, 95051), (3, 0)], [(22272973520437489, 0), (0, 2427758032416), (36129780, 0), (212, 0)], [(2930960554854,
    0), (0, 526903507), (14826, 0)], [(15001654685, 0), (0, 604113), (0, 12)]], 3, 4⟩, ⟨[[(22543367189381120, 0), (0,
    1663693229384341), (5013214151, 0), (0, 295008), (0, 17)], [(0, 33008025063193838), (0, 37501515918), (6763720,
    0), (186, 0)], [(11769947006448, 0), (172089990, 0), (7885, 0), (1, 0)], [(0, 5493033517), (0, 195122), (0, 8)]],
    3, 4⟩, 72057594037927936, 368598390939, 446001753127, ⟨[[(6601006918660, 0), (8291185005, 0), (4445160, 0), (0,
    1898), (0, 2)], [(0, 5462372445), (0, 12721787), (0, 5007), (4, 0)], [(7386889, 0), (16171, 0), (2, 0)], [(0,
    9904), (0, 17)]], 3, 4⟩, 17592186044416, 1367149,
    5953237152349732782328184660198290357610093491833660753441055012074026181214514353311829544008331414560030618187966206885527120,
    lc0⟩) (.leaf ⟨996, 16, 2205, 369, 16, 2710, ⟨[[(15097774075232256, 0), (0, 2572225693304652), (22614700210, 0),
    (0, 90864), (4, 0)], [(21672765584344390, 0), (0, 2460491513563), (37552787, 0), (285, 0)], [(2747455666573, 0),
    (0, 526757215), (15412, 0)], [(15120481988, 0), (0, 634497), (0, 14)]], 3, 4⟩, ⟨[[(851488007602176, 0), (0,
    1660117278194426), (4544751928, 0), (0, 332679), (0, 20)], [(0, 33049512956756224), (0, 30587617285), (7064277,
    0), (207, 0)], [(11867184882699, 0), (180765705, 0), (9165, 0), (1, 0)], [(0, 5597322336), (0, 204267), (0,
    10)]], 3, 4⟩, 72057594037927936, 357209204876, 442766000212, ⟨[[(6606289305367, 0), (8416368651, 0), (4594682,
    0), (0, 1887), (0, 2)], [(0, 5431671832), (0, 12824066), (0, 5084), (4, 0)], [(7325356, 0), (16123, 0), (2, 0)],
    [(0, 9815), (0, 17)]], 3, 4⟩, 17592186044416, 1314919,
    6182661315519630276307564564779891824373179827842172227895105553821373031009679290639478177753593354535540611519172930181776176,
    lc0⟩))) (.sx (.leaf ⟨641, 16, 1475, 267, 16, 1948, ⟨[[(0, 12319140283383808), (0, 3262009541439318),
    (55765629242, 0), (0, 514956), (22, 0)], [(13191626222339220, 0), (0, 3163411958253), (98755147, 0), (2001, 0)],
    [(351680255020, 0), (0, 566249556), (47802, 0), (2, 0)], [(9708872425, 0), (0, 818226), (0, 42)]], 3, 4⟩, ⟨[[(0,
    8839794375819264), (0, 2375970587498281), (9844073075, 0), (0, 2341734), (0, 283)], [(0, 24517718765482432), (0,
    53499642050), (18842187, 0), (834, 0)], [(9170713755732, 0), (321355366, 0), (36618, 0), (7, 0)], [(0,
    4410264152), (0, 306395), (0, 27)]], 3, 4⟩, 72057594037927936, 80026304876, 362983944874, ⟨[[(6844212497791, 0),
    (12448031879, 0), (9240441, 0), (0, 5550), (0, 7)], [(0, 9065651175), (0, 29412064), (0, 15067), (16, 0)],
    [(19222638, 0), (56496, 0), (9, 0)], [(0, 40337), (0, 89)]], 3, 4⟩, 17592186044416, 10030095,
    6220211980796558493946821320529915779615010249692841145966743262622444183147462739692677698103602541459634689558078485443481713,
    lc0⟩) (.leaf ⟨628, 16, 1429, 256, 16, 1976, ⟨[[(22413831005413376, 0), (0, 3290026445135136), (58123442946, 0),
    (0, 414433), (39, 0)], [(12858693809819240, 0), (0, 3115142658451), (99341150, 0), (2068, 0)], [(1529196100144,
    0), (0, 652347350), (40875, 0), (1, 0)], [(9484008680, 0), (0, 852917), (0, 45)]], 3, 4⟩, ⟨[[(31745971567177728,
    0), (0, 2411849619539765), (10851667402, 0), (0, 2327920), (0, 283)], [(0, 24111901718562481), (0, 28551553477),
    (22075215, 0), (1405, 0)], [(8756306083232, 0), (286119885, 0), (33251, 0), (6, 0)], [(0, 4197681752), (0,
    321127), (0, 34)]], 3, 4⟩, 72057594037927936, 253686790167, 366379581684, ⟨[[(6602733300450, 0), (11798563765,
    0), (9098361, 0), (0, 4827), (0, 6)], [(0, 8648902176), (0, 28657381), (0, 15723), (17, 0)], [(18727726, 0),
    (57101, 0), (8, 0)], [(0, 40435), (0, 94)]], 3, 4⟩, 17592186044416, 10571008,
    6392072874799534513694536296618984475426061686444647288779368178033399142579479518303771791501027590361818963791441939336228869,
    lc0⟩)))
theorem c107 : checkR job con0 true ⟨7, 9, 7, 9, 13, 17⟩ 1 28336 t107 285 21 320 29239 251 32000 = true := by decide +kernel

def t108 : CTree :=
  .sy (.sx (.sx (.sy (.leaf ⟨969, 16, 2080, 368, 16, 2758, ⟨[[(28749547272134656, 0), (0, 2547806898429167),
    (22964112065, 0), (0, 83568), (4, 0)], [(21934786493053166, 0), (0, 2402513537422), (36215898, 0), (206, 0)],
    [(4701170180334, 0), (0, 587593600), (12935, 0)], [(14941398901, 0), (0, 622022), (0, 12)]], 3, 4⟩,
    ⟨[[(2028729075118080, 0), (0, 1695721064298541), (5408608050, 0), (0, 291130), (0, 17)], [(0, 32639479215809414),
    (0, 24524949018), (7515721, 0), (253, 0)], [(11306435710671, 0), (150173176, 0), (6875, 0), (1, 0)], [(0,
    5213851947), (0, 199269), (0, 10)]], 3, 4⟩, 72057594037927936, 605377803440, 444132122427, ⟨[[(6384276618102, 0),
    (7826427990, 0), (4321830, 0), (0, 1609), (0, 2)], [(0, 5209025099), (0, 12281679), (0, 5163), (4, 0)],
    [(7156751, 0), (16109, 0), (2, 0)], [(0, 9817), (0, 18)]], 3, 4⟩, 17592186044416, 1421864,
    5939164777966319414818561004044116331787092442292716461711189965819158563235968213748003430930528194736771959486701946472289365,
    lc0⟩) (.leaf ⟨979, 16, 2140, 357, 16, 2761, ⟨[[(13201380544716800, 0), (0, 2597642923018190), (23504145026, 0),
    (0, 76471), (5, 0)], [(21336087344814363, 0), (0, 2434230599793), (37629182, 0), (279, 0)], [(4536644242060, 0),
    (0, 591237937), (13201, 0)], [(15047894460, 0), (0, 653242), (0, 14)]], 3, 4⟩, ⟨[[(0, 27343030823186432), (0,
    1692358789167062), (4948284024, 0), (0, 328546), (0, 20)], [(0, 32685378549060651), (0, 16798862036), (7927264,
    0), (283, 0)], [(11396029507686, 0), (157802221, 0), (8014, 0), (1, 0)], [(0, 5322242563), (0, 209988), (0,
    11)]], 3, 4⟩, 72057594037927936, 602268734944, 443778472481, ⟨[[(6386349869113, 0), (7935947079, 0), (4459198,
    0), (0, 1603), (0, 2)], [(0, 5173042982), (0, 12368637), (0, 5233), (4, 0)], [(7086937, 0), (16060, 0), (2, 0)],
    [(0, 9716), (0, 17)]], 3, 4⟩, 17592186044416, 1387852,
    6046114758620538330271833484353875442520213471833949753839159561716270410971333212643028783221480327307682476187863116117188512,
    lc0⟩)) (.sy (.leaf ⟨951, 16, 2014, 355, 16, 2807, ⟨[[(10450647011270656, 0), (0, 2565715605593090), (23729483433,
    0), (0, 72767), (6, 0)], [(21698632645409365, 0), (0, 2377313211604), (36057547, 0), (186, 0)], [(6408999881593,
    0), (0, 646747693), (11062, 0)], [(15043376986, 0), (0, 631728), (0, 12)]], 3, 4⟩, ⟨[[(34630509102116864, 0), (0,
    1726641834115581), (5837556800, 0), (0, 284294), (0, 17)], [(0, 32280163730556867), (0, 13193548490), (8182716,
    0), (313, 0)], [(10862674921884, 0), (127359988, 0), (5687, 0), (1, 0)], [(0, 4926948377), (0, 201303), (0,
    11)]], 3, 4⟩, 72057594037927936, 824974718994, 445658224300, ⟨[[(6171304583746, 0), (7371520938, 0), (4189702,
    0), (0, 1350), (0, 1)], [(0, 4956970146), (0, 11838081), (0, 5333), (4, 0)], [(6919418, 0), (16060, 0), (3, 0)],
    [(0, 9719), (0, 18)]], 3, 4⟩, 17592186044416, 1465868,
    5686833706655526440434077236254594983280333367235881505917297480848553291605210119310346353823444479926550237478873070220914731,
    lc0⟩) (.leaf ⟨960, 16, 2072, 344, 16, 2811, ⟨[[(16757172597563392, 0), (0, 2615147270692919), (24309004399, 0),
    (0, 62913), (6, 0)], [(21105113806179880, 0), (0, 2408370658397), (37433220, 0), (257, 0)], [(6262389196675, 0),
    (0, 654128914), (11017, 0)], [(15147148869, 0), (0, 662989), (0, 14)]], 3, 4⟩, ⟨[[(0, 2807539173474304), (0,
    1723457126522676), (5390399049, 0), (0, 321037), (0, 19)], [(0, 32330690054324242), (0, 4739115184), (8694107,
    0), (351, 0)], [(10943693555728, 0), (133732449, 0), (6660, 0), (1, 0)], [(0, 5038018060), (0, 213205), (0,
    12)]], 3, 4⟩, 72057594037927936, 832223997338, 447711821023, ⟨[[(6175547313704, 0), (7478636984, 0), (4321594,
    0), (0, 1357), (0, 1)], [(0, 4929869908), (0, 11942425), (0, 5404), (4, 0)], [(6870086, 0), (16064, 0), (2, 0)],
    [(0, 9658), (0, 18)]], 3, 4⟩, 17592186044416, 1436144,
    5783781257577884977688333733719194999478468674620509876224348681267592874932858962672250451095296938685541954979124308120464442,
    lc0⟩))) (.sx (.leaf ⟨584, 16, 1233, 241, 16, 2047, ⟨[[(34580692789026816, 0), (0, 3249733775896143),
    (61750140932, 0), (0, 286244), (70, 0)], [(13290579232560574, 0), (0, 2958782615537), (90748090, 0), (934, 0)],
    [(5001462662674, 0), (0, 885463106), (22789, 0), (0, 2)], [(9587154868, 0), (0, 810058), (0, 30)]], 3, 4⟩,
    ⟨[[(23064215843862528, 0), (0, 2514347014729450), (17445985003, 0), (0, 1673394), (0, 201)], [(0,
    22893624274705676), (1213683615, 0), (25902014, 0), (2214, 0)], [(7504996210177, 0), (152337968, 0), (13598, 0),
    (3, 0)], [(0, 3357039862), (0, 296836), (0, 35)]], 3, 4⟩, 72057594037927936, 678952031530, 369117163645,
    ⟨[[(5979520644385, 0), (9777337135, 0), (8024653, 0), (0, 3107), (0, 4)], [(0, 7566192835), (0, 25705437), (0,
    17311), (18, 0)], [(17200554, 0), (57675, 0), (14, 0)], [(0, 39719), (0, 110)]], 3, 4⟩, 17592186044416, 11848694,
    5644752850977515409241749490835816832988354166292362012307384283426439779070382686444249412305058441138118868765139135580076036,
    lc0⟩) (.leaf ⟨570, 16, 1187, 231, 16, 2072, ⟨[[(18707780129423360, 0), (0, 3249689332209525), (63152199276, 0),
    (0, 241603), (79, 0)], [(13249000227586412, 0), (0, 2924168987088), (89053844, 0), (708, 0)], [(6012915936342,
    0), (0, 952073984), (18367, 0), (0, 3)], [(9806957505, 0), (0, 800599), (0, 27)]], 3, 4⟩, ⟨[[(0,
    4110334571737088), (0, 2544753241915412), (18781857675, 0), (0, 1594914), (0, 191)], [(0, 22552603104753289),
    (12604439475, 0), (27185389, 0), (2458, 0)], [(7185786777156, 0), (116832818, 0), (9255, 0), (2, 0)], [(0,
    3124034106), (0, 292096), (0, 36)]], 3, 4⟩, 72057594037927936, 789943020037, 374680249330, ⟨[[(5798302830078, 0),
    (9256973858, 0), (7803370, 0), (0, 2662), (0, 3)], [(0, 7251859059), (0, 24986391), (0, 18022), (19, 0)],
    [(16799723, 0), (58283, 0), (17, 0)], [(0, 39863), (0, 117)]], 3, 4⟩, 17592186044416, 12574347,
    5150205586669917733320664642819741780018635584912832986034943780180056651895284327100102200263780513000799473655202434468320001,
    lc0⟩))) (.sx (.sx (.sy (.leaf ⟨989, 16, 2203, 345, 16, 2764, ⟨[[(33469866614931456, 0), (0, 2649879652018763),
    (24085274050, 0), (0, 68340), (5, 0)], [(20716048299028081, 0), (0, 2466764698550), (39226225, 0), (364, 0)],
    [(4368077782031, 0), (0, 595042778), (13509, 0)], [(15149402593, 0), (0, 688456), (0, 17)]], 3, 4⟩,
    ⟨[[(15987965107044352, 0), (0, 1689483186104350), (4427017356, 0), (0, 371425), (0, 23)], [(0,
    32727298772297326), (0, 8627472750), (8386277, 0), (316, 0)], [(11489841556038, 0), (166662528, 0), (9312, 0),
    (1, 0)], [(0, 5436499078), (0, 222208), (0, 13)]], 3, 4⟩, 72057594037927936, 600627132404, 443386991027,
    ⟨[[(6382988965470, 0), (8045309654, 0), (4606515, 0), (0, 1599), (0, 1)], [(0, 5131465676), (0, 12459692), (0,
    5299), (4, 0)], [(7017330, 0), (16024, 0), (2, 0)], [(0, 9630), (0, 17)]], 3, 4⟩, 17592186044416, 1354618,
    5995029594268549047729211109244859054636706069249178108196892129023988116387856814247020043312814765381190186761428002861572321,
    lc0⟩) (.leaf ⟨1000, 16, 2268, 334, 16, 2766, ⟨[[(0, 18736258319777792), (0, 2703220208016323), (24698421714, 0),
    (0, 59001), (6, 0)], [(20062654134363099, 0), (0, 2498697106453), (41013014, 0), (463, 0)], [(4192933989140, 0),
    (0, 598662412), (13863, 0)], [(15235904616, 0), (0, 727895), (0, 20)]], 3, 4⟩, ⟨[[(0, 21044914593943552), (0,
    1686550553670445), (3834774532, 0), (0, 420084), (0, 26)], [(0, 32753158071008951), (39647741, 0), (8894188, 0),
    (351, 0)], [(11584348096991, 0), (176858241, 0), (10781, 0), (1, 0)], [(0, 5555411699), (0, 236000), (0, 14)]],
    3, 4⟩, 72057594037927936, 597045575717, 441411464085, ⟨[[(6383475668629, 0), (8158222294, 0), (4749109, 0), (0,
    1608), (0, 1)], [(0, 5092435691), (0, 12540567), (0, 5335), (4, 0)], [(6946479, 0), (15955, 0), (1, 0)], [(0,
    9533), (0, 17)]], 3, 4⟩, 17592186044416, 1370847,
    5867078201755618571120113496931596350730690824282910974263406105513531331088706317963405919920836638276447448522265794186547988,
    lc0⟩)) (.sy (.leaf ⟨969, 16, 2132, 332, 16, 2814, ⟨[[(27345634566881280, 0), (0, 2665808162171245), (24925262076,
    0), (0, 51538), (7, 0)], [(20481996247632524, 0), (0, 2439221266863), (38971518, 0), (340, 0)], [(6108675803026,
    0), (0, 661879924), (10956, 0)], [(15239469257, 0), (0, 697910), (0, 17)]], 3, 4⟩, ⟨[[(23554139844173824, 0), (0,
    1720131856341943), (4881436995, 0), (0, 363099), (0, 22)], [(0, 32365337066711217), (4270010925, 0), (9263615,
    0), (393, 0)], [(11024348336544, 0), (141111687, 0), (7773, 0), (1, 0)], [(0, 5153794529), (0, 226692), (0,
    14)]], 3, 4⟩, 72057594037927936, 840736303795, 447280200403, ⟨[[(6173494136056, 0), (7584324768, 0), (4463582,
    0), (0, 1369), (0, 1)], [(0, 4894994539), (0, 12048410), (0, 5476), (4, 0)], [(6816108, 0), (16080, 0), (2, 0)],
    [(0, 9603), (0, 18)]], 3, 4⟩, 17592186044416, 1366859,
    5799866564184496828216405871636849481350798250539218183258939179348254809605530442919848150964425011490334444695767125481955895,
    lc0⟩) (.leaf ⟨979, 16, 2195, 321, 16, 2817, ⟨[[(0, 467926553296896), (0, 2718854101984692), (25592745411, 0), (0,
    38465), (8, 0)], [(19836719196746057, 0), (0, 2470730173356), (40714064, 0), (436, 0)], [(5949913171545, 0), (0,
    670309610), (10889, 0)], [(15324478991, 0), (0, 737360), (0, 20)]], 3, 4⟩, ⟨[[(0, 21525572559237120), (0,
    1717345904251983), (4304175629, 0), (0, 411044), (0, 25)], [(0, 32395307706667404), (13893956987, 0), (9900129,
    0), (439, 0)], [(11109078239625, 0), (149693108, 0), (9041, 0), (1, 0)], [(0, 5276914286), (0, 242008), (0,
    16)]], 3, 4⟩, 72057594037927936, 850781112359, 447331558659, ⟨[[(6176413718064, 0), (7695493974, 0), (4601892,
    0), (0, 1395), (0, 1)], [(0, 4864989301), (0, 12148790), (0, 5514), (4, 0)], [(6765630, 0), (16066, 0), (2, 0)],
    [(0, 9546), (0, 18)]], 3, 4⟩, 17592186044416, 1400181,
    5613663298452797626981804430374615421695345429031190081900149875928693242129485620399481481693383944025581766978355485300342769,
    lc0⟩))) (.sx (.leaf ⟨587, 16, 1287, 225, 16, 2055, ⟨[[(0, 23689591099490304), (0, 3327533176861967),
    (64120370017, 0), (0, 140839), (85, 0)], [(12346304342896533, 0), (0, 2992355941764), (96708955, 0), (1691, 0)],
    [(4762261695521, 0), (0, 901977061), (20503, 0), (0, 2)], [(9573713834, 0), (0, 882730), (0, 43)]], 3, 4⟩, ⟨[[(0,
    19003047810664448), (0, 2507968789353270), (14649277095, 0), (0, 2145679), (0, 264)], [(0, 22975633277950848),
    (29144123461, 0), (29770037, 0), (2798, 0)], [(7614944262739, 0), (169117074, 0), (18830, 0), (4, 0)], [(0,
    3529475134), (0, 338474), (0, 46)]], 3, 4⟩, 72057594037927936, 701997805049, 381865299965, ⟨[[(5979193606657, 0),
    (10035618439, 0), (8510335, 0), (0, 3243), (0, 3)], [(0, 7565154098), (0, 26474975), (0, 17926), (19, 0)],
    [(17398923, 0), (59363, 0), (11, 0)], [(0, 40894), (0, 112)]], 3, 4⟩, 17592186044416, 12366223,
    5643443761933487140961432835469268766557199336080604398395214139816522576655281349260507807380943572994202207541302435545131651,
    lc0⟩) (.leaf ⟨572, 16, 1239, 214, 16, 2080, ⟨[[(0, 11497229041672192), (0, 3326016116240833), (65671012571, 0),
    (0, 71747), (98, 0)], [(12320709370122511, 0), (0, 2958228779921), (94544877, 0), (1398, 0)], [(5781918352223,
    0), (0, 976736049), (14667, 0), (0, 3)], [(9809060074, 0), (0, 869313), (0, 39)]], 3, 4⟩, ⟨[[(7257950452508672,
    0), (0, 2536963721267195), (16123219457, 0), (0, 2046392), (0, 253)], [(0, 22626117794793079), (42076473172, 0),
    (31486819, 0), (3125, 0)], [(7275050920392, 0), (128465793, 0), (13185, 0), (3, 0)], [(0, 3293216864), (0,
    334556), (0, 47)]], 3, 4⟩, 72057594037927936, 822894653383, 389274656026, ⟨[[(5793784850508, 0), (9504210745, 0),
    (8303224, 0), (0, 2881), (0, 2)], [(0, 7247776574), (0, 25809745), (0, 18791), (19, 0)], [(17023872, 0), (60410,
    0), (14, 0)], [(0, 41247), (0, 120)]], 3, 4⟩, 17592186044416, 13230181,
    5113306421077520183585885892706370273418274648095861553034706362560305953858553838544019610028019513548862631357842543758251044,
    lc0⟩)))
theorem c108 : checkR job con0 true ⟨7, 9, 7, 9, 13, 17⟩ 1 28336 t108 327 21 320 29239 251 32000 = true := by decide +kernel

def t109 : CTree :=
  .sx (.sy (.sx (.leaf ⟨527, 16, 1278, 179, 16, 1282, ⟨[[(0, 8278063150702592), (0, 2612578108328553), (42272514331,
    0), (0, 554020), (0, 6)], [(20326408198079963, 0), (0, 5211350387200), (165154964, 0), (4189, 0), (1, 0)], [(0,
    5861480450553), (0, 1259726923), (211425, 0), (16, 0)], [(65944866520, 0), (0, 5187148), (0, 294)]], 3, 4⟩,
    ⟨[[(16600683036407808, 0), (0, 1556002832261591), (3144417318, 0), (0, 1982403), (0, 238)], [(0,
    33922816904301361), (0, 110075987334), (18137115, 0), (0, 191)], [(26968413674147, 0), (1117014113, 0), (140851,
    0), (25, 0)], [(0, 26226189415), (0, 1589120), (0, 105)]], 3, 4⟩, 72057594037927936, 5282448756111,
    3579569609346, ⟨[[(7230894480532, 0), (20623275905, 0), (22285089, 0), (0, 21599), (0, 36)], [(0, 12274437242),
    (0, 58874631), (0, 41107), (49, 0)], [(32124462, 0), (133684, 0), (29, 0)], [(0, 82691), (0, 243)]], 3, 4⟩,
    17592186044416, 29464938,
    6368351499432437545163478483234540643835460835557969515690766949730556239301555021888528998564083660655039979984999370069219589,
    lc0⟩) (.sy (.leaf ⟨747, 16, 1757, 208, 16, 1637, ⟨[[(25074958945837056, 0), (0, 1956716655500530), (17079728230,
    0), (0, 63203), (2, 0)], [(28667688093554694, 0), (0, 3706354139576), (61605128, 0), (825, 0)], [(3512952998080,
    0), (0, 1391606555), (56200, 0), (1, 0)], [(89601678481, 0), (0, 4230210), (0, 132)]], 3, 4⟩, ⟨[[(0,
    7858230135228416), (0, 995932449661982), (1550303443, 0), (0, 292633), (0, 18)], [(0, 40589855646702171), (0,
    20667387276), (9118047, 0), (271, 0)], [(30306821102531, 0), (556369536, 0), (36049, 0), (3, 0)], [(0,
    29550010991), (0, 1133743), (0, 62)]], 3, 4⟩, 72057594037927936, 2172207427868, 4216232072912, ⟨[[(6726909262305,
    0), (14866641406, 0), (13839745, 0), (0, 8878), (0, 12)], [(0, 7576768944), (0, 30390428), (0, 19255), (23, 0)],
    [(13976847, 0), (50369, 0), (6, 0)], [(0, 25697), (0, 67)]], 3, 4⟩, 17592186044416, 5411220,
    6123348248735618907883235179257910972863019269746710902378109521141800761423324447996106179779351880611455694509907793884604076,
    lc0⟩) (.leaf ⟨764, 16, 1829, 201, 16, 1638, ⟨[[(0, 11154026482696192), (0, 2019098542130575), (17684372232, 0),
    (0, 60695), (3, 0)], [(27921899305148794, 0), (0, 3793161798759), (65541865, 0), (1020, 0)], [(2944616385727, 0),
    (0, 1388820837), (60712, 0), (2, 0)], [(91026688065, 0), (0, 4551080), (0, 157)]], 3, 4⟩, ⟨[[(5785115137671168,
    0), (0, 995213975934332), (1082446593, 0), (0, 330488), (0, 20)], [(0, 40622697876764812), (0, 11307705916),
    (9553288, 0), (299, 0)], [(30614320071997, 0), (595502014, 0), (41303, 0), (4, 0)], [(0, 30153795795), (0,
    1200491), (0, 70)]], 3, 4⟩, 72057594037927936, 1895506694485, 4155305928081, ⟨[[(6720362037589, 0), (15061441526,
    0), (14267569, 0), (0, 8850), (0, 10)], [(0, 7426452075), (0, 30206221), (0, 19052), (21, 0)], [(13525270, 0),
    (48898, 0), (3, 0)], [(0, 24613), (0, 63)]], 3, 4⟩, 17592186044416, 5121336,
    5368619849347825544620626845782338642367028882406385324280919536814956732682072448335001723489585199029836729585334453684399120,
    lc0⟩))) (.sx (.leaf ⟨541, 16, 1358, 168, 16, 1282, ⟨[[(0, 22858720654147584), (0, 2731470434102077),
    (44019613213, 0), (0, 607103), (0, 12)], [(18863776618059877, 0), (0, 5357594330206), (183455411, 0), (6175, 0),
    (1, 0)], [(0, 6841392401614), (0, 1098600709), (254759, 0), (23, 0)], [(67219715052, 0), (0, 5871025), (0,
    406)]], 3, 4⟩, ⟨[[(28646614288676864, 0), (0, 1554471911146434), (0, 228900454), (0, 2517067), (0, 296)], [(0,
    33973531550173196), (0, 92034312026), (17778884, 0), (0, 285)], [(27567994704295, 0), (1278789465, 0), (182916,
    0), (31, 0)], [(0, 27052818584), (0, 1709249), (0, 135)]], 3, 4⟩, 72057594037927936, 6452218557510,
    3417913850012, ⟨[[(7224897921200, 0), (21204920215, 0), (23743068, 0), (0, 20955), (0, 29)], [(0, 12054576816),
    (0, 59242893), (0, 40854), (38, 0)], [(31325194, 0), (130005, 0), (14, 0)], [(0, 80352), (0, 221)]], 3, 4⟩,
    17592186044416, 28146920,
    5233504856848769663757796295218676007494770215637350209644360614885845670144428676989761555121434838653938200359753990199679237,
    lc0⟩) (.leaf ⟨527, 16, 1298, 156, 16, 1338, ⟨[[(15012852755144704, 0), (0, 2828156292546561), (49836917067, 0),
    (0, 299335), (31, 0)], [(17815227020394167, 0), (0, 5241070679199), (193444850, 0), (7335, 0), (1, 0)],
    [(1372509361319, 0), (0, 1837224381), (184075, 0), (12, 0)], [(62099912479, 0), (0, 6831027), (0, 543)]], 3, 4⟩,
    ⟨[[(0, 17115760523569152), (0, 1624193687484166), (864065294, 0), (0, 2584487), (0, 306)], [(0,
    33185065481435813), (5905244413, 0), (33594353, 0), (2265, 0)], [(25394053198020, 0), (1085280858, 0), (164412,
    0), (28, 0)], [(0, 25403861405), (0, 2149099), (0, 272)]], 3, 4⟩, 72057594037927936, 1123470925351,
    3397883409331, ⟨[[(6729625123417, 0), (18894803785, 0), (22406958, 0), (0, 16465), (0, 14)], [(0, 10876157525),
    (0, 55199434), (0, 41705), (53, 0)], [(29193192, 0), (129059, 0), (0, 1)], [(0, 78552), (0, 235)]], 3, 4⟩,
    17592186044416, 29617171,
    5077358224271370281400359117173270062044457230818829113634558645996710785782081999707687238136340632031932310500934959077529389,
    lc0⟩))) (.sy (.sx (.sy (.leaf ⟨724, 16, 1665, 194, 16, 1717, ⟨[[(15797406351712256, 0), (0, 2004408588784994),
    (18721621459, 0), (0, 25817), (5, 0)], [(27899919036477586, 0), (0, 3645243412099), (62155196, 0), (819, 0)],
    [(14213433588830, 0), (0, 1857593658), (36309, 0)], [(88827473078, 0), (0, 4512290), (0, 141)]], 3, 4⟩, ⟨[[(0,
    1214194201681920), (0, 1044574427274220), (2089191764, 0), (0, 289328), (0, 18)], [(0, 40060712767983848),
    (20891606689, 0), (12355672, 0), (543, 0)], [(28117991098678, 0), (428530603, 0), (28246, 0), (3, 0)], [(0,
    27269241208), (0, 1258453), (0, 85)]], 3, 4⟩, 72057594037927936, 8734622953283, 4310768536104, ⟨[[(6278325839596,
    0), (13088777554, 0), (12786426, 0), (0, 6575), (0, 6)], [(0, 6828793884), (0, 27987154), (0, 19932), (24, 0)],
    [(12986409, 0), (49655, 0), (5, 0)], [(0, 25028), (0, 72)]], 3, 4⟩, 17592186044416, 5661771,
    5623830846870288529024521705318983970796813322810221553524950287780171312365274093291645250811070901361919677199662216073664215,
    lc0⟩) (.leaf ⟨739, 16, 1732, 187, 16, 1718, ⟨[[(0, 6908262610780160), (0, 2065531024575907), (19443155739, 0),
    (0, 15277), (6, 0)], [(27135476734514667, 0), (0, 3726328855508), (66062789, 0), (1019, 0)], [(13824822517955,
    0), (0, 1894685185), (37266, 0)], [(90006931170, 0), (0, 4851526), (0, 168)]], 3, 4⟩, ⟨[[(0, 12862861749835776),
    (0, 1043312097855426), (1626648286, 0), (0, 327110), (0, 20)], [(0, 40070364817069355), (33741601868, 0),
    (13225648, 0), (604, 0)], [(28357085743971, 0), (459259154, 0), (32536, 0), (3, 0)], [(0, 27939521619), (0,
    1349776), (0, 96)]], 3, 4⟩, 72057594037927936, 8855757659716, 4296445337994, ⟨[[(6278418313996, 0), (13283962139,
    0), (13188488, 0), (0, 6759), (0, 4)], [(0, 6717901241), (0, 27946935), (0, 19754), (24, 0)], [(12648989, 0),
    (48614, 0), (3, 0)], [(0, 24210), (0, 69)]], 3, 4⟩, 17592186044416, 5409817,
    4859761060565906725280293956680795712996309659461456894558128426857272242781582741274160845493096616468158641741691705377580518,
    lc0⟩)) (.leaf ⟨471, 16, 1069, 141, 16, 1441, ⟨[[(0, 8490077530181632), (0, 2761280421973463), (54944095787, 0),
    (80774, 0), (91, 0)], [(18376734899150955, 0), (0, 4870889522069), (167011545, 0), (4089, 0), (1, 0)],
    [(16272134008112, 0), (0, 3130739584), (44104, 0), (0, 11)], [(62490246332, 0), (0, 6265485), (0, 372)]], 3, 4⟩,
    ⟨[[(0, 20735597575639040), (0, 1748593698412619), (8216873898, 0), (0, 1873816), (0, 231)], [(0,
    31743176194495616), (96533560655, 0), (49767461, 0), (5177, 0), (1, 0)], [(20968225455986, 0), (467728822, 0),
    (61437, 0), (13, 0)], [(0, 20040138473), (0, 2174463), (0, 331)]], 3, 4⟩, 72057594037927936, 9888458264718,
    3773642200136, ⟨[[(5889223001122, 0), (14485906604, 0), (18560272, 0), (0, 10153)], [(0, 9184590196), (0,
    48199482), (0, 48337), (74, 0)], [(26825725, 0), (136662, 0), (23, 0)], [(0, 81029), (0, 323)]], 3, 4⟩,
    17592186044416, 38323726,
    5133814603158411460537736082090143443065507382069480298753901274357125048244029465534035329633910629591081614958184584069838251,
    lc0⟩)) (.sx (.leaf ⟨506, 16, 1221, 143, 16, 1392, ⟨[[(0, 14906781951750144), (0, 2870992768045817), (54789082545,
    0), (20938, 0), (75, 0)], [(17178224346850667, 0), (0, 5110930179260), (193654494, 0), (7339, 0), (1, 0)],
    [(8755064900696, 0), (0, 2592851039), (103629, 0), (0, 1)], [(60804438479, 0), (0, 7235677), (0, 579)]], 3, 4⟩,
    ⟨[[(0, 32710662219474944), (0, 1687664875165374), (2645739311, 0), (0, 2541428), (0, 303)], [(0,
    32439911983207418), (88708509630, 0), (47646943, 0), (4572, 0)], [(23272406120581, 0), (832407829, 0), (129449,
    0), (23, 0)], [(0, 23507997524), (0, 2442413), (0, 369)]], 3, 4⟩, 72057594037927936, 6126203110160,
    3554456008519, ⟨[[(6282434651864, 0), (16799291310, 0), (21075691, 0), (0, 13509), (0, 1)], [(0, 9894771890), (0,
    51966189), (0, 44402), (66, 0)], [(27697912, 0), (132084, 0), (0, 5)], [(0, 79169), (0, 266)]], 3, 4⟩,
    17592186044416, 32928517,
    4198575669801435004569263305998899311418632617243635941092439049629982701554656011653502006841218273308577597666194774340467837,
    lc0⟩) (.leaf ⟨480, 16, 1136, 129, 16, 1445, ⟨[[(11297825903763456, 0), (0, 2875607352698402), (58672261053, 0),
    (297858, 0), (115, 0)], [(16975396570005711, 0), (0, 4994241899014), (185417125, 0), (6262, 0), (1, 0)],
    [(15632198315391, 0), (0, 3288803948), (28807, 0), (0, 13)], [(62954773486, 0), (0, 7116081), (0, 521)]], 3, 4⟩,
    ⟨[[(0, 6306395350710272), (0, 1746719637475133), (5031549845, 0), (0, 2401003), (0, 290)], [(0,
    31769425622391717), (151131872537, 0), (58635287, 0), (6440, 0), (1, 0)], [(21279117063374, 0), (541319845, 0),
    (83292, 0), (16, 0)], [(0, 21280992929), (0, 2556165), (0, 419)]], 3, 4⟩, 72057594037927936, 10382159653281,
    3833279051677, ⟨[[(5889033581825, 0), (14941253921, 0), (19823986, 0), (0, 11809), (10, 0)], [(0, 9091143881),
    (0, 49372839), (0, 48431), (77, 0)], [(26732993, 0), (138333, 0), (1, 0)], [(0, 81981), (0, 316)]], 3, 4⟩,
    17592186044416, 38731271,
    3805383652639025160494129198443726415809583423870954758913996159504792954542318844170527580641935687896999753055192904595012791,
    lc0⟩)))
theorem c109 : checkR job con0 true ⟨7, 9, 7, 9, 13, 17⟩ 1 28336 t109 153 21 160 29741 251 32000 = true := by decide +kernel

def t110 : CTree :=
  .sx (.sy (.leaf ⟨407, 16, 1050, 91, 16, 786, ⟨[[(6159483133902848, 0), (0, 2162394912801803), (36563223953, 0), (0,
    349267), (6, 0)], [(24738385879211700, 0), (0, 8059145678088), (318358767, 0), (14482, 0), (2, 0)], [(0,
    10378985736588), (0, 3860292532), (796180, 0), (73, 0)], [(383925520607, 0), (0, 44016709), (0, 3933), (0, 1)]],
    3, 4⟩, ⟨[[(0, 26778163368857600), (0, 955025328962665), (0, 2474561107), (0, 1943647), (0, 223)], [(0,
    40299096295885263), (0, 17820317473), (32953398, 0), (1446, 0)], [(65084757267318, 0), (3339084718, 0), (542808,
    0), (89, 0)], [(0, 130934973498), (0, 10456405), (0, 1253)]], 3, 4⟩, 72057594037927936, 64639324828801,
    30227869227128, ⟨[[(6984898644399, 0), (34451127969, 0), (67974108, 0), (0, 86430), (0, 79)], [(0, 15265672543),
    (0, 129808529), (0, 148763), (233, 0), (0, 2)], [(54167266, 0), (381800, 0), (0, 53), (3, 0)], [(0, 191682), (0,
    832), (1, 0)]], 3, 4⟩, 17592186044416, 120037511,
    4917403719465363252689624235021111776890049881905120749206972080516099997466077807119180727163141600713283490548950843352926097,
    lc0⟩) (.sx (.leaf ⟨571, 16, 1541, 146, 16, 1276, ⟨[[(3271229201924096, 0), (0, 3001404381836648), (47766871696,
    0), (0, 771422), (0, 28)], [(15520022520245467, 0), (0, 5635615106513), (236592377, 0), (12169, 0), (2, 0)], [(0,
    8693608661943), (0, 572669483), (390570, 0), (43, 0)], [(69037936416, 0), (0, 7854949), (0, 744)]], 3, 4⟩,
    ⟨[[(645652546203648, 0), (0, 1556559221218720), (0, 9830402349), (0, 3968188), (0, 440)], [(0,
    33888997998075002), (0, 57124778123), (16549282, 0), (0, 475)], [(28935164027801, 0), (1746064618, 0), (297080,
    0), (46, 0)], [(0, 28794046032), (0, 2045961), (0, 214)]], 3, 4⟩, 72057594037927936, 9815413211697,
    2832047432833, ⟨[[(7238024902119, 0), (22641241630, 0), (26905723, 0), (0, 20868), (0, 4)], [(0, 11758030325),
    (0, 60444307), (0, 37990), (16, 0)], [(30378404, 0), (122451, 0), (0, 13), (1, 0)], [(0, 77755), (0, 172)]], 3,
    4⟩, 17592186044416, 26205046,
    4981938452342707187621020548796513132023514903281390220024287465320328535727546698101243927057386016479449415969531632003189221,
    lc0⟩) (.leaf ⟨555, 16, 1475, 133, 16, 1335, ⟨[[(7878355483639808, 0), (0, 3100975738110223), (55832964972, 0),
    (0, 186197), (42, 0)], [(14496384591582418, 0), (0, 5483576837979), (253526245, 0), (14414, 0), (2, 0)], [(0,
    309679384738), (0, 1617602577), (264516, 0), (24, 0)], [(62035437940, 0), (0, 9363305), (0, 1002)]], 3, 4⟩,
    ⟨[[(0, 14069119734300672), (0, 1627992320234646), (0, 9030065787), (0, 4089945), (0, 455)], [(0,
    33068425523147526), (81023393913, 0), (41860137, 0), (3353, 0)], [(26621467666131, 0), (1510810101, 0), (269430,
    0), (43, 0)], [(0, 27819262794), (0, 2831103), (0, 422)]], 3, 4⟩, 72057594037927936, 2615859135455,
    3046973738116, ⟨[[(6728564029623, 0), (20159362535, 0), (25344152, 0), (0, 18349), (13, 0)], [(0, 10606088133),
    (0, 56765066), (0, 38213), (36, 0)], [(28564604, 0), (124068, 0), (0, 40)], [(0, 77680), (0, 187)]], 3, 4⟩,
    17592186044416, 28369160,
    5718654882769643301127416503422120510979943588184776308244502836287022172149826698986564538927742360422572619804523907257314699,
    lc0⟩))) (.sy (.sx (.leaf ⟨517, 16, 1300, 131, 16, 1394, ⟨[[(30790364945309696, 0), (0, 2998122908413626),
    (58494544829, 0), (195213, 0), (93, 0)], [(15611011825608637, 0), (0, 5228053012209), (219906383, 0), (10495, 0),
    (1, 0)], [(7963431436861, 0), (0, 2650180912), (110028, 0), (1, 0)], [(60701730256, 0), (0, 8408854), (0, 794)]],
    3, 4⟩, ⟨[[(0, 1361005347864576), (0, 1689515670364325), (0, 1676111382), (0, 3222766), (0, 373)], [(0,
    32429290650784323), (140453468052, 0), (55368876, 0), (5618, 0), (1, 0)], [(23760074372648, 0), (982589351, 0),
    (168553, 0), (29, 0)], [(0, 24870130066), (0, 2861804), (0, 462)]], 3, 4⟩, 72057594037927936, 6209658939162,
    3515037297461, ⟨[[(6281636391846, 0), (17350433342, 0), (22458801, 0), (0, 15091), (13, 0)], [(0, 9802153914),
    (0, 53092897), (0, 43170), (63, 0)], [(27648689, 0), (132075, 0), (0, 30)], [(0, 80147), (0, 250)]], 3, 4⟩,
    17592186044416, 33372991,
    2470170164086520912271580860064774519632412737316284215328497757414864191157937040736537027135807927273728381561145191003234080,
    lc0⟩) (.leaf ⟨490, 16, 1210, 117, 16, 1448, ⟨[[(22733936091078656, 0), (0, 2999878389306902), (63167197082, 0),
    (583858, 0), (144, 0)], [(15461451284053257, 0), (0, 5115645141642), (209357551, 0), (9165, 0), (1, 0)],
    [(14897948842582, 0), (0, 3482785681), (9302, 0), (0, 15)], [(63097677409, 0), (0, 8217061), (0, 721)]], 3, 4⟩,
    ⟨[[(0, 56635842525184), (0, 1747257986530865), (946623144, 0), (0, 3055265), (0, 358)], [(0, 31743688915804989),
    (215677587589, 0), (69571788, 0), (7955, 0), (1, 0)], [(21618819194004, 0), (639554406, 0), (111042, 0), (20,
    0)], [(0, 22725417049), (0, 3034900), (0, 526)]], 3, 4⟩, 72057594037927936, 11006481208269, 3888416899149,
    ⟨[[(5889356798074, 0), (15437673441, 0), (21204711, 0), (0, 14164), (23, 0)], [(0, 9009001898), (0, 50669878),
    (0, 47517), (79, 0)], [(26767922, 0), (140019, 0), (0, 30)], [(0, 83667), (0, 305), (1, 0)]], 3, 4⟩,
    17592186044416, 39616430,
    2166469285917403124650429422777931058864259095131360977246030318720442856117658104137245490888442077270941131451396021777223282,
    lc0⟩)) (.sx (.leaf ⟨530, 16, 1388, 119, 16, 1393, ⟨[[(26753013779816448, 0), (0, 3138159127966684), (62925704154,
    0), (423296, 0), (116, 0)], [(13926306649563907, 0), (0, 5336919310375), (254186513, 0), (14657, 0), (2, 0)],
    [(7111794021845, 0), (0, 2710644465), (119983, 0), (3, 0)], [(60071652123, 0), (0, 9941515), (0, 1079)]], 3, 4⟩,
    ⟨[[(8176964899026944, 0), (0, 1692618327417885), (0, 7127457144), (0, 4047300), (0, 452)], [(0,
    32320879409353259), (200447843542, 0), (64696259, 0), (6865, 0), (1, 0)], [(24282211182613, 0), (1174287134, 0),
    (216501, 0), (35, 0)], [(0, 26413113925), (0, 3377265), (0, 573)]], 3, 4⟩, 72057594037927936, 6222033723024,
    3428155003205, ⟨[[(6278953755964, 0), (17952382022, 0), (23965509, 0), (0, 17374), (29, 0)], [(0, 9700153549),
    (0, 54220837), (0, 40714), (55, 0)], [(27610457, 0), (131202, 0), (0, 60)], [(0, 81207), (0, 226)]], 3, 4⟩,
    17592186044416, 33717298,
    5329717160434927745091569192634775557147377517654037815532392921643138849575468649356194461416428227720844271478196631175560831,
    lc0⟩) (.leaf ⟨501, 16, 1292, 105, 16, 1450, ⟨[[(33521396165607424, 0), (0, 3134905628023488), (68633069660, 0),
    (959825, 0), (182, 0)], [(13824833663720079, 0), (0, 5229711056059), (240640134, 0), (13018, 0), (2, 0)],
    [(14041157530965, 0), (0, 3721278062), (0, 15248), (0, 18)], [(62758036721, 0), (0, 9651498), (0, 986)]], 3, 4⟩,
    ⟨[[(0, 2227770885137408), (0, 1751223239910308), (0, 4238823926), (0, 3854367), (0, 435)], [(0,
    31660495818143768), (292378341348, 0), (82981554, 0), (9770, 0), (1, 0)], [(22000946188904, 0), (768793842, 0),
    (145749, 0), (26, 0)], [(0, 24425444585), (0, 3630230), (0, 655)]], 3, 4⟩, 72057594037927936, 11753018886371,
    3931246199062, ⟨[[(5891345545473, 0), (15986955166, 0), (22713246, 0), (0, 17282), (38, 0)], [(0, 8950410220),
    (0, 52153040), (0, 45090), (78, 0)], [(27008771, 0), (141687, 0), (0, 72)], [(0, 86435), (0, 288), (1, 0)]], 3,
    4⟩, 17592186044416, 40513808,
    4352127015471420420855399850183687500212385411463265600695024946634531994474235090324426664082782732275700541931663140191546167,
    lc0⟩)))
theorem c110 : checkR job con0 true ⟨7, 9, 7, 9, 13, 17⟩ 1 28336 t110 153 21 160 30243 251 32000 = true := by decide +kernel

def t111 : CTree :=
  .sx (.sy (.leaf ⟨920, 16, 2553, 167, 16, 1545, ⟨[[(16852823965057024, 0), (0, 2456720155720113), (19412586154, 0),
    (0, 169430), (0, 4)], [(22253730469690085, 0), (0, 4516166692699), (104247063, 0), (3029, 0)], [(0,
    14664390140962), (0, 214840738), (183531, 0), (10, 0)], [(109291690279, 0), (0, 7012268), (0, 364)]], 3, 4⟩,
    ⟨[[(0, 6113503812997120), (0, 947914670152149), (0, 4451321973), (0, 708343), (0, 38)], [(0, 41056541607213001),
    (0, 27167380938), (4835975, 0), (0, 82)], [(35885213135194, 0), (1205055237, 0), (107001, 0), (8, 0)], [(0,
    35835711748), (0, 1344437), (0, 76)]], 3, 4⟩, 72057594037927936, 17338699183493, 2789691250740,
    ⟨[[(7241271376030, 0), (19137349974, 0), (19103973, 0), (0, 11868), (3, 0)], [(0, 7396367245), (0, 31807161), (0,
    15522), (1, 0)], [(12125453, 0), (39366, 0), (0, 5)], [(0, 19675), (0, 31)]], 3, 4⟩, 17592186044416, 3488717,
    6287987967013324552228902953847413863559259251934684059189879103960451708073393477751659272274090376285625939474311169584674928,
    lc0⟩) (.sx (.leaf ⟨1213, 16, 3440, 272, 16, 2525, ⟨[[(1600970475765760, 0), (0, 3221794003953518), (24292826097,
    0), (0, 284875), (0, 8)], [(13715443454734501, 0), (0, 2971789322188), (70576071, 0), (2124, 0)], [(0,
    6101683860235), (67924526, 0), (71495, 0), (4, 0)], [(18458650545, 0), (0, 1148167), (0, 60)]], 3, 4⟩, ⟨[[(0,
    11335872255160320), (0, 1556768242091107), (0, 9174864409), (0, 1286077), (0, 68)], [(0, 34196171602716684), (0,
    41285103061), (1770636, 0), (0, 226)], [(15393678691391, 0), (556087420, 0), (49909, 0), (4, 0)], [(0,
    7560189012), (0, 256032), (0, 13)]], 3, 4⟩, 72057594037927936, 1777108494594, 254087706865, ⟨[[(7381162591115,
    0), (12090620403, 0), (7274259, 0), (0, 2713), (1, 0)], [(0, 5848809040), (0, 15159280), (0, 4263), (0, 1)],
    [(7349339, 0), (13884, 0), (0, 1)], [(0, 9083), (0, 8)]], 3, 4⟩, 17592186044416, 1101243,
    6418272204156773521938722241533045470292588145936721961155743042040954858483171554400960657284192480518602469619144369749613401,
    lc0⟩) (.leaf ⟨1197, 16, 3374, 258, 16, 2587, ⟨[[(33275480088248320, 0), (0, 3282370449032497), (26853109563, 0),
    (0, 184914), (0, 2)], [(13043117225236123, 0), (0, 2915474809759), (74772450, 0), (2408, 0)], [(0,
    3782793552638), (0, 87270082), (61682, 0), (4, 0)], [(16914256751, 0), (0, 1312977), (0, 75)]], 3, 4⟩,
    ⟨[[(34196967524716544, 0), (0, 1595786139912136), (0, 9234894311), (0, 1320738), (0, 70)], [(0,
    33751658867971578), (4044478012, 0), (6023932, 0), (82, 0)], [(14808313073092, 0), (532210615, 0), (48909, 0),
    (4, 0)], [(0, 7543997318), (0, 331806), (0, 22)]], 3, 4⟩, 72057594037927936, 1261234261036, 267787056322,
    ⟨[[(7099392923940, 0), (11403270812, 0), (7058221, 0), (0, 2596), (1, 0)], [(0, 5547642345), (0, 14710596), (0,
    4127)], [(7144941, 0), (13975, 0), (0, 2)], [(0, 9141), (0, 8)]], 3, 4⟩, 17592186044416, 1107951,
    6744470069100646488405934130169006936156065602292497062743778883551062989586712065174406569472838592729579322593465690241347580,
    lc0⟩))) (.sy (.leaf ⟨910, 16, 2489, 152, 16, 1634, ⟨[[(0, 31166439393878016), (0, 2580969373530476),
    (23480831667, 0), (0, 25244), (5, 0)], [(21040170677287107, 0), (0, 4460071354124), (114499594, 0), (3654, 0)],
    [(0, 1484717023779), (0, 1187486744), (124331, 0), (6, 0)], [(98479472418, 0), (0, 8594212), (0, 501)]], 3, 4⟩,
    ⟨[[(8073729331662848, 0), (0, 1001594131061209), (0, 4300714548), (0, 738138), (0, 40)], [(0, 40429934210752853),
    (69793131098, 0), (14058983, 0), (596, 0)], [(33329732432807, 0), (1060407114, 0), (98310, 0), (8, 0)], [(0,
    35431851854), (0, 1943364), (0, 151)]], 3, 4⟩, 72057594037927936, 5228352733902, 3231548213424,
    ⟨[[(6718947032216, 0), (16848395195, 0), (17649328, 0), (0, 10648), (12, 0)], [(0, 6537933091), (0, 29123765),
    (0, 14807), (8, 0)], [(11019572, 0), (38409, 0), (0, 15)], [(0, 18777), (0, 32)]], 3, 4⟩, 17592186044416,
    3577545,
    6463109634567146629524299570019175155955288647283897841322789276166682269091326616871331866797789968701135369611704116445947943,
    lc0⟩) (.sx (.leaf ⟨1178, 16, 3299, 245, 16, 2648, ⟨[[(14648304796418048, 0), (0, 3329384015268238), (29427511673,
    0), (0, 76177), (4, 0)], [(12528507383936171, 0), (0, 2864920778485), (77762610, 0), (2617, 0)], [(0,
    1666442891495), (0, 257379846), (50172, 0), (3, 0)], [(15790974315, 0), (0, 1442811), (0, 87)]], 3, 4⟩, ⟨[[(0,
    14711473046036480), (0, 1632305392472447), (0, 9107194838), (0, 1341865), (0, 71)], [(0, 33314758532022248),
    (47990629093, 0), (10237074, 0), (389, 0)], [(14198224392264, 0), (498034907, 0), (46701, 0), (4, 0)], [(0,
    7501351999), (0, 400162), (0, 31)]], 3, 4⟩, 72057594037927936, 731632273734, 296207327311, ⟨[[(6848632129000, 0),
    (10770951529, 0), (6847593, 0), (0, 2534), (2, 0)], [(0, 5286827243), (0, 14327437), (0, 4068)], [(6984480, 0),
    (14204, 0), (0, 3)], [(0, 9265), (0, 8)]], 3, 4⟩, 17592186044416, 1182477,
    6730595056069275728146795455143574682177751951694613637304973442048994335308203368505865393421348418988581560201379459138379966,
    lc0⟩) (.leaf ⟨1156, 16, 3216, 231, 16, 2709, ⟨[[(0, 24832205291667456), (0, 3363468262802718), (31950782283, 0),
    (37154, 0), (10, 0)], [(12157577738044992, 0), (0, 2821599012523), (79446053, 0), (2742, 0)], [(291376507140, 0),
    (0, 436470936), (37539, 0), (2, 0)], [(15089263541, 0), (0, 1534106), (0, 95)]], 3, 4⟩, ⟨[[(0, 5953601685856256),
    (0, 1666978107421983), (0, 8795296019), (0, 1349885), (0, 72)], [(0, 32902265295968920), (89634814265, 0),
    (14308433, 0), (688, 0)], [(13573743047813, 0), (454649510, 0), (43404, 0), (3, 0)], [(0, 7425446869), (0,
    459318), (0, 38)]], 3, 4⟩, 72057594037927936, 203783251984, 330318859633, ⟨[[(6605487164854, 0), (10160907080,
    0), (6655781, 0), (0, 2525), (2, 0)], [(0, 5036443002), (0, 13985134), (0, 4080), (1, 0)], [(6840321, 0), (14575,
    0), (0, 5)], [(0, 9444), (0, 9)]], 3, 4⟩, 17592186044416, 1255417,
    6410211664938577991493780450433705778216445358174153164122595424514490815556422648068853363066663331442191959592033954131867967,
    lc0⟩)))
theorem c111 : checkR job con0 true ⟨7, 9, 7, 9, 13, 17⟩ 1 28336 t111 285 21 320 61239 251 64000 = true := by decide +kernel

def t112 : CTree :=
  .sx (.sx (.sy (.leaf ⟨1232, 16, 3559, 260, 16, 2518, ⟨[[(0, 10798382960263168), (0, 3308239016769363),
    (24676306184, 0), (0, 312316), (0, 9)], [(12665143574921218, 0), (0, 2999555900966), (76524835, 0), (2464, 0)],
    [(0, 6258270790774), (147980754, 0), (80952, 0), (5, 0)], [(18484751802, 0), (0, 1253264), (0, 69)]], 3, 4⟩,
    ⟨[[(17247500869910528, 0), (0, 1562643345816268), (0, 11187082371), (0, 1425633), (0, 74)], [(0,
    34121622124766068), (0, 39572919749), (1412249, 0), (0, 244)], [(15642407828520, 0), (607408599, 0), (55625, 0),
    (4, 0)], [(0, 7670718367), (0, 268773), (0, 14)]], 3, 4⟩, 72057594037927936, 1973696138083, 211166160079,
    ⟨[[(7375410972541, 0), (12300858230, 0), (7501541, 0), (0, 2742), (1, 0)], [(0, 5810427212), (0, 15209026), (0,
    4070), (0, 2)], [(7309607, 0), (13481, 0), (0, 1)], [(0, 9018), (0, 6)]], 3, 4⟩, 17592186044416, 1055857,
    7129826309240800518407774650218757297271903130432336966828649561274561305276974574178456222462719085809684289848749473311552159,
    lc0⟩) (.leaf ⟨1251, 16, 3684, 248, 16, 2509, ⟨[[(25032763296923648, 0), (0, 3399035917011937), (25041240207, 0),
    (0, 343374), (0, 10)], [(11571602175620041, 0), (0, 3023374712274), (83277934, 0), (2852, 0)], [(0,
    6379404982917), (241276798, 0), (91843, 0), (6, 0)], [(18464204662, 0), (0, 1372437), (0, 79)]], 3, 4⟩,
    ⟨[[(30276462254772224, 0), (0, 1569362034273270), (0, 13401886837), (0, 1576100), (0, 81)], [(0,
    34019133760970490), (0, 38207410946), (1026376, 0), (0, 262)], [(15904820345225, 0), (664051897, 0), (61833, 0),
    (4, 0)], [(0, 7781415035), (0, 282700), (0, 16)]], 3, 4⟩, 72057594037927936, 2199471438652, 165690877846,
    ⟨[[(7376015122829, 0), (12539971979, 0), (7742334, 0), (0, 2766), (1, 0)], [(0, 5789658216), (0, 15282186), (0,
    3849), (0, 3)], [(7302558, 0), (13034, 0), (0, 1)], [(0, 8991), (0, 5)]], 3, 4⟩, 17592186044416, 1054859,
    7170131508983220490056506043515919918161267448045454284167907503866458250496287049867637729767691843662631970412559274374275370,
    lc0⟩)) (.sy (.sx (.leaf ⟨1391, 16, 4000, 369, 16, 3785, ⟨[[(0, 27034802488524800), (0, 3824241281960919),
    (30530933479, 0), (0, 258490), (0, 5)], [(6925979966930165, 0), (0, 1682568186715), (45746202, 0), (1549, 0)],
    [(0, 1282271274213), (6091808, 0), (20722, 0), (1, 0)], [(2447750545, 0), (0, 199135), (0, 12)]], 3, 4⟩,
    ⟨[[(5969415868735488, 0), (0, 2349910883476441), (0, 16667082015), (0, 2148519), (0, 112)], [(0,
    24921825915237480), (0, 1627892137), (3658062, 0), (7, 0)], [(5608010253309, 0), (217656332, 0), (20269, 0), (1,
    0)], [(0, 1418982459), (0, 61530), (0, 4)]], 3, 4⟩, 72057594037927936, 118436464975, 27995828416,
    ⟨[[(7167075323320, 0), (7980791116, 0), (3363473, 0), (0, 832)], [(0, 4903427427), (0, 8843182), (0, 1580)],
    [(5513459, 0), (7065, 0), (0, 1)], [(0, 6127), (0, 3)]], 3, 4⟩, 17592186044416, 641210,
    6894844169020880266878015936191352091683062365903832161207165109028459767059951652199657932411275693352764142530207547211337948,
    lc0⟩) (.leaf ⟨1375, 16, 3944, 358, 16, 3818, ⟨[[(7781295374958592, 0), (0, 3840384634246205), (32033103553, 0),
    (0, 188622), (0, 1)], [(6735440245447371, 0), (0, 1659571908204), (46758573, 0), (1625, 0)], [(0, 965326494402),
    (0, 19626480), (18894, 0), (1, 0)], [(2335111956, 0), (0, 210361), (0, 13)]], 3, 4⟩, ⟨[[(0, 15492851758645248),
    (0, 2370085279067774), (0, 16621670426), (0, 2164341), (0, 113)], [(0, 24671477070824335), (16459814064, 0),
    (5384256, 0), (131, 0)], [(5477547060827, 0), (211301413, 0), (19877, 0), (1, 0)], [(0, 1415438941), (0, 68837),
    (0, 5)]], 3, 4⟩, 72057594037927936, 98160500500, 29715752210, ⟨[[(7038490835087, 0), (7786677129, 0), (3335157,
    0), (0, 832)], [(0, 4808497654), (0, 8796570), (0, 1565)], [(5502875, 0), (7197, 0), (0, 1)], [(0, 6256), (0,
    3)]], 3, 4⟩, 17592186044416, 648708,
    6861991053381888547445766707836448879011220690318454951809184813300369627413787902408565944473120812063309956975737229683658627,
    lc0⟩)) (.leaf ⟨1234, 16, 3614, 235, 16, 2573, ⟨[[(3746246968115200, 0), (0, 3458706318608234), (28149422313, 0),
    (0, 210005), (0, 3)], [(10919052674276110, 0), (0, 2953606109766), (88814339, 0), (3231, 0)], [(0,
    4075040899942), (51626201, 0), (78931, 0), (5, 0)], [(16618223677, 0), (0, 1586400), (0, 99)]], 3, 4⟩, ⟨[[(0,
    13431370089873408), (0, 1609861161744615), (0, 13589078906), (0, 1619645), (0, 83)], [(0, 33558839115946179),
    (16324518720, 0), (6274319, 0), (107, 0)], [(15312515716771, 0), (638722633, 0), (60688, 0), (4, 0)], [(0,
    7858238274), (0, 378965), (0, 27)]], 3, 4⟩, 72057594037927936, 1606679918037, 188886251745, ⟨[[(7104817991833,
    0), (11839297762, 0), (7490020, 0), (0, 2718), (2, 0)], [(0, 5511589872), (0, 14871045), (0, 3579), (0, 3)],
    [(7143947, 0), (13170, 0), (0, 3)], [(0, 9137), (0, 5)]], 3, 4⟩, 17592186044416, 1085100,
    7004651127442075320450315336557017263275262912082643538199377481249548481798304142428770515329057508500256300589801133517618323,
    lc0⟩))) (.sy (.sx (.sx (.leaf ⟨1359, 16, 3888, 347, 16, 3852, ⟨[[(31150858051600384, 0), (0, 3854617918947297),
    (33546146119, 0), (0, 116786), (3, 0)], [(6571935891950953, 0), (0, 1638753682122), (47590298, 0), (1689, 0)],
    [(0, 665601754011), (0, 46294050), (16961, 0), (1, 0)], [(2240720304, 0), (0, 220165), (0, 14)]], 3, 4⟩, ⟨[[(0,
    29060258937438208), (0, 2390123070502979), (0, 16506545814), (0, 2175481), (0, 113)], [(0, 24434497392907270),
    (34134930563, 0), (7088948, 0), (254, 0)], [(5347455898825, 0), (204031412, 0), (19376, 0), (1, 0)], [(0,
    1410970711), (0, 75719), (0, 6)]], 3, 4⟩, 72057594037927936, 77823203003, 32544198121, ⟨[[(6912973879226, 0),
    (7593562100, 0), (3306095, 0), (0, 837)], [(0, 4713656286), (0, 8748628), (0, 1553)], [(5490115, 0), (7342, 0),
    (0, 1)], [(0, 6388), (0, 3)]], 3, 4⟩, 17592186044416, 720370,
    6759979337881012913044994065726913685685485439336494759454730365966336904191832628075384647081388861186809696260600558222586952,
    lc0⟩) (.leaf ⟨1344, 16, 3832, 335, 16, 3886, ⟨[[(0, 27843397635801088), (0, 3867031823222517), (35061438413, 0),
    (0, 43559), (7, 0)], [(6433775084867515, 0), (0, 1620152055398), (48235438, 0), (1740, 0)], [(0, 380705768874),
    (0, 73705372), (14943, 0), (1, 0)], [(2164264207, 0), (0, 228500), (0, 15)]], 3, 4⟩, ⟨[[(30178017979985920, 0),
    (0, 2409416050778621), (0, 16317844080), (0, 2181395), (0, 114)], [(0, 24204520236020642), (51311524399, 0),
    (8761260, 0), (375, 0)], [(5216453135827, 0), (195840191, 0), (18765, 0), (1, 0)], [(0, 1404964893), (0, 82117),
    (0, 7)]], 3, 4⟩, 72057594037927936, 59169892541, 33873931763, ⟨[[(6779178174176, 0), (7388822289, 0), (3278946,
    0), (0, 847), (1, 0)], [(0, 4600101229), (0, 8683616), (0, 1550)], [(5448592, 0), (7494, 0), (0, 2)], [(0, 6490),
    (0, 3)]], 3, 4⟩, 17592186044416, 750182,
    6593943856265973434641470630281149987457093518483950314793045059029536476891920622076514903554141311185822902547898251572257569,
    lc0⟩)) (.leaf ⟨1172, 16, 3329, 219, 16, 2705, ⟨[[(8772548035313664, 0), (0, 3448409688779413), (33147404474, 0),
    (60051, 0), (11, 0)], [(11139638271346467, 0), (0, 2835943214558), (86769062, 0), (3184, 0)], [(84850638114, 0),
    (0, 411277776), (41945, 0), (2, 0)], [(14796534467, 0), (0, 1692443), (0, 110)]], 3, 4⟩, ⟨[[(0,
    3807181612898304), (0, 1674390238218300), (0, 10923794131), (0, 1498225), (0, 78)], [(0, 32805063381475188),
    (104383651859, 0), (15374529, 0), (758, 0)], [(13792945426177, 0), (500057222, 0), (48533, 0), (4, 0)], [(0,
    7654597927), (0, 498675), (0, 42)]], 3, 4⟩, 72057594037927936, 288979122483, 306226275318, ⟨[[(6607569380888, 0),
    (10358485076, 0), (6861071, 0), (0, 2672), (3, 0)], [(0, 5030720774), (0, 14128767), (0, 3705)], [(6887739, 0),
    (14318, 0), (0, 6)], [(0, 9572), (0, 7)]], 3, 4⟩, 17592186044416, 1289171,
    6514032066325150873368593707049740252172962319596454826695128996509393934885257815794672102183771807187818612881798287280724328,
    lc0⟩)) (.sx (.sy (.leaf ⟨2012, 16, 5834, 275, 16, 3240, ⟨[[(23566257871405056, 0), (0, 2898295565849374),
    (12928977414, 0), (0, 13858)], [(17814224015436968, 0), (0, 2406641646964), (37753838, 0), (705, 0)], [(0,
    3274867357202), (0, 143596848), (25738, 0), (1, 0)], [(25556866710, 0), (0, 1424552), (0, 46)]], 3, 4⟩,
    ⟨[[(2777464680415232, 0), (0, 1010428757547414), (0, 3973868074), (0, 246601), (0, 6)], [(0, 40701180938223586),
    (40949660500, 0), (3475279, 0), (71, 0)], [(17954924243847, 0), (360144925, 0), (17362, 0), (1, 0)], [(0,
    9639161655), (0, 280752), (0, 11)]], 3, 4⟩, 72057594037927936, 1522034023952, 272141025039, ⟨[[(6846084074967,
    0), (9059137392, 0), (4784465, 0), (0, 1467), (1, 0)], [(0, 3158183271), (0, 7097705), (0, 1383), (0, 1)],
    [(2531816, 0), (3995, 0), (0, 1)], [(0, 2029), (0, 1)]], 3, 4⟩, 17592186044416, 197028,
    6663891201147611756094934218517511186388625762225423478766811800554963343751910754043705733661412276512398583378663077041855322,
    lc0⟩) (.leaf ⟨2044, 16, 5987, 268, 16, 3237, ⟨[[(30762575331819520, 0), (0, 2960994429098570), (13247331690, 0),
    (0, 13284)], [(17051450601381696, 0), (0, 2430301024687), (39864272, 0), (764, 0)], [(0, 3427974447653), (0,
    120254832), (27598, 0), (1, 0)], [(25481010866, 0), (0, 1511026), (0, 50)]], 3, 4⟩, ⟨[[(0, 18967597973602304),
    (0, 1013668744590394), (0, 4350939080), (0, 259364), (0, 7)], [(0, 40642072859839336), (44452498899, 0),
    (3582190, 0), (75, 0)], [(18123376811775, 0), (377712206, 0), (18321, 0), (1, 0)], [(0, 9773901352), (0, 291974),
    (0, 12)]], 3, 4⟩, 72057594037927936, 1657013915689, 248050980569, ⟨[[(6849119365864, 0), (9147697168, 0),
    (4850696, 0), (0, 1490), (1, 0)], [(0, 3132089631), (0, 7064083), (0, 1285), (0, 1)], [(2498605, 0), (3866, 0),
    (0, 1)], [(0, 1989), (0, 1)]], 3, 4⟩, 17592186044416, 199938,
    6558981742900213711511168143102674135144963134897243480849388237916598896457419326160830291393974745606623456008616357266999766,
    lc0⟩)) (.sy (.leaf ⟨1985, 16, 5725, 259, 16, 3334, ⟨[[(0, 9673038870675456), (0, 2943690214261218), (14284518081,
    0), (16631, 0), (1, 0)], [(17342466060155995, 0), (0, 2381157217527), (38918335, 0), (745, 0)], [(0,
    109943171360), (0, 325661347), (19146, 0), (1, 0)], [(24322809924, 0), (0, 1529296), (0, 51)]], 3, 4⟩,
    ⟨[[(3499556328812544, 0), (0, 1037342326535927), (0, 3908347397), (0, 249555), (0, 6)], [(0, 40382125725462351),
    (71666445291, 0), (5011468, 0), (126, 0)], [(17241023629454, 0), (331660085, 0), (16258, 0), (1, 0)], [(0,
    9673464944), (0, 327534), (0, 14)]], 3, 4⟩, 72057594037927936, 539053403507, 333876173757, ⟨[[(6605574174875, 0),
    (8511314584, 0), (4605970, 0), (0, 1482), (2, 0)], [(0, 2997605043), (0, 6879748), (0, 1319)], [(2465360, 0),
    (4065, 0), (0, 2)], [(0, 2054), (0, 1)]], 3, 4⟩, 17592186044416, 250721,
    6389780311609319351129906346287981736464269915108660393200137813832177302722077394059780773484098157810533946941270776743747892,
    lc0⟩) (.leaf ⟨2016, 16, 5875, 252, 16, 3333, ⟨[[(0, 8841736395931648), (0, 3006086478468087), (14686488632, 0),
    (19742, 0), (1, 0)], [(16580356473560122, 0), (0, 2402859382102), (41121130, 0), (807, 0)], [(0, 275569656818),
    (0, 314058246), (20471, 0), (1, 0)], [(24158802679, 0), (0, 1623489), (0, 55)]], 3, 4⟩, ⟨[[(0,
    19302341347592192), (0, 1041145880806088), (0, 4292730664), (0, 262638), (0, 7)], [(0, 40332769091392280),
    (76771708755, 0), (5204314, 0), (132, 0)], [(17406468165505, 0), (348337784, 0), (17174, 0), (1, 0)], [(0,
    9838507401), (0, 341783), (0, 15)]], 3, 4⟩, 72057594037927936, 627212457235, 314300772009, ⟨[[(6608293144121, 0),
    (8592083853, 0), (4666064, 0), (0, 1516), (2, 0)], [(0, 2974512681), (0, 6852826), (0, 1204), (0, 1)], [(2437575,
    0), (3944, 0), (0, 2)], [(0, 2020), (0, 1)]], 3, 4⟩, 17592186044416, 211254,
    6158893273090319253165703889005209731795839220864445900982284500393192182378526104959389867712389505578991964652913477444053664,
    lc0⟩))))
theorem c112 : checkR job con0 true ⟨7, 9, 7, 9, 13, 17⟩ 1 28336 t112 285 21 320 61741 251 64000 = true := by decide +kernel

def t113 : CTree :=
  .sy (.sx (.sy (.leaf ⟨874, 16, 2359, 136, 16, 1724, ⟨[[(0, 18350940638920704), (0, 2626317067251135), (26983211718,
    0), (129166, 0), (14, 0)], [(20316308175373794, 0), (0, 4366927265534), (115747724, 0), (3759, 0)],
    [(10381670483636, 0), (0, 2225448749), (52784, 0), (1, 0)], [(95458630068, 0), (0, 9202393), (0, 545)]], 3, 4⟩,
    ⟨[[(32442632542971904, 0), (0, 1051854424221629), (0, 3744488619), (0, 739222), (0, 40)], [(0,
    39895636512035023), (156084985419, 0), (22605069, 0), (1233, 0)], [(30639648894539, 0), (837322123, 0), (80311,
    0), (6, 0)], [(0, 34368987856), (0, 2379005), (0, 207)]], 3, 4⟩, 72057594037927936, 9762437290287, 3959453835837,
    ⟨[[(6269327741066, 0), (14856915995, 0), (16389215, 0), (0, 10277), (18, 0)], [(0, 5945210689), (0, 27484520),
    (0, 15234), (15, 0)], [(10566943, 0), (40159, 0), (0, 22)], [(0, 19470), (0, 39)]], 3, 4⟩, 17592186044416,
    4103274,
    5945074820190578049619603387302331894513402870769425674138857566703331121099715340338203990103054120375076220491188834303236313,
    lc0⟩) (.sx (.leaf ⟨1129, 16, 3122, 217, 16, 2770, ⟨[[(0, 15995780864884736), (0, 3381060944481808), (34313404744,
    0), (150546, 0), (16, 0)], [(11903542769075564, 0), (0, 2782779512235), (79683279, 0), (2777, 0)],
    [(2132162001217, 0), (0, 617608506), (24355, 0), (1, 0)], [(14777383054, 0), (0, 1583230), (0, 99)]], 3, 4⟩,
    ⟨[[(0, 11556344856143872), (0, 1699880425043332), (0, 8303549230), (0, 1345019), (0, 72)], [(0,
    32516967335909553), (128145217045, 0), (18143386, 0), (971, 0)], [(12940290845145, 0), (403170786, 0), (39144,
    0), (3, 0)], [(0, 7308268125), (0, 507771), (0, 44)]], 3, 4⟩, 72057594037927936, 491615576501, 371285790631,
    ⟨[[(6383967351930, 0), (9596111635, 0), (6479483, 0), (0, 2554), (3, 0)], [(0, 4825848877), (0, 13726646), (0,
    4161), (2, 0)], [(6763418, 0), (15139, 0), (0, 6)], [(0, 9761), (0, 10)]], 3, 4⟩, 17592186044416, 1358928,
    6101059628899753845534129347343440535726682942122295236276551465992391058547661657904949897057049417169498519078100515235101050,
    lc0⟩) (.leaf ⟨1100, 16, 3023, 203, 16, 2831, ⟨[[(0, 16753750042378240), (0, 3388186312243309), (36500307689, 0),
    (259718, 0), (23, 0)], [(11775994354212139, 0), (0, 2753002751606), (78623367, 0), (2725, 0)], [(3897305077573,
    0), (0, 795290852), (11279, 0)], [(14852742189, 0), (0, 1592883), (0, 99)]], 3, 4⟩, ⟨[[(0, 31668951060957184),
    (0, 1731126132703009), (0, 7640454288), (0, 1327765), (0, 71)], [(0, 32161092049175528), (162782180639, 0),
    (21657323, 0), (1234, 0)], [(12304267062634, 0), (344916147, 0), (34065, 0), (3, 0)], [(0, 7143634559), (0,
    544403), (0, 49)]], 3, 4⟩, 72057594037927936, 954588535053, 419592436353, ⟨[[(6178033646399, 0), (9061223195, 0),
    (6315257, 0), (0, 2607), (3, 0)], [(0, 4632267932), (0, 13497558), (0, 4315), (2, 0)], [(6703722, 0), (15826, 0),
    (0, 7)], [(0, 10130), (0, 12)]], 3, 4⟩, 17592186044416, 1552457,
    5482547353608739108583077992941795102264593455642462247563141032766900458466547161327373482690140482429872205540993243787748625,
    lc0⟩))) (.leaf ⟨514, 16, 1383, 93, 16, 1451, ⟨[[(0, 24067580337233920), (0, 3281067206237725), (75326177334, 0),
    (1453368, 0), (230, 0)], [(12055140268003604, 0), (0, 5327900802514), (281617247, 0), (18102, 0), (2, 0)],
    [(13023926227226, 0), (0, 4014389866), (0, 45898), (0, 21)], [(61703412491, 0), (0, 11528267), (0, 1338)]], 3,
    4⟩, ⟨[[(0, 13626157639830528), (0, 1759836631170212), (0, 10751470276), (0, 4817245), (0, 523)], [(0,
    31513227889871823), (383862510932, 0), (99341450, 0), (11939, 0), (1, 0)], [(22442481796072, 0), (936484001, 0),
    (188617, 0), (31, 0)], [(0, 26443304413), (0, 4365102), (0, 809)]], 3, 4⟩, 72057594037927936, 12670984170585,
    3990972208033, ⟨[[(5886972881712, 0), (16547188175, 0), (24299964, 0), (0, 21092), (56, 0)], [(0, 8874399282),
    (0, 53599679), (0, 40528), (69, 0)], [(27280318, 0), (142401, 0), (0, 129), (1, 0)], [(0, 89522), (0, 261), (1,
    0)]], 3, 4⟩, 17592186044416, 41334521,
    5284230319842796386718421539744560747467310943922487591552635604324753384546859720697784166011878321539274070308652311777226429,
    lc0⟩)) (.sx (.sy (.sx (.leaf ⟨1144, 16, 3232, 205, 16, 2767, ⟨[[(20832765243785216, 0), (0, 3464397585871296),
    (35783444890, 0), (191301, 0), (18, 0)], [(10897937250164248, 0), (0, 2795746452739), (87081984, 0), (3228, 0)],
    [(1892801254079, 0), (0, 613300007), (26761, 0), (1, 0)], [(14448462495, 0), (0, 1747779), (0, 114)]], 3, 4⟩,
    ⟨[[(0, 18468168793194496), (0, 1707419894152924), (0, 10429364649), (0, 1493680), (0, 78)], [(0,
    32412798122016390), (146960712946, 0), (19658986, 0), (1070, 0)], [(13138691771476, 0), (444338261, 0), (43852,
    0), (3, 0)], [(0, 7566469155), (0, 553794), (0, 49)]], 3, 4⟩, 72057594037927936, 465913224642, 355086171310,
    ⟨[[(6387412948711, 0), (9788098219, 0), (6683576, 0), (0, 2742), (4, 0)], [(0, 4827220420), (0, 13903285), (0,
    3733)], [(6835618, 0), (14959, 0), (0, 8)], [(0, 9959), (0, 9)]], 3, 4⟩, 17592186044416, 1470246,
    6163968820398749168683286970859184139934900486661201247641714046701531661862298035513593840760995963918946218600885794287722914,
    lc0⟩) (.leaf ⟨1115, 16, 3131, 190, 16, 2829, ⟨[[(0, 18518306444607488), (0, 3471062006799083), (38245791628, 0),
    (317959, 0), (25, 0)], [(10786212700136157, 0), (0, 2767378473017), (85943709, 0), (3174, 0)], [(3625983736636,
    0), (0, 811979938), (11690, 0)], [(14528382329, 0), (0, 1758565), (0, 114)]], 3, 4⟩, ⟨[[(24260325515253760, 0),
    (0, 1738608498399146), (0, 9743573637), (0, 1475473), (0, 77)], [(0, 32051098689536951), (185359280929, 0),
    (23593254, 0), (1360, 0)], [(12477524474896, 0), (380933666, 0), (38261, 0), (3, 0)], [(0, 7424445205), (0,
    595734), (0, 54)]], 3, 4⟩, 72057594037927936, 966268421956, 408971950131, ⟨[[(6170834720649, 0), (9226919638, 0),
    (6527315, 0), (0, 2849), (4, 0)], [(0, 4616608288), (0, 13678361), (0, 3856), (1, 0)], [(6761297, 0), (15729, 0),
    (0, 9)], [(0, 10346), (0, 10)]], 3, 4⟩, 17592186044416, 1597637,
    5506231605951828099044457050948633198836437586915747029412620122793369099180610412459859199971133278224755702240876462867457841,
    lc0⟩)) (.sx (.leaf ⟨1160, 16, 3348, 193, 16, 2763, ⟨[[(35121724470444032, 0), (0, 3551362917313589),
    (37395770683, 0), (237991, 0), (21, 0)], [(9858407435346412, 0), (0, 2802894179326), (95539533, 0), (3743, 0)],
    [(1648947314637, 0), (0, 606558549), (29606, 0), (1, 0)], [(14027186835, 0), (0, 1936164), (0, 132)]], 3, 4⟩,
    ⟨[[(0, 33808481275502592), (0, 1716575471657726), (0, 12781758558), (0, 1654836), (0, 85)], [(0,
    32287188678752762), (167292520862, 0), (21321884, 0), (1179, 0)], [(13353896467238, 0), (490237268, 0), (49006,
    0), (4, 0)], [(0, 7845833884), (0, 604455), (0, 54)]], 3, 4⟩, 72057594037927936, 436164963589, 336063561486,
    ⟨[[(6390501139575, 0), (9987917536, 0), (6888391, 0), (0, 2934), (4, 0)], [(0, 4831673134), (0, 14079637), (0,
    3187), (0, 1)], [(6920172, 0), (14713, 0), (0, 10)], [(0, 10173), (0, 7)]], 3, 4⟩, 17592186044416, 1459995,
    6016267941628841977994757656433573315185459927725337070609975684492021233861243419466511381337507391023382141474387725240646331,
    lc0⟩) (.leaf ⟨1130, 16, 3244, 178, 16, 2826, ⟨[[(4298059888689152, 0), (0, 3556287812743525), (40163165708, 0),
    (384553, 0), (29, 0)], [(9759000845623820, 0), (0, 2775268595272), (94294669, 0), (3688, 0)], [(3337583621193,
    0), (0, 829069351), (12244, 0)], [(14107049652, 0), (0, 1947879), (0, 132)]], 3, 4⟩, ⟨[[(0, 92959268687872), (0,
    1747691166523297), (0, 12073024639), (0, 1635649), (0, 84)], [(0, 31918043112941915), (209886675490, 0),
    (25717586, 0), (1498, 0)], [(12665330839139, 0), (421195371, 0), (42861, 0), (3, 0)], [(0, 7729422910), (0,
    652276), (0, 60)]], 3, 4⟩, 72057594037927936, 977475267926, 397775777667, ⟨[[(6175372373859, 0), (9422126697, 0),
    (6734837, 0), (0, 3087), (5, 0)], [(0, 4628003148), (0, 13896952), (0, 3245)], [(6873610, 0), (15594, 0), (0,
    12)], [(0, 10645), (0, 9)]], 3, 4⟩, 17592186044416, 1625489,
    5272974077969955092607512060216458303056574307870118225349967656415750071378141898781202581734874208311338101900650262255152450,
    lc0⟩))) (.sx (.leaf ⟨603, 16, 1702, 121, 16, 2062, ⟨[[(0, 23880866944122880), (0, 3878831833412633),
    (91801820500, 0), (2107990, 0), (301, 0)], [(5686355386154479, 0), (0, 3045249521269), (192974812, 0), (14451,
    0), (2, 0)], [(2855906543868, 0), (0, 1127746251), (0, 7663), (0, 4)], [(8185535717, 0), (0, 2006540), (0,
    262)]], 3, 4⟩, ⟨[[(0, 4723329967128576), (0, 2528963650293877), (0, 28519657175), (0, 8685819), (0, 903)], [(0,
    22585216309430796), (332060605999, 0), (80876608, 0), (9718, 0), (1, 0)], [(8485975452640, 0), (467884319, 0),
    (96669, 0), (15, 0)], [(0, 5266638441), (0, 932300), (0, 174)]], 3, 4⟩, 72057594037927936, 856829205979,
    401982252464, ⟨[[(5978019915015, 0), (12328882906, 0), (12743054, 0), (0, 8514), (18, 0)], [(0, 8029234968), (0,
    34519313), (0, 13371), (10, 0)], [(22180311, 0), (76292, 0), (0, 78)], [(0, 65009), (0, 98)]], 3, 4⟩,
    17592186044416, 23841858,
    4975135567856317941125433856851925848752642945172348023599815502825959204541190674238570503955680191346194444856429985637909473,
    lc0⟩) (.leaf ⟨585, 16, 1643, 110, 16, 2096, ⟨[[(3769020948905984, 0), (0, 3869902434877202), (96411807330, 0),
    (2610427, 0), (358, 0)], [(5763859997233351, 0), (0, 3041380004107), (184337164, 0), (13390, 0), (2, 0)],
    [(3797590373018, 0), (0, 1332390759), (0, 38787), (0, 9)], [(8656996236, 0), (0, 1925065), (0, 244)]], 3, 4⟩,
    ⟨[[(0, 17797258316668928), (0, 2555718229393015), (0, 25376950734), (0, 8388830), (0, 876)], [(0,
    22260868858805346), (372459660540, 0), (89519801, 0), (11041, 0), (1, 0)], [(7969639165374, 0), (355897981, 0),
    (75711, 0), (12, 0)], [(0, 5057565474), (0, 948691), (0, 180)]], 3, 4⟩, 72057594037927936, 1128457886107,
    449711891390, ⟨[[(5799868237166, 0), (11703691736, 0), (12625683, 0), (0, 8991), (19, 0)], [(0, 7732431610), (0,
    34346768), (0, 14421), (17, 0)], [(22134970, 0), (81755, 0), (0, 89)], [(0, 68365), (0, 121), (1, 0)]], 3, 4⟩,
    17592186044416, 27085085,
    3696690677704512146732376659445058835499645127627614564717728577147531161116436741840667150203800000466422379615609072717120377,
    lc0⟩)))
theorem c113 : checkR job con0 true ⟨7, 9, 7, 9, 13, 17⟩ 1 28336 t113 327 21 320 30745 251 32000 = true := by decide +kernel

def t114 : CTree :=
  .sx (.sy (.sx (.sy (.sx (.leaf ⟨1271, 16, 3814, 236, 16, 2499, ⟨[[(5702650640023552, 0), (0, 3493225970887348),
    (25372588552, 0), (0, 378322), (0, 12)], [(10430757221729079, 0), (0, 3041185049330), (90915824, 0), (3293, 0)],
    [(0, 6454405508582), (349822832, 0), (104344, 0), (6, 0)], [(18381209518, 0), (0, 1507115), (0, 90)]], 3, 4⟩,
    ⟨[[(35374768147070976, 0), (0, 1577737390092582), (0, 15837862773), (0, 1738510), (0, 88)], [(0,
    33902425072695686), (0, 37231196747), (614210, 0), (0, 281)], [(16189549057653, 0), (726697103, 0), (68584, 0),
    (5, 0)], [(0, 7895807281), (0, 298015), (0, 17)]], 3, 4⟩, 72057594037927936, 2451186178817, 111235608301,
    ⟨[[(7373434751912, 0), (12780307353, 0), (7985228, 0), (0, 2772), (2, 0)], [(0, 5766682703), (0, 15336561), (0,
    3588), (0, 5)], [(7294050, 0), (12506, 0)], [(0, 8951), (0, 3)]], 3, 4⟩, 17592186044416, 1078871,
    7038821092513667562458297022251938810321161584514198390766361027326706350148722885819044627495598171097267428198012772555843324,
    lc0⟩) (.leaf ⟨1253, 16, 3742, 223, 16, 2564, ⟨[[(0, 6343949121748992), (0, 3552109345576841), (28813517984, 0),
    (0, 224775), (0, 4)], [(9794166434520134, 0), (0, 2963264591658), (97283280, 0), (3729, 0)], [(0, 4171299811953),
    (139370365, 0), (89560, 0), (5, 0)], [(16355359670, 0), (0, 1751501), (0, 114)]], 3, 4⟩, ⟨[[(0,
    16869980155426816), (0, 1619088710098721), (0, 16100755276), (0, 1787120), (0, 90)], [(0, 33431699007536128),
    (22629724670, 0), (6425691, 0), (124, 0)], [(15594277577949, 0), (700612537, 0), (67367, 0), (5, 0)], [(0,
    8027327851), (0, 406009), (0, 30)]], 3, 4⟩, 72057594037927936, 1817083464552, 140879582400, ⟨[[(7104609662532,
    0), (12072996475, 0), (7717950, 0), (0, 2760), (3, 0)], [(0, 5500377650), (0, 14955797), (0, 3208), (0, 5)],
    [(7167595, 0), (12672, 0), (0, 3)], [(0, 9164), (0, 3)]], 3, 4⟩, 17592186044416, 1095458,
    6883271306724380945627630478889571677085891741645764574505069743391208749447046475186422731449798081241317445865657404620521669,
    lc0⟩)) (.sx (.leaf ⟨1291, 16, 3950, 224, 16, 2488, ⟨[[(20950730533568512, 0), (0, 3591707928039541),
    (25668079405, 0), (0, 417654), (0, 13)], [(9245756302317611, 0), (0, 3052421180920), (99577325, 0), (3793, 0)],
    [(0, 6474581025426), (476041851, 0), (118701, 0), (7, 0)], [(18228704197, 0), (0, 1659702), (0, 103)]], 3, 4⟩,
    ⟨[[(32319538111535104, 0), (0, 1587977389346305), (0, 18510373635), (0, 1913381), (0, 95)], [(0,
    33771684335515124), (0, 36669314577), (176553, 0), (0, 298)], [(16499316936369, 0), (795828308, 0), (75917, 0),
    (5, 0)], [(0, 8014467995), (0, 314821), (0, 19)]], 3, 4⟩, 72057594037927936, 2738562830816, 52269167505,
    ⟨[[(7374986874561, 0), (13041482530, 0), (8233074, 0), (0, 2732), (2, 0)], [(0, 5759407559), (0, 15397786), (0,
    3269), (0, 8)], [(7315762, 0), (11888, 0)], [(0, 8937), (0, 1)]], 3, 4⟩, 17592186044416, 1059587,
    6734953762939125949310905432131388144511229578755095090562537036185298419227791955356225427813750951988647612319827587310088863,
    lc0⟩) (.leaf ⟨1272, 16, 3875, 211, 16, 2554, ⟨[[(0, 5644746830954496), (0, 3648581218800702), (29480875408, 0),
    (0, 241130), (0, 4)], [(8627734106464491, 0), (0, 2964416390245), (106877449, 0), (4294, 0)], [(0,
    4222998024130), (241887300, 0), (101765, 0), (6, 0)], [(15995331732, 0), (0, 1938717), (0, 131)]], 3, 4⟩, ⟨[[(0,
    28669216315856896), (0, 1630268187698261), (0, 18858019859), (0, 1967509), (0, 97)], [(0, 33288365206427788),
    (29065477502, 0), (6600308, 0), (143, 0)], [(15901321454676, 0), (768972241, 0), (74627, 0), (5, 0)], [(0,
    8206749272), (0, 435649), (0, 33)]], 3, 4⟩, 72057594037927936, 2054965269042, 88187383587, ⟨[[(7106607111664, 0),
    (12322388150, 0), (7946553, 0), (0, 2764), (3, 0)], [(0, 5501893794), (0, 15045596), (0, 2739), (0, 8)],
    [(7218966, 0), (12086, 0), (0, 4)], [(0, 9220), (0, 1)]], 3, 4⟩, 17592186044416, 1121795,
    6075981243021047074968394978477715649067746253744017689651187159674872859309449319819240551849359087264369812298729933201974475,
    lc0⟩))) (.sy (.sx (.leaf ⟨1231, 16, 3660, 209, 16, 2628, ⟨[[(0, 3154771512541184), (0, 3595891280501337),
    (32324311656, 0), (0, 57788), (5, 0)], [(9319257729942059, 0), (0, 2896368794411), (101879630, 0), (4055, 0)],
    [(0, 2141179232385), (0, 94479637), (72154, 0), (4, 0)], [(14863731600, 0), (0, 1943628), (0, 133)]], 3, 4⟩,
    ⟨[[(0, 18983091278661632), (0, 1657294422613738), (0, 16106689833), (0, 1817911), (0, 91)], [(0,
    32966937732765586), (81151088660, 0), (12205627, 0), (527, 0)], [(14953271176981, 0), (659973653, 0), (64527, 0),
    (5, 0)], [(0, 8119095958), (0, 503861), (0, 41)]], 3, 4⟩, 72057594037927936, 1159664557456, 189051920447,
    ⟨[[(6848080558131, 0), (11408068580, 0), (7488134, 0), (0, 2833), (4, 0)], [(0, 5254727925), (0, 14659415), (0,
    2886), (0, 5)], [(7080653, 0), (13050, 0), (0, 6)], [(0, 9481), (0, 3)]], 3, 4⟩, 17592186044416, 1200484,
    6474232431276396061825973379600284554020802522765304133796639050644144113418241537425634536017222815143157133509893127836468856,
    lc0⟩) (.leaf ⟨1206, 16, 3570, 195, 16, 2693, ⟨[[(0, 3695881035546624), (0, 3626430536289618), (35817406396, 0),
    (116481, 0), (14, 0)], [(8990123687394235, 0), (0, 2843262487214), (104570469, 0), (4259, 0)], [(0,
    303952413801), (0, 343011271), (52999, 0), (3, 0)], [(13917887832, 0), (0, 2078473), (0, 146)]], 3, 4⟩, ⟨[[(0,
    30598459030515712), (0, 1693639409762110), (0, 15866401938), (0, 1832071), (0, 92)], [(0, 32538963555604157),
    (137098386886, 0), (17822675, 0), (921, 0)], [(14284112037376, 0), (606458428, 0), (60240, 0), (4, 0)], [(0,
    8164150792), (0, 589325), (0, 51)]], 3, 4⟩, 72057594037927936, 495725322615, 245624296859, ⟨[[(6610594597799, 0),
    (10779940160, 0), (7277034, 0), (0, 2960), (5, 0)], [(0, 5032183170), (0, 14419518), (0, 2644), (0, 4)],
    [(7024664, 0), (13615, 0), (0, 9)], [(0, 9879), (0, 4)]], 3, 4⟩, 17592186044416, 1317340,
    5901348342167214547856089844857387147042258972112951976121947658210257108823853765719734616685760674280313426423713997013813296,
    lc0⟩)) (.leaf ⟨1060, 16, 3211, 116, 16, 1625, ⟨[[(5338394620346368, 0), (0, 3177763170864663), (30314245780, 0),
    (43136, 0), (9, 0)], [(13718646786489931, 0), (0, 4903344647490), (195542773, 0), (8243, 0)], [(0,
    4600790814882), (0, 538482340), (243626, 0), (15, 0)], [(94293510956, 0), (0, 15390597), (0, 1102)]], 3, 4⟩,
    ⟨[[(1340392000557056, 0), (0, 1034237599205637), (0, 11551416029), (0, 1233313), (0, 61)], [(0,
    39934269986836194), (152935467089, 0), (19781788, 0), (981, 0)], [(36543515529752, 0), (1712842497, 0), (170123,
    0), (12, 0)], [(0, 41220208648), (0, 2917444), (0, 249)]], 3, 4⟩, 72057594037927936, 14236795834434,
    1698661896704, ⟨[[(6723610165680, 0), (18471586159, 0), (20230747, 0), (0, 12991), (36, 0)], [(0, 6003716030),
    (0, 27939073), (0, 6338), (0, 38)], [(9717466, 0), (28465, 0), (0, 34)], [(0, 15627), (0, 3)]], 3, 4⟩,
    17592186044416, 3124708,
    5405231067355850420116922861968076048305429971069250816004391073637219567230376343516221654264953463829935813792126956715188587,
    lc0⟩))) (.sx (.sy (.leaf ⟨1116, 16, 3476, 125, 16, 1522, ⟨[[(25073704752840704, 0), (0, 3192596530231791),
    (24017150659, 0), (0, 311371), (0, 9)], [(13201583303155326, 0), (0, 5150908707711), (195218710, 0), (7998, 0)],
    [(0, 18115374906933), (1703260113, 0), (432024, 0), (27, 0)], [(114414383456, 0), (0, 13717024), (0, 925)]], 3,
    4⟩, ⟨[[(0, 33677739687081984), (0, 983944410968053), (0, 13157287815), (0, 1294139), (0, 63)], [(0,
    40485118961426322), (0, 482363585), (3941559, 0), (0, 92)], [(40136381727389, 0), (2087388037, 0), (202411, 0),
    (14, 0)], [(0, 40138505717), (0, 1950216), (0, 138)]], 3, 4⟩, 72057594037927936, 37752775774815, 923884973054,
    ⟨[[(7250082459094, 0), (21364307494, 0), (22610939, 0), (0, 11827), (23, 0)], [(0, 6585693352), (0, 29396195),
    (0, 7961), (0, 63)], [(9973242, 0), (25195, 0), (0, 8)], [(0, 14443), (3, 0)]], 3, 4⟩, 17592186044416, 3149100,
    5946901630666308949975952729143895904148164076693295307245947192660044502436507653121580251673082167286678094262664590447288618,
    lc0⟩) (.leaf ⟨1157, 16, 3676, 117, 16, 1517, ⟨[[(10559060260749312, 0), (0, 3351043286181402), (24888870431, 0),
    (0, 348469), (0, 10)], [(11279758684881211, 0), (0, 5233383407255), (219862889, 0), (9366, 0)], [(0,
    18134591523730), (2282425423, 0), (502374, 0), (32, 0)], [(113460429244, 0), (0, 15538797), (0, 1080)]], 3, 4⟩,
    ⟨[[(17514195332947968, 0), (0, 994886027372185), (0, 15153887278), (0, 1420762), (0, 68)], [(0,
    40351382052267599), (3395131613, 0), (3793616, 0), (0, 87)], [(41101593436678, 0), (2293912969, 0), (223643, 0),
    (15, 0)], [(0, 41018328376), (0, 2089158), (0, 152)]], 3, 4⟩, 72057594037927936, 43356476040595, 1731059770592,
    ⟨[[(7233237219180, 0), (21744266124, 0), (23176146, 0), (0, 11016), (28, 0)], [(0, 6442647395), (0, 28832003),
    (0, 5514), (0, 89)], [(9645299, 0), (22297, 0), (0, 10), (1, 0)], [(0, 13623), (10, 0)]], 3, 4⟩, 17592186044416,
    3146975,
    4007124027356980798333169492342916015404027037657636299309273540779772048566302997613882136991312131941597415352475434197155394,
    lc0⟩)) (.leaf ⟨622, 16, 1943, 85, 16, 1307, ⟨[[(0, 35372465967054848), (0, 3790417822049064), (73687596932, 0),
    (350410, 0), (100, 0)], [(6136373119862568, 0), (0, 5559817292892), (522078913, 0), (46617, 0), (5, 0)], [(0,
    2941812246386), (0, 175899025), (676389, 0), (83, 0)], [(49646883811, 0), (0, 20795980), (0, 3106)]], 3, 4⟩,
    ⟨[[(0, 32953191775113216), (0, 1695221630823800), (0, 46820098517), (0, 9187886), (0, 882)], [(0,
    32017444452135759), (296763884816, 0), (71345623, 0), (7352, 0), (1, 0)], [(30511455142517, 0), (3201836981, 0),
    (640786, 0), (88, 0)], [(0, 35040056504), (0, 5343078), (0, 928)]], 3, 4⟩, 72057594037927936, 11205957537660,
    1187208184170, ⟨[[(6728796075631, 0), (23588635669, 0), (32111629, 0), (0, 24877), (108, 0)], [(0, 10530025953),
    (0, 61027882), (0, 5090), (0, 227)], [(30235941, 0), (98985, 0), (0, 217), (3, 0)], [(0, 84907), (45, 0)]], 3,
    4⟩, 17592186044416, 29039038,
    3983117886732489120081796105058432111477087325377049690250229074552803576918774149891697366173486670530646539374547906519049934,
    lc0⟩))) (.sy (.sx (.sy (.leaf ⟨984, 16, 2894, 107, 16, 1724, ⟨[[(0, 537227256397824), (0, 3086488132445813),
    (34515747832, 0), (319462, 0), (24, 0)], [(14781178214935750, 0), (0, 4721308938983), (177442878, 0), (7314, 0)],
    [(7528545137975, 0), (0, 2448151177), (77586, 0), (3, 0)], [(91290193689, 0), (0, 14671764), (0, 1038)]], 3, 4⟩,
    ⟨[[(0, 11796225210104832), (0, 1077258688115412), (0, 9294062737), (0, 1125241), (0, 57)], [(0,
    39480022712361161), (263948964983, 0), (31704674, 0), (1825, 0)], [(32701671817640, 0), (1247692108, 0), (127030,
    0), (9, 0)], [(0, 40109590164), (0, 3408018), (0, 311)]], 3, 4⟩, 72057594037927936, 10080135513714,
    3412756342314, ⟨[[(6280033283392, 0), (16020424259, 0), (18372183, 0), (0, 13696), (38, 0)], [(0, 5588169274),
    (0, 27090430), (0, 7620), (0, 12)], [(9757707, 0), (33572, 0), (0, 49)], [(0, 17559), (0, 16)]], 3, 4⟩,
    17592186044416, 3891252,
    5413795740680449820493494757941327908957409658849119330361418835664332297969214134082336659966957413855770215225335384897684356,
    lc0⟩) (.leaf ⟨1016, 16, 3055, 99, 16, 1724, ⟨[[(11794450843492352, 0), (0, 3221347215547599), (36982471295, 0),
    (389301, 0), (27, 0)], [(13149746548904632, 0), (0, 4789848175770), (199596528, 0), (8602, 0)], [(6671112073817,
    0), (0, 2499453717), (87369, 0), (4, 0)], [(88307810367, 0), (0, 16648173), (0, 1217)]], 3, 4⟩,
    ⟨[[(21392520868755456, 0), (0, 1087469858123943), (0, 11076628565), (0, 1243637), (0, 61)], [(0,
    39339294109184122), (297205476821, 0), (34589858, 0), (2010, 0)], [(33361231724203, 0), (1382496292, 0), (141731,
    0), (10, 0)], [(0, 41901479539), (0, 3736375), (0, 343)]], 3, 4⟩, 72057594037927936, 10070907948892,
    3216604603364, ⟨[[(6273367601238, 0), (16320944789, 0), (18846769, 0), (0, 14604), (44, 0)], [(0, 5500162591),
    (0, 26974877), (0, 4468), (0, 24)], [(9601413, 0), (31737, 0), (0, 59)], [(0, 17171), (0, 9)]], 3, 4⟩,
    17592186044416, 3939916,
    3942018610695779041946779296449397286913035811233339379461119242753797747832390224672336203600291316549174626965574904310488542,
    lc0⟩)) (.leaf ⟨542, 16, 1597, 68, 16, 1448, ⟨[[(0, 28605124131618816), (0, 3607856981553493), (93844346732, 0),
    (2950143, 0), (373, 0)], [(8095399686475811, 0), (0, 5424481735135), (406079638, 0), (33546, 0), (4, 0)],
    [(10306551874320, 0), (0, 4818184837), (0, 131224), (0, 28)], [(56062644564, 0), (0, 17234779), (0, 2416)]], 3,
    4⟩, ⟨[[(0, 5486059748938752), (0, 1794588475911766), (0, 28760628768), (0, 7305432), (0, 730)], [(0,
    30950199520599363), (623374074706, 0), (143050697, 0), (17581, 0), (2, 0)], [(23559276130394, 0), (1421253618,
    0), (304038, 0), (46, 0)], [(0, 31698866079), (0, 6356644), (0, 1210)]], 3, 4⟩, 72057594037927936,
    15139003862239, 4046963735583, ⟨[[(5884504681152, 0), (17956152172, 0), (27823121, 0), (0, 31004), (104, 0)],
    [(0, 8915870925), (0, 57919996), (0, 17540), (0, 3), (0, 1)], [(29351992, 0), (144310, 0), (0, 353), (2, 0)],
    [(0, 102784), (0, 172), (2, 0)]], 3, 4⟩, 17592186044416, 47038099,
    4146719119085407607459969046462925742083588968427440022515971323950985438186461548412382186750612878752158064800989150000502443,
    lc0⟩)) (.sx (.leaf ⟨592, 16, 1841, 70, 16, 1375, ⟨[[(18019912097128448, 0), (0, 3814505863573067), (91496588082,
    0), (2295489, 0), (296, 0)], [(5821288925373333, 0), (0, 5392008860822), (531885188, 0), (48563, 0), (5, 0)],
    [(2916891359516, 0), (0, 2845039456), (234982, 0), (24, 0)], [(45223068198, 0), (0, 22455489), (0, 3426)]], 3,
    4⟩, ⟨[[(4067003517728768, 0), (0, 1764808851504937), (0, 44993074514), (0, 9187010), (0, 881)], [(0,
    31180753438589928), (562900357167, 0), (125932728, 0), (14813, 0), (1, 0)], [(27505686702491, 0), (2574765251,
    0), (531059, 0), (75, 0)], [(0, 35826204782), (0, 6848335), (0, 1268)]], 3, 4⟩, 72057594037927936, 5887234086285,
    2552385828638, ⟨[[(6278316351698, 0), (21106191558, 0), (30513063, 0), (0, 30691), (137, 0)], [(0, 9759440066),
    (0, 60646706), (4831, 0), (0, 175)], [(30748580, 0), (117131, 0), (0, 404), (3, 0)], [(0, 97649), (3, 0), (2,
    0)]], 3, 4⟩, 17592186044416, 39248449,
    3154375474535393091683699040302130247896540280639838362519241815783990000700245085401656998736445576614151456230860333890479269,
    lc0⟩) (.leaf ⟨558, 16, 1724, 55, 16, 1443, ⟨[[(0, 7184846585454592), (0, 3790435498424731), (106748902230, 0),
    (4066830, 0), (478, 0)], [(5914855696346569, 0), (0, 5386226597266), (499361582, 0), (45030, 0), (5, 0)],
    [(8475432659553, 0), (0, 5367443637), (0, 189950), (0, 34)], [(50474329715, 0), (0, 21524309), (0, 3225)]], 3,
    4⟩, ⟨[[(8397883054405120, 0), (0, 1823055004578848), (0, 40786337645), (0, 8863254), (0, 851)], [(0,
    30493222916621550), (778477411281, 0), (171621644, 0), (21186, 0), (2, 0)], [(24271406779308, 0), (1757711345,
    0), (379371, 0), (56, 0)], [(0, 35094190635), (0, 7672228), (0, 1467)]], 3, 4⟩, 72057594037927936,
    16818050739607, 4034012811968, ⟨[[(5883444178113, 0), (18835565403, 0), (29466286, 0), (0, 36422), (139, 0)],
    [(0, 9048646579), (0, 60980090), (8222, 0), (0, 92), (0, 1)], [(31294524, 0), (145141, 0), (0, 572), (3, 0)],
    [(0, 112859), (0, 104), (3, 0)]], 3, 4⟩, 17592186044416, 50054949,
    2308242418563177519195101970466924744864659617772970953180202523389760567090557430144111560112572237486475132162243831578526238,
    lc0⟩)))
theorem c114 : checkR job con0 true ⟨7, 9, 7, 9, 13, 17⟩ 1 28336 t114 153 21 160 31247 251 32000 = true := by decide +kernel

def t115 : CTree :=
  .sy (.sx (.sy (.leaf ⟨1201, 16, 3892, 110, 16, 1510, ⟨[[(0, 35013060396941312), (0, 3521776592294875),
    (25779420517, 0), (0, 390825), (0, 11)], [(9220971545359089, 0), (0, 5299426680554), (248491957, 0), (10961, 0),
    (1, 0)], [(0, 17848669963669), (2976830624, 0), (585101, 0), (37, 0)], [(111570797694, 0), (0, 17657368), (0,
    1260)]], 3, 4⟩, ⟨[[(0, 18178708138723328), (0, 1006543521524789), (0, 17318458151), (0, 1555071), (0, 73)], [(0,
    40162548445142126), (7107201397, 0), (3651717, 0), (0, 78)], [(42116221346125, 0), (2518608042, 0), (246424, 0),
    (17, 0)], [(0, 41912332896), (0, 2238885), (0, 166)]], 3, 4⟩, 72057594037927936, 49900072088834, 2625741186846,
    ⟨[[(7239848644132, 0), (22207669882, 0), (23690901, 0), (0, 9513), (33, 0)], [(0, 6335700019), (0, 28248252), (0,
    2749), (0, 121)], [(9349367, 0), (19235, 0), (0, 13), (1, 0)], [(0, 12781), (17, 0)]], 3, 4⟩, 17592186044416,
    2957693,
    5262751582768598559640932577835948262281123918721253528454500830421295219665054358271570567884466398595305461044915746367445253,
    lc0⟩) (.sx (.leaf ⟨1374, 16, 4550, 174, 16, 2426, ⟨[[(0, 18675638789521408), (0, 4024906754454607), (26250823898,
    0), (0, 627432), (0, 21)], [(4091735619308927, 0), (0, 2994504234839), (147234596, 0), (6553, 0)], [(0,
    5728791832176), (1216342514, 0), (200089, 0), (13, 0)], [(16608385125, 0), (0, 2497774), (0, 176)]], 3, 4⟩,
    ⟨[[(33486934045265920, 0), (0, 1646704527140494), (0, 31779694925), (0, 2738447), (0, 126)], [(0,
    33003711569241167), (0, 38872924162), (0, 1794532), (0, 360)], [(17990728232344, 0), (1143988447, 0), (111440,
    0), (7, 0)], [(0, 8516578081), (0, 397937), (0, 27)]], 3, 4⟩, 72057594037927936, 4326048189056, 402667185199,
    ⟨[[(7370184470731, 0), (14231931147, 0), (9214882, 0), (0, 1468), (4, 0)], [(0, 5810568958), (0, 15541801), (0,
    508), (0, 34)], [(7578255, 0), (8017, 0), (0, 2)], [(0, 8876), (11, 0)]], 3, 4⟩, 17592186044416, 1164623,
    5386058444056770761453656207734302317726815436482416722729802178635053643603758890175011969251975000443663165017075072470361256,
    lc0⟩) (.leaf ⟨1350, 16, 4463, 160, 16, 2496, ⟨[[(0, 22238735200665600), (0, 4069398380477915), (32146946994, 0),
    (0, 324374), (0, 7)], [(3621991954100938, 0), (0, 2850949917192), (159899870, 0), (7411, 0)], [(0,
    3766383512790), (850547389, 0), (171248, 0), (11, 0)], [(13241517056, 0), (0, 2976033), (0, 223)]], 3, 4⟩,
    ⟨[[(10877387616000000, 0), (0, 1693855887511352), (0, 32574405551), (0, 2819812), (0, 130)], [(0,
    32448037153320363), (56391129717, 0), (7601749, 0), (255, 0)], [(17388651781682, 0), (1114266473, 0), (109902,
    0), (7, 0)], [(0, 9022494929), (0, 582409), (0, 47)]], 3, 4⟩, 72057594037927936, 3388906040608, 327766090089,
    ⟨[[(7097481371262, 0), (13465070491, 0), (8795409, 0), (0, 1825), (7, 0)], [(0, 5595929516), (0, 15379383),
    (1367, 0), (0, 34)], [(7655584, 0), (8409, 0), (0, 11)], [(0, 9548), (12, 0)]], 3, 4⟩, 17592186044416, 1198941,
    6142045047140724621453198286829691755295390038861585776404870706402457911959219314442391572096206119978659620218129321249858280,
    lc0⟩))) (.sy (.leaf ⟨1175, 16, 3794, 93, 16, 1614, ⟨[[(14533675157602304, 0), (0, 3646340460798456),
    (36208327188, 0), (125015, 0), (14, 0)], [(8044321720211441, 0), (0, 5023996207766), (282618138, 0), (13236, 0),
    (1, 0)], [(0, 5677396593427), (361999384, 0), (379939, 0), (24, 0)], [(80750088612, 0), (0, 22766677), (0,
    1760)]], 3, 4⟩, ⟨[[(24523832582277120, 0), (0, 1071005821568081), (0, 17898980865), (0, 1635575), (0, 76)], [(0,
    39387023243458670), (218438530433, 0), (24794922, 0), (1321, 0)], [(39285108029610, 0), (2299172658, 0), (230815,
    0), (16, 0)], [(0, 45925245482), (0, 3762959), (0, 331)]], 3, 4⟩, 72057594037927936, 24382603554368,
    945474914034, ⟨[[(6717318427266, 0), (19626438223, 0), (21465720, 0), (0, 12449), (61, 0)], [(0, 5754387961), (0,
    27008299), (5148, 0), (0, 110)], [(9176885, 0), (20950, 0), (0, 62), (1, 0)], [(0, 13962), (17, 0)]], 3, 4⟩,
    17592186044416, 2676141,
    5334831501047339721714083899367347918604760375453003168856922311321770848584947386095085864110309656401900537498675733035660153,
    lc0⟩) (.sx (.leaf ⟨1324, 16, 4370, 146, 16, 2566, ⟨[[(0, 31988694434201600), (0, 4100600432561430), (38331659393,
    0), (4836, 0), (9, 0)], [(3301059507282842, 0), (0, 2737820788908), (169416143, 0), (8071, 0)], [(0,
    2203281563704), (436959828, 0), (137336, 0), (9, 0)], [(10730543444, 0), (0, 3356098), (0, 261)]], 3, 4⟩, ⟨[[(0,
    26870814158694400), (0, 1736951648777947), (0, 32964319939), (0, 2874944), (0, 132)], [(0, 31905881423015083),
    (150746852918, 0), (17019481, 0), (872, 0)], [(16694935319638, 0), (1060193974, 0), (105821, 0), (7, 0)], [(0,
    9461553312), (0, 751115), (0, 65)]], 3, 4⟩, 72057594037927936, 2394698310592, 225961593587, ⟨[[(6846655103054,
    0), (12755441778, 0), (8437149, 0), (0, 2341), (10, 0)], [(0, 5398707880), (0, 15321701), (3069, 0), (0, 33)],
    [(7756205, 0), (9183, 0), (0, 20)], [(0, 10313), (12, 0)]], 3, 4⟩, 17592186044416, 1320171,
    5919275805668102281486167181313540005972336090309756271025545484076854173316688623191022892924734535830493146094994390274128782,
    lc0⟩) (.leaf ⟨1295, 16, 4271, 131, 16, 2639, ⟨[[(29525890730246144, 0), (0, 4119583612806916), (44634735952, 0),
    (349784, 0), (26, 0)], [(3098080043811307, 0), (0, 2657933908479), (175438494, 0), (8512, 0)], [(0,
    928107576831), (0, 9039451), (99853, 0), (6, 0)], [(9097962285, 0), (0, 3626974), (0, 289)]], 3, 4⟩,
    ⟨[[(3917724084287488, 0), (0, 1777990989416080), (0, 32980218426), (0, 2906613), (0, 133)], [(0,
    31423003593548008), (242298199394, 0), (26265478, 0), (1481, 0)], [(15936895516084, 0), (984635805, 0), (99485,
    0), (7, 0)], [(0, 9823132193), (0, 900725), (0, 81)]], 3, 4⟩, 72057594037927936, 1367331131080, 108215569682,
    ⟨[[(6606850020512, 0), (12079104413, 0), (8126243, 0), (0, 2951), (11, 0)], [(0, 5214833853), (0, 15370767),
    (4706, 0), (0, 31)], [(7898706, 0), (10347, 0), (0, 30)], [(0, 11230), (11, 0)]], 3, 4⟩, 17592186044416, 1556288,
    5501071563280420224756830099472788484928455240483701575125411605523036119849220788265515406412592938347020780019446003321260130,
    lc0⟩)))) (.sx (.sy (.sx (.leaf ⟨1394, 16, 4713, 161, 16, 2405, ⟨[[(235048362803200, 0), (0, 4142298312437421),
    (26178647829, 0), (0, 695359), (0, 23)], [(2720538092768427, 0), (0, 2943358463201), (163245133, 0), (7480, 0)],
    [(0, 5247607575240), (1478277877, 0), (228055, 0), (14, 0)], [(15857188633, 0), (0, 2779022), (0, 200)]], 3, 4⟩,
    ⟨[[(33633026623768576, 0), (0, 1666197874439351), (0, 35787229362), (0, 2975938), (0, 135)], [(0,
    32737863299116105), (0, 40596322024), (0, 2328079), (0, 372)], [(18433092004801, 0), (1250687097, 0), (121963,
    0), (8, 0)], [(0, 8647932214), (0, 422990), (0, 30)]], 3, 4⟩, 72057594037927936, 4869145278510, 512726954662,
    ⟨[[(7371425235814, 0), (14588617115, 0), (9406855, 0), (0, 550), (5, 0)], [(0, 5864772970), (0, 15553285), (1014,
    0), (0, 47)], [(7719073, 0), (6532, 0), (0, 4)], [(0, 8839), (15, 0)]], 3, 4⟩, 17592186044416, 1141882,
    5553595459965801668944047511324514926815702599530193191333919778704642396891124136691446899077381729043588165759414578862439406,
    lc0⟩) (.leaf ⟨1369, 16, 4622, 147, 16, 2476, ⟨[[(0, 33752607916867584), (0, 4181207857324272), (32775951107, 0),
    (0, 349787), (0, 7)], [(2311591614005775, 0), (0, 2780264738108), (177734832, 0), (8456, 0)], [(0,
    3412226502330), (1067705339, 0), (195161, 0), (12, 0)], [(12105831457, 0), (0, 3325937), (0, 255)]], 3, 4⟩,
    ⟨[[(3149924699621376, 0), (0, 1714907071337128), (0, 36725568940), (0, 3065579), (0, 139)], [(0,
    32158021838589635), (63711088375, 0), (7951092, 0), (293, 0)], [(17832606966017, 0), (1220416787, 0), (120383,
    0), (8, 0)], [(0, 9252340616), (0, 626777), (0, 51)]], 3, 4⟩, 72057594037927936, 3844984876153, 430556761650,
    ⟨[[(7097941661199, 0), (13807091412, 0), (8922507, 0), (0, 1088), (9, 0)], [(0, 5660556355), (0, 15462067),
    (3488, 0), (0, 47)], [(7844272, 0), (7043, 0), (0, 16)], [(0, 9617), (16, 0)]], 3, 4⟩, 17592186044416, 1229097,
    6222739577499491309516903385833110621199196250145605458998465501371659584638753318794236937580566173658623440726463330814458544,
    lc0⟩)) (.leaf ⟨1346, 16, 4644, 87, 16, 1486, ⟨[[(0, 29394048277069824), (0, 4112959496045214), (28457351270, 0),
    (0, 556019), (0, 16)], [(2200288886524957, 0), (0, 5331884393317), (365174959, 0), (17500, 0), (1, 0)], [(0,
    14201681352331), (5987500141, 0), (930152, 0), (59, 0)], [(97636897808, 0), (0, 26312990), (0, 2000)]], 3, 4⟩,
    ⟨[[(0, 22576361366012928), (0, 1053330832680044), (0, 25011833086), (0, 2015245), (0, 90)], [(0,
    39505751461471586), (17380734411, 0), (3338730, 0), (0, 29)], [(45788928539660, 0), (3329903316, 0), (326404, 0),
    (21, 0)], [(0, 44973825612), (0, 2773932), (0, 217)]], 3, 4⟩, 72057594037927936, 76966552845855, 5902883738531,
    ⟨[[(7242192918870, 0), (23711994258, 0), (24443334, 0), (1963, 0), (63, 0)], [(0, 6085797961), (0, 26279080),
    (13045, 0), (0, 284)], [(8635344, 0), (8879, 0), (0, 41), (1, 0)], [(0, 10327), (38, 0)]], 3, 4⟩, 17592186044416,
    2777440,
    6348645908242492576910349809256965951144957133706104185114393529741697113514067024533592319933713910937205196691343641707577791,
    lc0⟩)) (.sy (.sx (.leaf ⟨1342, 16, 4527, 132, 16, 2548, ⟨[[(0, 25056296292958208), (0, 4208045344771457),
    (39731461294, 0), (25465, 0), (11, 0)], [(2041204080660517, 0), (0, 2653445423145), (188727991, 0), (9214, 0)],
    [(0, 2018181760264), (602545143, 0), (156545, 0), (10, 0)], [(9300259130, 0), (0, 3762176), (0, 298)]], 3, 4⟩,
    ⟨[[(33873706695792640, 0), (0, 1759857109439832), (0, 37235586065), (0, 3128017), (0, 141)], [(0,
    31602552232166016), (167335783999, 0), (18276372, 0), (963, 0)], [(17133690971533, 0), (1163693247, 0), (116069,
    0), (8, 0)], [(0, 9786377921), (0, 813766), (0, 71)]], 3, 4⟩, 72057594037927936, 2754456353002, 319668523270,
    ⟨[[(6836243932466, 0), (13073120039, 0), (8510696, 0), (0, 1823), (12, 0)], [(0, 5463852029), (0, 15501380),
    (5883, 0), (0, 45)], [(7996209, 0), (8025, 0), (0, 28)], [(0, 10518), (16, 0)]], 3, 4⟩, 17592186044416, 1347974,
    6194631058657485194952815187143822370729234119497982735936981488356095960536055692658559323252502769425206192894249026212936245,
    lc0⟩) (.leaf ⟨1313, 16, 4427, 118, 16, 2623, ⟨[[(10060461434404864, 0), (0, 4223314953100814), (46852959953, 0),
    (419074, 0), (29, 0)], [(1875190592934097, 0), (0, 2565549565187), (195803194, 0), (9725, 0)], [(0,
    939782558630), (99642441, 0), (113834, 0), (7, 0)], [(7465151465, 0), (0, 4074817), (0, 330)]], 3, 4⟩, ⟨[[(0,
    12363139365860352), (0, 1802374969649876), (0, 37336347093), (0, 3164970), (0, 143)], [(0, 31104822943491474),
    (268190284347, 0), (28436164, 0), (1624, 0)], [(16357335230037, 0), (1083087901, 0), (109280, 0), (7, 0)], [(0,
    10233945884), (0, 980051), (0, 88)]], 3, 4⟩, 72057594037927936, 1628150826544, 184230259298, ⟨[[(6608273279944,
    0), (12400100684, 0), (8148382, 0), (0, 2579), (14, 0)], [(0, 5299251339), (0, 15629698), (7885, 0), (0, 42)],
    [(8183310, 0), (9388, 0), (0, 40)], [(0, 11514), (16, 0)]], 3, 4⟩, 17592186044416, 1633696,
    5744117999299237104133320120881375209803994196162030259170693771171045478841493634589426312829896409199277019147075291106522507,
    lc0⟩)) (.leaf ⟨1309, 16, 4513, 70, 16, 1598, ⟨[[(0, 26856838834601984), (0, 4206373308006702), (43992212390, 0),
    (265035, 0), (22, 0)], [(1389267083646364, 0), (0, 4845039578348), (418865893, 0), (21078, 0), (1, 0)], [(0,
    4975121782589), (2005948392, 0), (601662, 0), (38, 0)], [(50020144515, 0), (0, 34405862), (0, 2800)]], 3, 4⟩,
    ⟨[[(0, 27903731350421504), (0, 1125878303459285), (0, 26148405426), (0, 2129811), (0, 94)], [(0,
    38610354307703832), (300090471030, 0), (31455111, 0), (1772, 0)], [(42898578571955, 0), (3079545417, 0), (308230,
    0), (20, 0)], [(0, 51898856685), (0, 4865539), (0, 434)]], 3, 4⟩, 72057594037927936, 40968468070173,
    3487792134422, ⟨[[(6729008066200, 0), (21028327111, 0), (21277358, 0), (0, 5940), (106, 0)], [(0, 5643262976),
    (0, 26073205), (28672, 0), (0, 246)], [(8866520, 0), (12589, 0), (0, 122), (1, 0)], [(0, 12129), (37, 0)]], 3,
    4⟩, 17592186044416, 2434112,
    5968481906696077721677004707617050343264517514677488791676693500885286798477861494300834162517760046744427630615780391788340908,
    lc0⟩)))
theorem c115 : checkR job con0 true ⟨7, 9, 7, 9, 13, 17⟩ 1 28336 t115 285 21 320 31749 251 32000 = true := by decide +kernel

def t116 : CTree :=
  .sy (.sx (.sx (.leaf ⟨648, 16, 2111, 87, 16, 1924, ⟨[[(33688514794897408, 0), (0, 4208711208008008), (102083136486,
    0), (2664188, 0), (333, 0)], [(1853752842412749, 0), (0, 2736445153275), (347345303, 0), (33629, 0), (3, 0)],
    [(148148548973, 0), (0, 507402016), (116937, 0), (14, 0)], [(4697492624, 0), (0, 3682631), (0, 587)]], 3, 4⟩,
    ⟨[[(0, 4578690063765504), (0, 2552826925129717), (0, 86388064681), (0, 15778272), (0, 1458)], [(0,
    22028320686006781), (442211784411, 0), (95342104, 0), (11185, 0), (1, 0)], [(10562315665004, 0), (1197540711, 0),
    (245398, 0), (33, 0)], [(0, 6971048738), (0, 1391100), (0, 256)]], 3, 4⟩, 72057594037927936, 223273523013,
    232509719133, ⟨[[(6388201546227, 0), (15969170977, 0), (15658086, 0), (0, 10225), (45, 0)], [(0, 9699174048), (0,
    41984407), (17684, 0), (0, 130)], [(29662179, 0), (64807, 0), (0, 262), (2, 0)], [(0, 87435), (80, 0), (1, 0)]],
    3, 4⟩, 17592186044416, 27412347,
    5435824736749117603330911069942821704477931401328633916317605600059399873258123500588137936114705021876886245200663141331067105,
    lc0⟩) (.leaf ⟨632, 16, 2053, 76, 16, 1965, ⟨[[(0, 20908638861787136), (0, 4205988147912819), (113623884443, 0),
    (3983304, 0), (462, 0)], [(1839223508874165, 0), (0, 2721947727861), (344286953, 0), (33459, 0), (3, 0)],
    [(726288136196, 0), (0, 954326515), (40199, 0), (4, 0)], [(4741562402, 0), (0, 3717809), (0, 593)]], 3, 4⟩,
    ⟨[[(0, 4853515590452224), (0, 2586208199675869), (0, 83717033544), (0, 15577248), (0, 1438)], [(0,
    21629117093852885), (546665678417, 0), (116997094, 0), (14099, 0), (1, 0)], [(9896379969746, 0), (1037555299, 0),
    (216116, 0), (30, 0)], [(0, 7010144115), (0, 1516693), (0, 285)]], 3, 4⟩, 72057594037927936, 597725084475,
    335757493805, ⟨[[(6172813175177, 0), (15168012513, 0), (15463379, 0), (0, 12081), (47, 0)], [(0, 9317780728), (0,
    42508429), (20921, 0), (0, 110)], [(29937347, 0), (75038, 0), (0, 324), (2, 0)], [(0, 94235), (49, 0), (1, 0)]],
    3, 4⟩, 17592186044416, 32349086,
    3437592388077401396504864177715677237229278002210394200251985709558299192921993573909944366601597220001661632763335939864704262,
    lc0⟩)) (.leaf ⟨576, 16, 1867, 42, 16, 1436, ⟨[[(0, 593474068774912), (0, 3985170785715739), (123064227336, 0),
    (5535996, 0), (613, 0)], [(3620097076921129, 0), (0, 5250454200841), (622494745, 0), (60065, 0), (6, 0)],
    [(6203939854724, 0), (0, 6047558063), (0, 263148), (0, 40)], [(42015187141, 0), (0, 27205832), (0, 4292), (0,
    1)]], 3, 4⟩, ⟨[[(3746692178144256, 0), (0, 1862075659714925), (0, 55219197966), (0, 10655248), (0, 983)], [(0,
    29910563298126598), (963159526378, 0), (205715756, 0), (25426, 0), (2, 0)], [(25134212417272, 0), (2172620375,
    0), (468682, 0), (66, 0)], [(0, 39149366427), (0, 9251080), (0, 1769)]], 3, 4⟩, 72057594037927936,
    18869547715191, 4054370853598, ⟨[[(5885432183456, 0), (19870926911, 0), (30467400, 0), (0, 40673), (179, 0)],
    [(0, 9285444402), (0, 64921975), (52345, 0), (0, 245), (0, 1)], [(33899884, 0), (146715, 0), (0, 921), (5, 0)],
    [(0, 123925), (0, 28), (5, 0)]], 3, 4⟩, 17592186044416, 52668163,
    3567146731170900649646212913783656072649310347336274065388758444278205252013948328525635766938694610516979868618125467222121459,
    lc0⟩)) (.sx (.sy (.leaf ⟨1212, 16, 4081, 60, 16, 1718, ⟨[[(0, 338276829462528), (0, 4042832863014999),
    (54900576506, 0), (972459, 0), (55, 0)], [(3393795817335201, 0), (0, 4799668615898), (379897983, 0), (19120, 0),
    (1, 0)], [(1369109433276, 0), (0, 2621650708), (176043, 0), (11, 0)], [(49899865576, 0), (0, 32887113), (0,
    2694)]], 3, 4⟩, ⟨[[(0, 5081754830330880), (0, 1166796537879396), (0, 23012202810), (0, 1988164), (0, 89)], [(0,
    38205964022139813), (513910685292, 0), (53808897, 0), (3226, 0)], [(37773912206012, 0), (2311620828, 0), (237977,
    0), (16, 0)], [(0, 53651673723), (0, 5930963), (0, 553)]], 3, 4⟩, 72057594037927936, 8699784395849,
    1739807125539, ⟨[[(6278170781033, 0), (18222346285, 0), (19662482, 0), (0, 15319), (94, 0)], [(0, 5264250456),
    (0, 26647487), (27535, 0), (0, 147)], [(9227230, 0), (21607, 0), (0, 158), (1, 0)], [(0, 15043), (21, 0)]], 3,
    4⟩, 17592186044416, 2959335,
    4853411922850813932647059514955449936766380228156957238169882841338356474367883433347096659245029507295865837682477865473972249,
    lc0⟩) (.leaf ⟨1257, 16, 4334, 52, 16, 1715, ⟨[[(30781103239020544, 0), (0, 4234118142671587), (59951121162, 0),
    (1156297, 0), (64, 0)], [(1149690606080886, 0), (0, 4676298725952), (435560573, 0), (22366, 0), (1, 0)],
    [(104950825744, 0), (0, 2587368260), (205476, 0), (13, 0)], [(34715458935, 0), (0, 37943480), (0, 3154)]], 3, 4⟩,
    ⟨[[(0, 26916726542296064), (0, 1189369356666730), (0, 26099064659), (0, 2170300), (0, 96)], [(0,
    37867761997486312), (569455442826, 0), (58799185, 0), (3537, 0)], [(38928273253111, 0), (2558428119, 0), (262484,
    0), (17, 0)], [(0, 56673562518), (0, 6501088), (0, 606)]], 3, 4⟩, 72057594037927936, 7975493285065,
    1321457687632, ⟨[[(6286289691403, 0), (18729429553, 0), (19095490, 0), (0, 13643), (108, 0)], [(0, 5276422662),
    (0, 26826538), (39895, 0), (0, 192)], [(9247884, 0), (19852, 0), (0, 194), (1, 0)], [(0, 14465), (26, 0)]], 3,
    4⟩, 17592186044416, 2924883,
    3877865588176961798280557514904821827164010727463979435225502085382053747721047799294876908622670534360164447714962186673388669,
    lc0⟩)) (.sx (.leaf ⟨620, 16, 2109, 46, 16, 1974, ⟨[[(0, 28593809478983680), (0, 4303524396433502), (140936050039,
    0), (6892990, 0), (734, 0)], [(617234292292991, 0), (0, 2515796472002), (411085995, 0), (41850, 0), (4, 0)],
    [(647962342067, 0), (0, 1505890285), (0, 45295), (0, 6)], [(3370377950, 0), (0, 4540066), (0, 748)]], 3, 4⟩,
    ⟨[[(0, 27256041337288192), (0, 2664451593832596), (0, 103597040539), (0, 17995234), (0, 1598)], [(0,
    20578504727987346), (776573360976, 0), (161488388, 0), (19827, 0), (2, 0)], [(9539177354498, 0), (1047445384, 0),
    (221426, 0), (30, 0)], [(0, 7724593263), (0, 1909485), (0, 362)]], 3, 4⟩, 72057594037927936, 1106027573033,
    394132333538, ⟨[[(5981609637644, 0), (15459226692, 0), (15408349, 0), (0, 14217), (61, 0)], [(0, 9561777981), (0,
    48208291), (60453, 0), (0, 191)], [(34849868, 0), (93878, 0), (0, 666), (3, 0)], [(0, 118122), (60, 0), (3, 0)]],
    3, 4⟩, 17592186044416, 39652398,
    5415011302677197691568197677545060707582421311356549934687240225614879800772504912719593193214999973383673622449468447415882533,
    lc0⟩) (.out ⟨458, 16, 2012, 1460, 16, 1415, ⟨[[(34171887179579392, 0), (0, 4209248833735165), (150796575169, 0)],
    [(659369377506233, 0), (0, 2543602607939), (384796715, 0)], [(1082195868351, 0), (0, 1978835207), (0, 132151)]],
    2, 2⟩, ⟨[[(21105595226341376, 0), (0, 2639456634501929), (0, 96792994066)], [(0, 19887952215601560),
    (857426563368, 0), (178785158, 0)], [(8611672193421, 0), (807925270, 0), (175831, 0)]], 2, 2⟩, 72057594037927936,
    199314533458524, 362727259125613, ⟨[], 0, 0⟩, 0, 0, 0, lc0⟩ 2 1 25966036725773)))
theorem c116 : checkR job con0 true ⟨7, 9, 7, 9, 13, 17⟩ 1 28336 t116 327 21 320 31749 251 32000 = true := by decide +kernel

def t117 : CTree :=
  .sx (.sy (.sx (.sy (.leaf ⟨409, 16, 712, 200, 16, 1459, ⟨[[(2034995261919232, 0), (0, 2231026446150629),
    (43132747870, 0), (0, 446343), (26, 0)], [(24745627513044611, 0), (0, 4104744149802), (111786014, 0), (0, 907)],
    [(24623669406026, 0), (0, 2861209474), (65505, 0), (0, 3)], [(59829040899, 0), (0, 3643950), (0, 50)]], 3, 4⟩,
    ⟨[[(0, 13186118185875456), (0, 1858436420629324), (18621687363, 0), (0, 516237), (0, 15)], [(0,
    30468569376380477), (0, 91778549608), (25786867, 0), (1089, 0)], [(18343882111936, 0), (164296032, 0), (3132, 0),
    (0, 1)], [(0, 12745182099), (0, 1100178), (0, 48)]], 3, 4⟩, 72057594037927936, 9503533680369, 3334058223202,
    ⟨[[(5544062303316, 0), (10910433019, 0), (11685052, 0), (0, 5536), (0, 21)], [(0, 9083350203), (0, 39700103), (0,
    39991), (60, 0)], [(27679416, 0), (128418, 0), (80, 0)], [(0, 85906), (0, 369)]], 3, 4⟩, 17592186044416,
    47606267,
    2720748690965289097579143608115054510251182998639572057482429066095189932258634762580472104364127119384938379327274261935927099,
    lc0⟩) (.leaf ⟨414, 16, 749, 188, 16, 1464, ⟨[[(6580915759034368, 0), (0, 2301749309614654), (44711467163, 0), (0,
    408437), (34, 0)], [(23893421651941589, 0), (0, 4200673418269), (116268213, 0), (0, 792)], [(24409287523424, 0),
    (0, 2943076775), (63825, 0), (0, 4)], [(61000378529, 0), (0, 3887461), (0, 56)]], 3, 4⟩, ⟨[[(0,
    30641992569253888), (0, 1846446639661176), (17873195076, 0), (0, 567229), (0, 35)], [(0, 30612542630563066), (0,
    65171422680), (27875978, 0), (1580, 0)], [(18490212577122, 0), (167540647, 0), (2348, 0)], [(0, 13357175411), (0,
    1164501), (0, 73)]], 3, 4⟩, 72057594037927936, 9947571471574, 3419777409536, ⟨[[(5547243437300, 0), (11203025183,
    0), (12463233, 0), (0, 5393), (0, 20)], [(0, 8988577545), (0, 40585734), (0, 42469), (61, 0)], [(27310928, 0),
    (130370, 0), (81, 0)], [(0, 84761), (0, 370)]], 3, 4⟩, 17592186044416, 46368291,
    1859328127066264132846923408036469417756587773670058109379812519671819453541169843647612020612965177801924966714703022877697752,
    lc0⟩)) (.sy (.leaf ⟨389, 16, 653, 188, 16, 1501, ⟨[[(0, 1910576468389888), (0, 2209142987141195), (43966843141,
    0), (0, 448251), (25, 0)], [(24896049611732002, 0), (0, 4002800206473), (107302965, 0), (0, 1015)],
    [(29991518566516, 0), (0, 3047485827), (53405, 0), (0, 2)], [(62993494375, 0), (0, 3353796), (0, 62)]], 3, 4⟩,
    ⟨[[(0, 18158764439801856), (0, 1915684340828384), (20274227065, 0), (0, 486630), (0, 6)], [(0,
    29824776423854543), (0, 86026006526), (26560824, 0), (972, 0)], [(17399156670149, 0), (33078513, 0), (0, 2171),
    (0, 3)], [(0, 10277832399), (0, 1025561), (0, 35)]], 3, 4⟩, 72057594037927936, 10648692099885, 3343019097566,
    ⟨[[(5237443011218, 0), (9672029433, 0), (10680695, 0), (0, 3065), (0, 16)], [(0, 8384522770), (0, 36782626), (0,
    41512), (51, 0)], [(26375560, 0), (127192, 0), (98, 0)], [(0, 85926), (0, 394)]], 3, 4⟩, 17592186044416,
    53632788,
    3285417675871615883325400872916276105438847274139530186338027889034241447484048776183939754007078730353164561952493398346483343,
    lc0⟩) (.leaf ⟨393, 16, 687, 175, 16, 1507, ⟨[[(14096131743916032, 0), (0, 2278068646494077), (45588804221, 0),
    (0, 412014), (34, 0)], [(24106604811219724, 0), (0, 4098683055749), (111281568, 0), (0, 1055)], [(29957452536613,
    0), (0, 3151732045), (51774, 0), (0, 4)], [(64486566419, 0), (0, 3589097), (0, 57)]], 3, 4⟩,
    ⟨[[(12218135948933120, 0), (0, 1903279677206101), (19602272544, 0), (0, 517353), (0, 24)], [(0,
    29980494248359351), (0, 58730905521), (28524491, 0), (1509, 0)], [(17484496118659, 0), (29038069, 0), (0, 6100),
    (0, 3)], [(0, 10846499888), (0, 1076068), (0, 58)]], 3, 4⟩, 72057594037927936, 11241980851154, 3439490449732,
    ⟨[[(5235053527584, 0), (9919708452, 0), (11396807, 0), (0, 3010), (0, 14)], [(0, 8281001018), (0, 37639625), (0,
    44282), (53, 0)], [(26013635, 0), (129763, 0), (101, 0)], [(0, 84932), (0, 400)]], 3, 4⟩, 17592186044416,
    52620105,
    2291666348060117492117663060550599069507515720254187093006342599914658287821194296648226157002692381235392570139530250984282975,
    lc0⟩))) (.sy (.sx (.leaf ⟨419, 16, 789, 175, 16, 1470, ⟨[[(34431472373678080, 0), (0, 2377691863082411),
    (46508824632, 0), (0, 351229), (43, 0)], [(22978851547236047, 0), (0, 4302608991650), (121416296, 0), (0, 555)],
    [(24172871272690, 0), (0, 3036439284), (59467, 0), (0, 6)], [(62186569234, 0), (0, 4159901), (0, 71)]], 3, 4⟩,
    ⟨[[(35233922474973184, 0), (0, 1836446787858183), (17024837775, 0), (0, 662341), (0, 59)], [(0,
    30763581858642249), (0, 35993818115), (30813793, 0), (2182, 0)], [(18651031793665, 0), (170614792, 0), (2594, 0),
    (1, 0)], [(0, 14020021260), (0, 1258783), (0, 106)]], 3, 4⟩, 72057594037927936, 10431277866666, 3516619452521,
    ⟨[[(5540141096958, 0), (11486404503, 0), (13307968, 0), (0, 5326), (0, 17)], [(0, 8863922711), (0, 41461348), (0,
    45081), (62, 0)], [(26897293, 0), (132469, 0), (81, 0)], [(0, 83759), (0, 372)]], 3, 4⟩, 17592186044416,
    45365060,
    3310995156247757700967109652222814325180961516915464879799287292449820946298257653836142454572060624831269991784270041642767099,
    lc0⟩) (.leaf ⟨397, 16, 722, 163, 16, 1513, ⟨[[(0, 20521457870393344), (0, 2346332798727955), (47317182475, 0),
    (0, 352962), (45, 0)], [(23201715006091578, 0), (0, 4190894429035), (115347429, 0), (0, 1005)], [(29834027622308,
    0), (0, 3261260161), (46736, 0), (0, 6)], [(65863664194, 0), (0, 3830217), (0, 57)]], 3, 4⟩, ⟨[[(0,
    27194450606538752), (0, 1891505637840583), (18851863685, 0), (0, 588131), (0, 46)], [(0, 30122031419873091), (0,
    28909782923), (31396667, 0), (2170, 0)], [(17566885675589, 0), (21133521, 0), (0, 9797), (0, 2)], [(0,
    11448994451), (0, 1152801), (0, 87)]], 3, 4⟩, 72057594037927936, 11856875613745, 3548960843534,
    ⟨[[(5236497646962, 0), (10176967999, 0), (12132993, 0), (0, 3191), (0, 11)], [(0, 8197816761), (0, 38538683), (0,
    46901), (56, 0)], [(25748915, 0), (132514, 0), (102, 0)], [(0, 84417), (0, 406)]], 3, 4⟩, 17592186044416,
    51920942,
    1907514805424624510750996796436110499051958864126971340450951892524015844848312199253505264741220455073539090433954872506885016,
    lc0⟩)) (.sx (.leaf ⟨425, 16, 832, 163, 16, 1475, ⟨[[(3077960256118784, 0), (0, 2458290539243898), (48559647179,
    0), (0, 268976), (55, 0)], [(21985764127705003, 0), (0, 4408895881962), (127458255, 0), (0, 154)],
    [(23897858284257, 0), (0, 3144197578), (51819, 0), (0, 8)], [(63353102475, 0), (0, 4471986), (0, 97)]], 3, 4⟩,
    ⟨[[(22121101071015936, 0), (0, 1826077741252347), (15979177457, 0), (0, 810631), (0, 88)], [(0,
    30878260116120704), (0, 3245353532), (34742512, 0), (2912, 0)], [(18801167177801, 0), (174470935, 0), (4172, 0),
    (2, 0)], [(0, 14731650047), (0, 1388759), (0, 146)]], 3, 4⟩, 72057594037927936, 10963964431378, 3620318328958,
    ⟨[[(5538158670037, 0), (11788021657, 0), (14176435, 0), (0, 5546), (0, 13)], [(0, 8745023469), (0, 42305401), (0,
    47311), (65, 0)], [(26481347, 0), (134172, 0), (78, 0)], [(0, 82729), (0, 372)]], 3, 4⟩, 17592186044416,
    44576584,
    4357649376675848763039459452030641614886571247471118258681501971784383636131952178795850598067493985384577816379186248061277488,
    lc0⟩) (.leaf ⟨401, 16, 761, 150, 16, 1519, ⟨[[(6427082218381312, 0), (0, 2423257212794635), (49389624672, 0), (0,
    266159), (59, 0)], [(22268032566346188, 0), (0, 4295960405553), (120134585, 0), (0, 838)], [(29731493162069, 0),
    (0, 3393467577), (37694, 0), (0, 9)], [(67379286742, 0), (0, 4099579), (0, 65)]], 3, 4⟩, ⟨[[(7414631285653504,
    0), (0, 1880477048166330), (17955420725, 0), (0, 708221), (0, 72)], [(0, 30247811623739337), (4461871361, 0),
    (35385358, 0), (2979, 0)], [(17644436708147, 0), (9657524, 0), (0, 13110), (0, 2)], [(0, 12100319963), (0,
    1262717), (0, 124)]], 3, 4⟩, 72057594037927936, 12552866773043, 3676641608796, ⟨[[(5234514769498, 0),
    (10457639191, 0), (12994332, 0), (0, 3674), (0, 6)], [(0, 8108070636), (0, 39574049), (0, 49817), (61, 0)],
    [(25523924, 0), (136022, 0), (101, 0)], [(0, 84381), (0, 416)]], 3, 4⟩, 17592186044416, 51932357,
    3137316692077101173840242215895642280825716917823297041429741471362984061836516000185792078710845844126780720811905028233133601,
    lc0⟩)))) (.sy (.sx (.sy (.leaf ⟨368, 16, 595, 175, 16, 1541, ⟨[[(27159131752087552, 0), (0, 2171233392591689),
    (44249372754, 0), (0, 449771), (21, 0)], [(25298983729755020, 0), (0, 3896521431411), (101522351, 0), (0, 1026)],
    [(35100644207215, 0), (0, 3154932578), (40076, 0)], [(66200560172, 0), (0, 2919073), (0, 83)]], 3, 4⟩,
    ⟨[[(23873275451521024, 0), (0, 1970460662961024), (21953535105, 0), (0, 463440), (4, 0)], [(0,
    29169893847723953), (0, 90843824312), (26923696, 0), (703, 0)], [(16713097450251, 0), (0, 91789683), (0, 5565),
    (0, 4)], [(0, 7707140988), (0, 943622), (0, 16)]], 3, 4⟩, 72057594037927936, 11269663021333, 3362935180165,
    ⟨[[(4960878148524, 0), (8567876646, 0), (9659964, 0), (0, 1261), (0, 11)], [(0, 7772874376), (0, 34047593), (0,
    42618), (42, 0)], [(25250102, 0), (126177, 0), (118, 0)], [(0, 86529), (0, 424)]], 3, 4⟩, 17592186044416,
    61792538,
    3560826634577918777712117564743796264405469385419979198636903187208541369044142739553213736156122524426152695406090650514029282,
    lc0⟩) (.leaf ⟨371, 16, 625, 162, 16, 1548, ⟨[[(16096998390894592, 0), (0, 2234386234455776), (45805612642, 0),
    (0, 420942), (30, 0)], [(24546616951751403, 0), (0, 3986771933483), (104901586, 0), (0, 1223)], [(35217274897581,
    0), (0, 3272631296), (39807, 0), (0, 3)], [(67979083749, 0), (0, 3142755), (0, 66)]], 3, 4⟩,
    ⟨[[(29845923677423616, 0), (0, 1957621651245933), (21351171003, 0), (0, 472133), (0, 11)], [(0,
    29341288005701144), (0, 63439856229), (28501081, 0), (1246, 0)], [(16740771894667, 0), (0, 101115708), (0,
    12233), (0, 5)], [(0, 8223508081), (0, 972845), (0, 34)]], 3, 4⟩, 72057594037927936, 11959720181368,
    3464925912878, ⟨[[(4958779612350, 0), (8776934297, 0), (10291751, 0), (0, 1364), (0, 8)], [(0, 7680334628), (0,
    34859159), (0, 45532), (46, 0)], [(24945333, 0), (129212, 0), (123, 0)], [(0, 85780), (0, 433)]], 3, 4⟩,
    17592186044416, 61058059,
    2854636623840638579014543442167097457535996785233009242380136214772459933407016678917896290369815885217905844265695675464287922,
    lc0⟩)) (.sy (.leaf ⟨347, 16, 538, 163, 16, 1581, ⟨[[(18813021642633216, 0), (0, 2116432413366742), (43923567700,
    0), (0, 445324), (14, 0)], [(25873675223797836, 0), (0, 3776410411796), (94382852, 0), (0, 883)],
    [(39839972842967, 0), (0, 3169176311), (24494, 0), (2, 0)], [(68909734183, 0), (0, 2354822), (0, 115)]], 3, 4⟩,
    ⟨[[(0, 10715804955205632), (0, 2025758561700277), (23672647446, 0), (0, 453575), (14, 0)], [(0,
    28523484341442590), (0, 106045038467), (27094728, 0), (307, 0)], [(16331854867827, 0), (0, 209398107), (0, 6380),
    (0, 5)], [(0, 5037078255), (0, 862557), (6, 0)]], 3, 4⟩, 72057594037927936, 11395998968149, 3397283160812,
    ⟨[[(4716672068692, 0), (7573239266, 0), (8581477, 0), (0, 47), (0, 7)], [(0, 7252428444), (0, 31346632), (0,
    42795), (35, 0)], [(24277663, 0), (124349, 0), (137, 0)], [(0, 87422), (0, 452)]], 3, 4⟩, 17592186044416,
    72213835,
    3326623212678651320882365240585924081901414499148700566826867112167758739090092621401123956517383614831041178075795483075711138,
    lc0⟩) (.leaf ⟨349, 16, 564, 149, 16, 1588, ⟨[[(0, 18270339709919232), (0, 2172827624182459), (45369344438, 0),
    (0, 429279), (23, 0)], [(25161508744238126, 0), (0, 3860350743011), (97321612, 0), (0, 1222)], [(40104141511180,
    0), (0, 3295742643), (26770, 0)], [(70973045132, 0), (0, 2573451), (0, 89)]], 3, 4⟩, ⟨[[(34548480178327552, 0),
    (0, 2011193932188773), (23106661693, 0), (0, 439848), (1, 0)], [(0, 28696332326180285), (0, 78836494332),
    (28049360, 0), (820, 0)], [(16296256742194, 0), (0, 221046874), (0, 15117), (0, 6)], [(0, 5493656751), (0,
    865740), (0, 5)]], 3, 4⟩, 72057594037927936, 12156937208654, 3491903638798, ⟨[[(4708052424498, 0), (7736276719,
    0), (9149204, 0), (0, 253), (0, 4)], [(0, 7142337996), (0, 32040322), (0, 46020), (39, 0)], [(23915505, 0),
    (127575, 0), (146, 0)], [(0, 86494), (0, 465)]], 3, 4⟩, 17592186044416, 71513331,
    2789360368898382347188880143942582384642292695307563806054614884068040241089397248887809351571157944216617850441638715525794567,
    lc0⟩))) (.sy (.sx (.leaf ⟨373, 16, 656, 150, 16, 1555, ⟨[[(33520889253724160, 0), (0, 2297258807387622),
    (47464625594, 0), (0, 368765), (42, 0)], [(23691083313134427, 0), (0, 4074966885161), (108098953, 0), (0, 1368)],
    [(35249822707671, 0), (0, 3395609365), (36007, 0), (0, 5)], [(69678942471, 0), (0, 3359437), (0, 52)]], 3, 4⟩,
    ⟨[[(0, 34367582008858624), (0, 1945307166917094), (20706600373, 0), (0, 516541), (0, 31)], [(0,
    29498565994897634), (0, 33875970493), (31001696, 0), (1921, 0)], [(16761797578557, 0), (0, 117449764), (0,
    19412), (0, 5)], [(0, 8761754343), (0, 1022888), (0, 58)]], 3, 4⟩, 72057594037927936, 12670714393677,
    3582130138081, ⟨[[(4968434417024, 0), (9033416825, 0), (11008285, 0), (0, 1760), (0, 5)], [(0, 7658479254), (0,
    35999037), (0, 48673), (51, 0)], [(24998188, 0), (133902, 0), (127, 0)], [(0, 86733), (0, 450)]], 3, 4⟩,
    17592186044416, 61950300,
    1749254437996772203880629129741472216039674772687268901879146622835773399910886386000741226894430317270502815258229282504528263,
    lc0⟩) (.leaf ⟨350, 16, 592, 136, 16, 1595, ⟨[[(24287157170835456, 0), (0, 2233213429666816), (46984799158, 0),
    (0, 391769), (35, 0)], [(24402129825182223, 0), (0, 3950477525781), (100014845, 0), (0, 1549)], [(40365492647452,
    0), (0, 3431993762), (25822, 0), (0, 3)], [(73119737491, 0), (0, 2778804), (0, 62)]], 3, 4⟩,
    ⟨[[(10499768637124608, 0), (0, 1997093734110767), (22536001456, 0), (0, 457098), (0, 17)], [(0,
    28855354937390275), (0, 50122346998), (29879991, 0), (1466, 0)], [(16252010224907, 0), (0, 242094247), (0,
    24985), (0, 7)], [(0, 5956991414), (0, 882533), (0, 21)]], 3, 4⟩, 72057594037927936, 12960528445858,
    3611355627669, ⟨[[(4714698290819, 0), (7962509162, 0), (9848817, 0), (0, 778), (0, 1)], [(0, 7115859903), (0,
    33164760), (0, 49796), (45, 0)], [(23980831, 0), (133086, 0), (155, 0)], [(0, 87655), (0, 490)]], 3, 4⟩,
    17592186044416, 73370317,
    1730866411017662184569171275882852169360125956317171381541216158144986864656165476412059820160444166649554376995598191448985762,
    lc0⟩)) (.sx (.leaf ⟨377, 16, 691, 137, 16, 1562, ⟨[[(0, 21108384122695680), (0, 2369898902225908), (49484447395,
    0), (0, 288073), (56, 0)], [(22828825333518802, 0), (0, 4179156019806), (111680323, 0), (0, 1447)],
    [(35343793371477, 0), (0, 3543360585), (27961, 0), (0, 8)], [(71607511911, 0), (0, 3586801), (0, 42)]], 3, 4⟩,
    ⟨[[(0, 24883814072109056), (0, 1933592173667343), (19959439583, 0), (0, 605187), (0, 55)], [(0,
    29640322879851264), (0, 1106273286), (34647536, 0), (2754, 0)], [(16772484458087, 0), (0, 141333074), (0, 27096),
    (0, 5)], [(0, 9333896748), (0, 1099754), (0, 87)]], 3, 4⟩, 72057594037927936, 13478779547222, 3728861415915,
    ⟨[[(4961426551554, 0), (9245420915, 0), (11767780, 0), (0, 2387), (0, 1)], [(0, 7535220962), (0, 36768247), (0,
    51783), (57, 0)], [(24582584, 0), (136876, 0), (129, 0)], [(0, 85807), (0, 461)]], 3, 4⟩, 17592186044416,
    61144763,
    2236527355230939109257841628626453537998535228737683914034730464255224565274795496078356721035673550428618255141887624551852430,
    lc0⟩) (.leaf ⟨352, 16, 622, 123, 16, 1603, ⟨[[(0, 6042231818014720), (0, 2297111006889172), (48807127523, 0), (0,
    326000), (49, 0)], [(23581355486975750, 0), (0, 4046457336693), (102456888, 0), (0, 1851)], [(40607265104892, 0),
    (0, 3581503978), (20806, 0), (0, 6)], [(75345680728, 0), (0, 2969541), (0, 35)]], 3, 4⟩, ⟨[[(0,
    5467328496741376), (0, 1984729114104067), (21921910825, 0), (0, 513302), (0, 38)], [(0, 29017593827597208), (0,
    18918738346), (32829771, 0), (2272, 0)], [(16204156880593, 0), (0, 273944169), (0, 36119), (0, 8)], [(0,
    6439084268), (0, 918124), (0, 42)]], 3, 4⟩, 72057594037927936, 13815339701902, 3761194698270, ⟨[[(4713348560812,
    0), (8159607247, 0), (10586763, 0), (0, 1562), (3, 0)], [(0, 7040754153), (0, 34080487), (0, 53606), (53, 0)],
    [(23812121, 0), (137744, 0), (162, 0)], [(0, 87895), (0, 512)]], 3, 4⟩, 17592186044416, 74264388,
    1830062806150358986286232811977358122959826181626860340262603928190814974037143368334587254907990771728616434637627171188912565,
    lc0⟩))))
theorem c117 : checkR job con0 true ⟨7, 9, 7, 9, 13, 17⟩ 1 28336 t117 195 21 160 14243 251 16000 = true := by decide +kernel

def t118 : CTree :=
  .sx (.sy (.sx (.leaf ⟨431, 16, 878, 151, 16, 1480, ⟨[[(0, 25326657626112000), (0, 2542939736730114), (50911333934,
    0), (0, 154485), (71, 0)], [(20899582670622080, 0), (0, 4517591147473), (134706419, 0), (460, 0)],
    [(23566106028393, 0), (0, 3270165732), (40147, 0), (0, 11)], [(64458374727, 0), (0, 4838016), (0, 137)]], 3, 4⟩,
    ⟨[[(10835210807767040, 0), (0, 1816833904680555), (14658837303, 0), (0, 1023533), (0, 122)], [(0,
    30975386192263333), (34162503482, 0), (39898874, 0), (3797, 0)], [(18954070573609, 0), (180742422, 0), (7440, 0),
    (3, 0)], [(0, 15521868592), (0, 1564059), (0, 195)]], 3, 4⟩, 72057594037927936, 11552694583434, 3735285705825,
    ⟨[[(5536465526408, 0), (12109198206, 0), (15119125, 0), (0, 6100), (0, 7)], [(0, 8637832888), (0, 43253307), (0,
    49411), (68, 0)], [(26168494, 0), (136364, 0), (71, 0)], [(0, 82320), (0, 374)]], 3, 4⟩, 17592186044416,
    44369033,
    4848031847985132946480065316594350891942454453849052921094881818136362526471681161264335990284420147130250415345282280959624072,
    lc0⟩) (.leaf ⟨406, 16, 803, 138, 16, 1525, ⟨[[(0, 29281459371376640), (0, 2504853429395386), (51793047942, 0),
    (0, 142529), (76, 0)], [(21253266493042307, 0), (0, 4406369279479), (125693578, 0), (0, 514)], [(29583600171189,
    0), (0, 3548612075), (23554, 0), (0, 12)], [(68908098864, 0), (0, 4401126), (0, 83)]], 3, 4⟩, ⟨[[(0,
    28451661271197696), (0, 1870384541732532), (16830350005, 0), (0, 887927), (0, 104)], [(0, 30355680905948331),
    (42641512779, 0), (40739103, 0), (3964, 0), (1, 0)], [(17715440664907, 0), (0, 4934081), (0, 15870), (0, 2)],
    [(0, 12819377509), (0, 1414168), (0, 169)]], 3, 4⟩, 72057594037927936, 13327280489112, 3828438983023,
    ⟨[[(5235745140275, 0), (10746280769, 0), (13893677, 0), (0, 4506), (0, 1)], [(0, 8018501310), (0, 40567699), (0,
    52382), (67, 0)], [(25283847, 0), (139197, 0), (96, 0)], [(0, 84315), (0, 424)]], 3, 4⟩, 17592186044416,
    52042367,
    3961548436193572481100249948420021615436927967321609302029663964896401436607934298339816932849996033835976788702338520348606118,
    lc0⟩)) (.sx (.leaf ⟨437, 16, 929, 139, 16, 1486, ⟨[[(7693534378991616, 0), (0, 2636650246149745), (53742667904,
    0), (1245, 0), (90, 0)], [(19750011631218097, 0), (0, 4636328519520), (143889772, 0), (1355, 0)],
    [(23207196858743, 0), (0, 3426635675), (23615, 0), (0, 14)], [(65592428759, 0), (0, 5288280), (0, 195)]], 3, 4⟩,
    ⟨[[(7503835584430080, 0), (0, 1810266338552645), (12965062107, 0), (0, 1314231), (0, 164)], [(0,
    31073133595319960), (77658716869, 0), (46575025, 0), (4872, 0), (1, 0)], [(19124295604000, 0), (191466893, 0),
    (12817, 0), (4, 0)], [(0, 16427353609), (0, 1796483), (0, 256)]], 3, 4⟩, 72057594037927936, 12237792797014,
    3859462807607, ⟨[[(5540920323922, 0), (12476993721, 0), (16172848, 0), (0, 7130)], [(0, 8566746369), (0,
    44435799), (0, 51262), (74, 0)], [(26070604, 0), (139470, 0), (59, 0)], [(0, 83019), (0, 378)]], 3, 4⟩,
    17592186044416, 45002678,
    4684370396555665322070390225608812102665860731974266177474838181166111208735866592602518485520851488247013323979400164590573978,
    lc0⟩) (.leaf ⟨411, 16, 849, 125, 16, 1532, ⟨[[(0, 31029794356690944), (0, 2593436335144822), (54663591281, 0),
    (28595, 0), (98, 0)], [(20165488796906103, 0), (0, 4525643943876), (132475971, 0), (19, 0)], [(29399395262212,
    0), (0, 3737442168), (3065, 0), (0, 16)], [(70495655965, 0), (0, 4752814), (0, 113)]], 3, 4⟩,
    ⟨[[(14708742965489664, 0), (0, 1862726665132022), (15387419391, 0), (0, 1139388), (0, 142)], [(0,
    30462661503283218), (87221861321, 0), (47785853, 0), (5164, 0), (1, 0)], [(17790069546838, 0), (0, 22015571), (0,
    17895), (0, 1)], [(0, 13638647810), (0, 1618221), (0, 225)]], 3, 4⟩, 72057594037927936, 14214416482544,
    3992492972493, ⟨[[(5229017885804, 0), (11034361565, 0), (14925154, 0), (0, 5826), (6, 0)], [(0, 7909533707), (0,
    41639577), (0, 55099), (76, 0)], [(25061326, 0), (143170, 0), (88, 0)], [(0, 84790), (0, 435)]], 3, 4⟩,
    17592186044416, 52880103,
    4364502332785686985739407825718592476197001904714515632034333306689397473286399342464302348187319490465020443288287023064938733,
    lc0⟩))) (.sy (.sx (.leaf ⟨380, 16, 728, 124, 16, 1569, ⟨[[(0, 24095684791545856), (0, 2444651345545759),
    (51774519603, 0), (0, 168852), (75, 0)], [(21870396600845452, 0), (0, 4285935840751), (115422466, 0), (0, 1429)],
    [(35368547383660, 0), (0, 3710654133), (14447, 0), (0, 12)], [(73534558809, 0), (0, 3818222), (0, 36)]], 3, 4⟩,
    ⟨[[(0, 14047992702503936), (0, 1922619508534876), (19035501087, 0), (0, 747488), (0, 84)], [(0,
    29764561433241734), (36163875971, 0), (39703228, 0), (3774, 0), (1, 0)], [(16768854747538, 0), (0, 173305754),
    (0, 35285), (0, 6)], [(0, 9955317209), (0, 1210644), (0, 125)]], 3, 4⟩, 72057594037927936, 14359920550822,
    3899396008083, ⟨[[(4959662110825, 0), (9496502880, 0), (12672531, 0), (0, 3444), (4, 0)], [(0, 7458347516), (0,
    37865061), (0, 55338), (66, 0)], [(24458685, 0), (141827, 0), (129, 0)], [(0, 86518), (0, 480)]], 3, 4⟩,
    17592186044416, 62070703,
    3467118860239801356417542935447344846781030661553423690218733388373016822600314817168630919771311703317728282955595073203912251,
    lc0⟩) (.leaf ⟨354, 16, 655, 110, 16, 1611, ⟨[[(0, 6202542608953344), (0, 2367612700174803), (50965587470, 0), (0,
    223777), (68, 0)], [(22720300513525385, 0), (0, 4154336862744), (104821765, 0), (0, 2117)], [(40873046279344, 0),
    (0, 3754753292), (10690, 0), (0, 9)], [(77766577941, 0), (0, 3149097), (0, 8)]], 3, 4⟩, ⟨[[(0,
    20335759923487744), (0, 1972926964262031), (21184906494, 0), (0, 616638), (0, 63)], [(0, 29163322237268382),
    (16074141858, 0), (37147961, 0), (3266, 0), (1, 0)], [(16136662669347, 0), (0, 317845127), (0, 48657), (0, 9)],
    [(0, 6947072037), (0, 977529), (0, 68)]], 3, 4⟩, 72057594037927936, 14757800490623, 3939205604820,
    ⟨[[(4714954636548, 0), (8381775024, 0), (11468773, 0), (0, 2736), (7, 0)], [(0, 6980911827), (0, 35175011), (0,
    57907), (64, 0)], [(23751162, 0), (143656, 0), (167, 0)], [(0, 88904), (0, 541)]], 3, 4⟩, 17592186044416,
    75973290,
    3410900901667649387015125760673091020299113949101769675556045429837492152890262824500439485832050145166634215245264362013772527,
    lc0⟩)) (.sx (.sy (.leaf ⟨542, 16, 1076, 146, 16, 2009, ⟨[[(30647383778328576, 0), (0, 1777853683152534),
    (19085447814, 0), (0, 8484), (8, 0)], [(29963981812824765, 0), (0, 3103559309060), (42081365, 0), (0, 237)],
    [(50212667172900, 0), (0, 2738078000), (0, 26), (0, 3)], [(106553716358, 0), (0, 2840722), (0, 12)]], 3, 4⟩,
    ⟨[[(0, 21003318546511872), (0, 1221932257250815), (5798044488, 0), (0, 142867), (0, 9)], [(0, 38086625672962347),
    (43398741201, 0), (14231653, 0), (747, 0)], [(21381069701507, 0), (0, 129481768), (0, 13325), (0, 1)], [(0,
    13355341941), (0, 843079), (0, 51)]], 3, 4⟩, 72057594037927936, 21234392441335, 5014030579664, ⟨[[(4964666426647,
    0), (7619922010, 0), (8274124, 0), (0, 2208), (3, 0)], [(0, 5240452262), (0, 21511192), (0, 25193), (25, 0)],
    [(12203621, 0), (57203, 0), (38, 0)], [(0, 30875), (0, 137)]], 3, 4⟩, 17592186044416, 11510217,
    3697802609712001737671368784664690836762609853535156317828122077388439815317335698835529643302798727387495158964267541651418998,
    lc0⟩) (.leaf ⟨549, 16, 1114, 137, 16, 2012, ⟨[[(0, 12422551788191744), (0, 1820804072471855), (19759501984, 0),
    (9144, 0), (9, 0)], [(29420129720591409, 0), (0, 3169601645630), (43217915, 0), (0, 218)], [(50562558607661, 0),
    (0, 2836941125), (0, 4375), (0, 3)], [(108837126163, 0), (0, 2953986), (0, 13)]], 3, 4⟩, ⟨[[(30312235382157312,
    0), (0, 1218039784613253), (5577300111, 0), (0, 162057), (0, 10)], [(0, 38117991231336631), (58365568214, 0),
    (15459353, 0), (856, 0)], [(21344420856545, 0), (0, 143773596), (0, 14746), (0, 1)], [(0, 13812595805), (0,
    899300), (0, 59)]], 3, 4⟩, 72057594037927936, 22128199350386, 5146163409771, ⟨[[(4956047620192, 0), (7710266145,
    0), (8620404, 0), (0, 2644), (4, 0)], [(0, 5149444901), (0, 21627100), (0, 25863), (28, 0)], [(11931852, 0),
    (57367, 0), (37, 0)], [(0, 30228), (0, 138)]], 3, 4⟩, 17592186044416, 11319368,
    4135041713994543217508969169090431465095459229792783809881911008728782442292027885032492579871356599518492483587401949129956293,
    lc0⟩)) (.sx (.leaf ⟨469, 16, 917, 139, 16, 2240, ⟨[[(0, 35782512961609728), (0, 3184234663138073), (69541980260,
    0), (0, 67352), (121, 0)], [(13906928756210923, 0), (0, 2781091568986), (71173421, 0), (0, 1357)],
    [(12823528281145, 0), (0, 1277947405), (0, 2105), (0, 5)], [(12791875487, 0), (0, 566043), (1, 0)]], 3, 4⟩,
    ⟨[[(34993422039441408, 0), (0, 2715236371754425), (27376059862, 0), (0, 1140633), (0, 139)], [(0,
    20497349455732699), (44222951182, 0), (30738933, 0), (3238, 0)], [(5635463400893, 0), (0, 117747178), (0, 20502),
    (0, 3)], [(0, 1444061380), (0, 199101), (0, 21)]], 3, 4⟩, 72057594037927936, 1278709054903, 417048014496,
    ⟨[[(4766751508586, 0), (6365787947, 0), (6599614, 0), (0, 1671), (3, 0)], [(0, 5416142518), (0, 20527503), (0,
    24697), (22, 0)], [(14227967, 0), (64368, 0), (49, 0)], [(0, 41382), (0, 186)]], 3, 4⟩, 17592186044416, 19916886,
    3890418025356648731780828594094246471665852522814003108063599912031017437344484267259536423036545314259744422631372694345342845,
    lc0⟩) (.leaf ⟨454, 16, 873, 129, 16, 2261, ⟨[[(3748832963510272, 0), (0, 3144833660554812), (69047657411, 0), (0,
    125894), (114, 0)], [(14331391926275941, 0), (0, 2752642684191), (67603179, 0), (0, 1645)], [(13807852019035, 0),
    (0, 1282591695), (0, 1621), (0, 4)], [(13223415449, 0), (0, 507427), (5, 0)]], 3, 4⟩, ⟨[[(0, 9230334975868928),
    (0, 2739040936272007), (28897902683, 0), (0, 1019900), (0, 121)], [(0, 20218882246168021), (33642144229, 0),
    (29188745, 0), (2983, 0)], [(5523430811598, 0), (0, 142331978), (0, 22936), (0, 4)], [(0, 1159810829), (0,
    171832), (0, 14)]], 3, 4⟩, 72057594037927936, 1292273330284, 416398354502, ⟨[[(4656214280592, 0), (6007483813,
    0), (6341141, 0), (0, 1590), (3, 0)], [(0, 5234645257), (0, 19774943), (0, 25412), (22, 0)], [(13931684, 0),
    (64526, 0), (56, 0)], [(0, 41445), (0, 196)]], 3, 4⟩, 17592186044416, 21338624,
    3470322134707640318237737257718373716024801369705225938926279620833321973763073798450879914563965051144332526250898153678961569,
    lc0⟩))))
theorem c118 : checkR job con0 true ⟨7, 9, 7, 9, 13, 17⟩ 1 28336 t118 195 21 160 29239 251 32000 = true := by decide +kernel

def t119 : CTree :=
  .sy (.sx (.leaf ⟨444, 16, 985, 127, 16, 1491, ⟨[[(12898585993244672, 0), (0, 2738325579337365), (57137202418, 0),
    (210719, 0), (114, 0)], [(18511468280600375, 0), (0, 4761266285657), (155580073, 0), (2616, 0), (1, 0)],
    [(22786640794350, 0), (0, 3619762100), (1014, 0), (0, 17)], [(66673851774, 0), (0, 5849003), (0, 278)]], 3, 4⟩,
    ⟨[[(0, 2789552315483136), (0, 1804382418027365), (10751518454, 0), (0, 1694825), (0, 212)], [(0,
    31126137525460431), (128841446747, 0), (55026031, 0), (6166, 0), (1, 0)], [(19288930209805, 0), (208757556, 0),
    (20765, 0), (6, 0)], [(0, 17458189794), (0, 2096488), (0, 331)]], 3, 4⟩, 72057594037927936, 13013788083191,
    3999647948670, ⟨[[(5543355632738, 0), (12863556146, 0), (17330728, 0), (0, 8681), (8, 0)], [(0, 8484376842), (0,
    45650372), (0, 52679), (81, 0)], [(25971218, 0), (142593, 0), (42, 0)], [(0, 83944), (0, 381)]], 3, 4⟩,
    17592186044416, 45767903,
    4626654330815416318128190419471902172456973013523797511914683641683064730485459956636825828014317225646580881671328414834385518,
    lc0⟩) (.sx (.leaf ⟨528, 16, 1148, 165, 16, 2163, ⟨[[(0, 34974284812378112), (0, 3370667191009374), (72295826766,
    0), (319695, 0), (155, 0)], [(11744526005664158, 0), (0, 2917577093343), (90258193, 0), (801, 0)],
    [(8594270580932, 0), (0, 1214487461), (0, 6375), (0, 6)], [(11016339524, 0), (0, 835445), (0, 30)]], 3, 4⟩,
    ⟨[[(0, 13073850795511808), (0, 2611530083692408), (18126994283, 0), (0, 2170389), (0, 274)], [(0,
    21731864119849320), (98596599064, 0), (40167287, 0), (4642, 0), (1, 0)], [(6439982251678, 0), (6998117, 0), (0,
    3320)], [(0, 2713222786), (0, 345191), (0, 54)]], 3, 4⟩, 72057594037927936, 1176642169773, 434818771850,
    ⟨[[(5306491413043, 0), (8279554482, 0), (8165538, 0), (0, 2779), (3, 0)], [(0, 6410962001), (0, 24691832), (0,
    22459), (24, 0)], [(16251196, 0), (66591, 0), (21, 0)], [(0, 44213), (0, 157)]], 3, 4⟩, 17592186044416, 17415778,
    4198987304838112563421140217252404308253791757347231303863103358415994980116028477884326203449290690119069342746587352430031668,
    lc0⟩) (.leaf ⟨512, 16, 1099, 154, 16, 2187, ⟨[[(0, 16964369559330816), (0, 3346215020389620), (72826349699, 0),
    (327112, 0), (160, 0)], [(11991806838373842, 0), (0, 2894907817577), (85757050, 0), (228, 0)], [(9615955357121,
    0), (0, 1262181987), (0, 9171), (0, 7)], [(11511026009, 0), (0, 778792), (0, 20)]], 3, 4⟩, ⟨[[(0,
    240164245499904), (0, 2636332696357909), (20023975266, 0), (0, 1997178), (0, 254)], [(0, 21440009571369231),
    (98487257668, 0), (40049462, 0), (4686, 0), (1, 0)], [(6185131766676, 0), (0, 35120063), (0, 9947), (0, 1)], [(0,
    2435924697), (0, 320149), (0, 50)]], 3, 4⟩, 72057594037927936, 1245827991237, 437981911820, ⟨[[(5161790163670,
    0), (7822554035, 0), (7938591, 0), (0, 2688), (3, 0)], [(0, 6159517640), (0, 23999337), (0, 23587), (25, 0)],
    [(15906047, 0), (67851, 0), (26, 0)], [(0, 44581), (0, 170)]], 3, 4⟩, 17592186044416, 18767117,
    4350976686151369527286848467554128896018511243936490920142359467150305896766575663248680578312046690519459992692431397677492203,
    lc0⟩))) (.sx (.leaf ⟨452, 16, 1047, 115, 16, 1496, ⟨[[(5234765921460224, 0), (0, 2849477148134181), (61265479541,
    0), (490178, 0), (145, 0)], [(17178128113633966, 0), (0, 4892448190862), (170703616, 0), (4356, 0), (1, 0)],
    [(22287263436726, 0), (0, 3861293112), (0, 29170), (0, 22)], [(67667343796, 0), (0, 6561056), (0, 393)]], 3, 4⟩,
    ⟨[[(0, 13767567635186688), (0, 1801002372426382), (7878654564, 0), (0, 2181018), (0, 267)], [(0,
    31150880271493632), (189752753714, 0), (65652334, 0), (7727, 0), (1, 0)], [(19464867030429, 0), (235617715, 0),
    (31836, 0), (8, 0)], [(0, 18663512301), (0, 2480300), (0, 422)]], 3, 4⟩, 72057594037927936, 13935993173559,
    4164988941257, ⟨[[(5544571277918, 0), (13269708101, 0), (18599416, 0), (0, 10850), (18, 0)], [(0, 8398569527),
    (0, 46931353), (0, 53426), (89, 0)], [(25925396, 0), (145857, 0), (18, 0)], [(0, 85383), (0, 381), (1, 0)]], 3,
    4⟩, 17592186044416, 46929760,
    4344240683486940889789615336006846264570325926542697029903898136183299223204789497874703746625191319686977647939600957341766395,
    lc0⟩) (.sx (.leaf ⟨528, 16, 1201, 147, 16, 2174, ⟨[[(0, 31171356726444032), (0, 3450006648000565), (76398452979,
    0), (692443, 0), (195, 0)], [(10778420872586845, 0), (0, 2956657622800), (96235302, 0), (1597, 0)],
    [(8350660966480, 0), (0, 1282614201), (0, 17686), (0, 8)], [(11077540457, 0), (0, 910202), (0, 42)]], 3, 4⟩,
    ⟨[[(31002560850323456, 0), (0, 2608316511517532), (14481745902, 0), (0, 2806517), (0, 349)], [(0,
    21781835099560610), (143446406229, 0), (48272042, 0), (5862, 0), (1, 0)], [(6475494766942, 0), (4138778, 0), (0,
    2323), (1, 0)], [(0, 2916158224), (0, 409125), (0, 70)]], 3, 4⟩, 72057594037927936, 1256785084682, 449269153940,
    ⟨[[(5301679729129, 0), (8520038483, 0), (8807222, 0), (0, 3651), (5, 0)], [(0, 6432373868), (0, 25836331), (0,
    23469), (28, 0)], [(16740264, 0), (70999, 0), (13, 0)], [(0, 47369), (0, 168)]], 3, 4⟩, 17592186044416, 19486530,
    4218604050738858225317939305581444009584384127962858147462784952589211076082483049290020661492717796183955298232285206534186279,
    lc0⟩) (.leaf ⟨511, 16, 1150, 136, 16, 2199, ⟨[[(27884802277715968, 0), (0, 3424640318862593), (76991845168, 0),
    (713201, 0), (203, 0)], [(11050275759088820, 0), (0, 2938828904534), (90534673, 0), (848, 0)], [(9395822266647,
    0), (0, 1336054367), (0, 21259), (0, 9)], [(11630196432, 0), (0, 839731), (0, 29)]], 3, 4⟩,
    ⟨[[(31785416056682496, 0), (0, 2632239574250429), (16689761476, 0), (0, 2588958), (0, 325)], [(0,
    21497157338877416), (143317285881, 0), (48267375, 0), (5948, 0), (1, 0)], [(6198745463889, 0), (0, 45799614), (0,
    10840)], [(0, 2624565986), (0, 378779), (0, 64)]], 3, 4⟩, 72057594037927936, 1336369065647, 457485658314,
    ⟨[[(5162075273241, 0), (8063912358, 0), (8612086, 0), (0, 3639), (6, 0)], [(0, 6200017340), (0, 25244375), (0,
    24876), (30, 0)], [(16478171, 0), (73086, 0), (19, 0)], [(0, 48213), (0, 185)]], 3, 4⟩, 17592186044416, 21337317,
    4412634907191022201000868709818892600588810286907067292855469022833003283217078216421262500557948367960463721167081526075054270,
    lc0⟩)))
theorem c119 : checkR job con0 true ⟨7, 9, 7, 9, 13, 17⟩ 1 28336 t119 369 21 320 29741 251 32000 = true := by decide +kernel

def t120 : CTree :=
  .sy (.sx (.sx (.leaf ⟨496, 16, 1051, 143, 16, 2210, ⟨[[(24049335048757248, 0), (0, 3318525184218742), (73073309923,
    0), (310437, 0), (162, 0)], [(12300525536147750, 0), (0, 2873758654952), (81186703, 0), (0, 337)],
    [(10646242580864, 0), (0, 1299256436), (0, 10696), (0, 7)], [(12027654728, 0), (0, 717629), (0, 11)]], 3, 4⟩,
    ⟨[[(9991412224223232, 0), (0, 2659964210001022), (21913007419, 0), (0, 1821094), (0, 233)], [(0,
    21152949697946179), (94885735792, 0), (39372691, 0), (4636, 0), (1, 0)], [(5959642886403, 0), (0, 74242277), (0,
    15954), (0, 2)], [(0, 2150090846), (0, 291162), (0, 44)]], 3, 4⟩, 72057594037927936, 1298265430177, 440587060237,
    ⟨[[(5026989648343, 0), (7392506147, 0), (7717555, 0), (0, 2624), (4, 0)], [(0, 5927501744), (0, 23310578), (0,
    24747), (26, 0)], [(15578703, 0), (69070, 0), (33, 0)], [(0, 44943), (0, 183)]], 3, 4⟩, 17592186044416, 20133428,
    4355995307628688599696046574941026859932256230954917208411121854384599151784205000475544688173902830979515835730502942285089292,
    lc0⟩) (.leaf ⟨481, 16, 1004, 132, 16, 2233, ⟨[[(17873790873964544, 0), (0, 3287662976190559), (73044208869, 0),
    (271507, 0), (161, 0)], [(12667385601801841, 0), (0, 2853077181007), (76655233, 0), (0, 873)], [(11683833678485,
    0), (0, 1325581227), (0, 11067), (0, 7)], [(12551120225, 0), (0, 653645), (0, 3)]], 3, 4⟩, ⟨[[(22764750245668864,
    0), (0, 2683773905549390), (23780361762, 0), (0, 1646880), (0, 211)], [(0, 20878215248457054), (88075897624, 0),
    (38208245, 0), (4501, 0), (1, 0)], [(5767752874009, 0), (0, 109902986), (0, 21207), (0, 3)], [(0, 1858046903),
    (0, 259307), (0, 37)]], 3, 4⟩, 72057594037927936, 1337029183539, 442528598218, ⟨[[(4895200042630, 0),
    (6961296964, 0), (7470852, 0), (0, 2550), (4, 0)], [(0, 5682927316), (0, 22473132), (0, 25839), (27, 0)],
    [(15133395, 0), (69618, 0), (40, 0)], [(0, 44739), (0, 196)]], 3, 4⟩, 17592186044416, 21349574,
    4446124043386225467661597217594670956237776919824368465350056606989223975358134179730597156491974823879715920883019984177349701,
    lc0⟩)) (.sx (.sy (.leaf ⟨745, 16, 1512, 181, 16, 3243, ⟨[[(20663582448099328, 0), (0, 2582000779224557),
    (28679571181, 0), (26881, 0), (15, 0)], [(21220540175740410, 0), (0, 2249097223779), (28713289, 0), (0, 273)],
    [(20349880184903, 0), (0, 1056600707), (0, 3229), (0, 1)], [(20741049424, 0), (0, 465116), (1, 0)]], 3, 4⟩,
    ⟨[[(34581090466301952, 0), (0, 1950967618476606), (9395920754, 0), (0, 249086), (0, 16)], [(0,
    29644726050767817), (49838389119, 0), (12598683, 0), (721, 0)], [(8090209620366, 0), (0, 97387247), (0, 8735),
    (0, 1)], [(0, 2203870674), (0, 157077), (0, 10)]], 3, 4⟩, 72057594037927936, 2089955952623, 535856032772,
    ⟨[[(4771350972658, 0), (4517429726, 0), (3401548, 0), (0, 756), (1, 0)], [(0, 3413878884), (0, 9282994), (0,
    7952), (5, 0)], [(5725259, 0), (18661, 0), (9, 0)], [(0, 10735), (0, 35)]], 3, 4⟩, 17592186044416, 2525220,
    3874050208586760830631983540908026862527397724778292013688267506186422956186878003913597837941645518064508463554786344411141550,
    lc0⟩) (.leaf ⟨748, 16, 1555, 168, 16, 3251, ⟨[[(6186074850811904, 0), (0, 2625788772481617), (29560490493, 0),
    (59638, 0), (17, 0)], [(20670284887143753, 0), (0, 2283621364274), (29114585, 0), (0, 271)], [(20382124039880,
    0), (0, 1090917058), (0, 5219), (0, 1)], [(21091200748, 0), (0, 476578), (2, 0)]], 3, 4⟩, ⟨[[(24128125883015168,
    0), (0, 1946520702559874), (9017843457, 0), (0, 283979), (0, 18)], [(0, 29689497254424393), (63213285884, 0),
    (13794044, 0), (825, 0)], [(8058873371990, 0), (0, 106886713), (0, 9697), (0, 1)], [(0, 2290928395), (0, 167986),
    (0, 11)]], 3, 4⟩, 72057594037927936, 2168921167774, 554202667102, ⟨[[(4771337708280, 0), (4580750333, 0),
    (3563058, 0), (0, 907), (1, 0)], [(0, 3397979094), (0, 9458495), (0, 8243), (6, 0)], [(5731519, 0), (19201, 0),
    (9, 0)], [(0, 10893), (0, 36)]], 3, 4⟩, 17592186044416, 2523584,
    3970334582560335297773238696708993895263863237045043984996337468759749445307514401309796001569594178875563841930454437619446197,
    lc0⟩)) (.leaf ⟨452, 16, 912, 111, 16, 2276, ⟨[[(0, 21575714052186112), (0, 3212939078779634), (72129465319, 0),
    (138115, 0), (150, 0)], [(13545645704479934, 0), (0, 2806025340675), (67982081, 0), (0, 1780)], [(13751073067927,
    0), (0, 1345103010), (0, 9045), (0, 6)], [(13549701918, 0), (0, 522612), (10, 0)]], 3, 4⟩, ⟨[[(0,
    27514899009293312), (0, 2728849636061625), (27337298757, 0), (0, 1315942), (0, 168)], [(0, 20328204387327750),
    (65875892944, 0), (34635149, 0), (4005, 0), (1, 0)], [(5481850675567, 0), (0, 169360544), (0, 28994), (0, 4)],
    [(0, 1258515179), (0, 190704), (0, 21)]], 3, 4⟩, 72057594037927936, 1374994844952, 441256059346,
    ⟨[[(4656053141053, 0), (6158620070, 0), (6943804, 0), (0, 2380), (4, 0)], [(0, 5239438434), (0, 20678773), (0,
    27779), (28, 0)], [(14226556, 0), (69599, 0), (57, 0)], [(0, 43784), (0, 218)]], 3, 4⟩, 17592186044416, 23618060,
    4294906814172371070733668086339223904891821528715990946535825528574347159684496697048148896363634755172024978352869388822717134,
    lc0⟩))) (.sx (.sx (.leaf ⟨496, 16, 1100, 125, 16, 2223, ⟨[[(0, 32765308727046144), (0, 3396120338943510),
    (77243816709, 0), (701520, 0), (206, 0)], [(11385500210059188, 0), (0, 2922588870285), (84765423, 0), (101, 0)],
    [(10456192221045, 0), (0, 1376825290), (0, 23065), (0, 9)], [(12208108819, 0), (0, 764762), (0, 16)]], 3, 4⟩,
    ⟨[[(29850530574728192, 0), (0, 2654992277995935), (18897286833, 0), (0, 2366251), (0, 300)], [(0,
    21218858021281359), (139034437112, 0), (47544831, 0), (5920, 0), (1, 0)], [(5952951284703, 0), (0, 92079526), (0,
    18621), (0, 2)], [(0, 2321832412), (0, 343136), (0, 57)]], 3, 4⟩, 72057594037927936, 1393800339263, 461471764702,
    ⟨[[(5020219205712, 0), (7585023386, 0), (8373475, 0), (0, 3579), (6, 0)], [(0, 5922102975), (0, 24357047), (0,
    26253), (31, 0)], [(15942212, 0), (73995, 0), (27, 0)], [(0, 47847), (0, 200)]], 3, 4⟩, 17592186044416, 22499430,
    4638149972268160904320906815703273265544014389554870751690429211818529209762994801863722900395515660960113374171970140850923161,
    lc0⟩) (.sy (.leaf ⟨782, 16, 1691, 170, 16, 3215, ⟨[[(0, 10201360682795008), (0, 2722197982504126), (30946267668,
    0), (112320, 0), (20, 0)], [(19544227655733888, 0), (0, 2354347165989), (31907768, 0), (0, 141)],
    [(18834802040756, 0), (0, 1125835526), (0, 8079), (0, 2)], [(20724186102, 0), (0, 552392), (0, 1)]], 3, 4⟩,
    ⟨[[(27398328552140800, 0), (0, 1919652349392732), (7820871511, 0), (0, 359628), (0, 23)], [(0,
    30003863820018859), (85584431269, 0), (15764949, 0), (975, 0)], [(8240112411387, 0), (0, 91434488), (0, 8736),
    (0, 1)], [(0, 2823744197), (0, 208744), (0, 16)]], 3, 4⟩, 72057594037927936, 2222069148773, 569204687024,
    ⟨[[(4893651210494, 0), (4955530326, 0), (3881273, 0), (0, 1111), (1, 0)], [(0, 3494842066), (0, 9979203), (0,
    8139), (6, 0)], [(5822634, 0), (19404, 0), (7, 0)], [(0, 10900), (0, 34)]], 3, 4⟩, 17592186044416, 2465390,
    4279803332264038483365189515030749807231809596345196795284602587227502801677534815507834463035924438784728969139436306909870153,
    lc0⟩) (.leaf ⟨786, 16, 1742, 157, 16, 3224, ⟨[[(1020792195252224, 0), (0, 2772193435424605), (32085625436, 0),
    (158608, 0), (22, 0)], [(18924413766650094, 0), (0, 2392452801777), (32678396, 0), (0, 108)], [(18818321703992,
    0), (0, 1169470299), (0, 11006), (0, 2)], [(21063160675, 0), (0, 570686), (0, 2)]], 3, 4⟩, ⟨[[(34081681468979200,
    0), (0, 1917436752786008), (7263236838, 0), (0, 409973), (0, 26)], [(0, 30040660854915511), (102466069087, 0),
    (17373433, 0), (1101, 0)], [(8214878832955, 0), (0, 100872914), (0, 9537), (0, 1)], [(0, 2941012017), (0,
    226762), (0, 19)]], 3, 4⟩, 72057594037927936, 2312110356133, 590977280371, ⟨[[(4893767214792, 0), (5029204183,
    0), (4067063, 0), (0, 1307), (2, 0)], [(0, 3480693610), (0, 10189779), (0, 8367), (7, 0)], [(5848558, 0), (20022,
    0), (6, 0)], [(0, 11146), (0, 35)]], 3, 4⟩, 17592186044416, 2592110,
    4084823872468490171728995237207887024745690064225647695273208592561922698020655141513506963483755753223783062561256021410457473,
    lc0⟩))) (.sx (.sy (.leaf ⟨751, 16, 1601, 155, 16, 3260, ⟨[[(35177805844742144, 0), (0, 2672852747647345),
    (30554496099, 0), (97993, 0), (19, 0)], [(20108982269432232, 0), (0, 2321286872760), (29566749, 0), (0, 264)],
    [(20419693614163, 0), (0, 1129666912), (0, 7574), (0, 2)], [(21469360128, 0), (0, 488376), (3, 0)]], 3, 4⟩,
    ⟨[[(16839821733373952, 0), (0, 1943055313170936), (8584953300, 0), (0, 324136), (0, 21)], [(0,
    29736274288552320), (77928526138, 0), (15160418, 0), (939, 0)], [(8024844894361, 0), (0, 117440182), (0, 10719),
    (0, 1)], [(0, 2384830903), (0, 180691), (0, 13)]], 3, 4⟩, 72057594037927936, 2255362861473, 573348537740,
    ⟨[[(4773226772195, 0), (4650009685, 0), (3741109, 0), (0, 1083), (1, 0)], [(0, 3387061942), (0, 9663518), (0,
    8537), (7, 0)], [(5756514, 0), (19845, 0), (8, 0)], [(0, 11122), (0, 37)]], 3, 4⟩, 17592186044416, 2737390,
    3773434231442558782461532899098158303967602444147090887255105841062237395324951822743438013074264855812474107569095178941787521,
    lc0⟩) (.leaf ⟨755, 16, 1649, 142, 16, 3269, ⟨[[(0, 3609672379154432), (0, 2721305242332158), (31653473836, 0),
    (142691, 0), (22, 0)], [(19519292673800079, 0), (0, 2360507924634), (30057833, 0), (0, 252)], [(20445633507438,
    0), (0, 1172619161), (0, 10340), (0, 2)], [(21861205290, 0), (0, 500242), (3, 0)]], 3, 4⟩, ⟨[[(8489800093591552,
    0), (0, 1940033162409303), (8086102169, 0), (0, 369847), (0, 24)], [(0, 29775186302618270), (94148510785, 0),
    (16710662, 0), (1064, 0)], [(7985085346176, 0), (0, 129081900), (0, 11806), (0, 1)], [(0, 2485840406), (0,
    195336), (0, 15)]], 3, 4⟩, 72057594037927936, 2345517289439, 596291059368, ⟨[[(4772061868481, 0), (4712319355,
    0), (3925582, 0), (0, 1274), (1, 0)], [(0, 3366574088), (0, 9851028), (0, 8812), (7, 0)], [(5760003, 0), (20469,
    0), (8, 0)], [(0, 11316), (0, 39)]], 3, 4⟩, 17592186044416, 2764569,
    3238223139211559820731594029273040565309975232182509543397342929040323379598969026702717208399307372053926009854988132167085441,
    lc0⟩)) (.sy (.leaf ⟨721, 16, 1512, 140, 16, 3304, ⟨[[(19850345300631552, 0), (0, 2618257992412558), (30016355710,
    0), (79520, 0), (18, 0)], [(20721559737118909, 0), (0, 2284242216628), (27340806, 0), (0, 370)],
    [(21955575458991, 0), (0, 1122774510), (0, 6642), (0, 1)], [(22140420439, 0), (0, 425785), (6, 0)]], 3, 4⟩,
    ⟨[[(0, 2926130630187008), (0, 1966186367231642), (9326072875, 0), (0, 289861), (0, 19)], [(0, 29466377709561094),
    (68068990328, 0), (14388405, 0), (887, 0)], [(7858974180840, 0), (0, 140103245), (0, 12315), (0, 1)], [(0,
    1935891539), (0, 151473), (0, 10)]], 3, 4⟩, 72057594037927936, 2263311447698, 574832341907, ⟨[[(4656558426605,
    0), (4350553277, 0), (3591495, 0), (0, 1045), (1, 0)], [(0, 3278560428), (0, 9298962), (0, 8915), (7, 0)],
    [(5664532, 0), (20128, 0), (10, 0)], [(0, 11248), (0, 41)]], 3, 4⟩, 17592186044416, 2943350,
    3906196700058799408551183425597813337740297968734563215608778362509826091663642807879378497383589005319260618499268089970238997,
    lc0⟩) (.sx (.leaf ⟨915, 16, 1975, 181, 16, 4590, ⟨[[(0, 16667775332966400), (0, 3349763082282864), (39033083105,
    0), (159279, 0), (26, 0)], [(12500313846385664, 0), (0, 1458697867831), (17617195, 0), (0, 218)],
    [(6761942840402, 0), (0, 364817952), (0, 2966), (0, 1)], [(3501732413, 0), (0, 70132), (1, 0)]], 3, 4⟩,
    ⟨[[(30578132065191936, 0), (0, 2720022860077003), (12075707649, 0), (0, 473314), (0, 30)], [(0,
    20555419819354877), (59997809373, 0), (11180004, 0), (712, 0)], [(2726646548302, 0), (0, 51355134), (0, 4597)],
    [(0, 371359691), (0, 29675), (0, 2)]], 3, 4⟩, 72057594037927936, 189877151326, 60492514184, ⟨[[(4682433689499,
    0), (3222161757, 0), (1976268, 0), (0, 464)], [(0, 2624336072), (0, 5507910), (0, 3790), (2, 0)], [(3634425, 0),
    (9546, 0), (3, 0)], [(0, 5833), (0, 15)]], 3, 4⟩, 17592186044416, 1122382,
    4344570853863847166217390326767382673839617209032701493269571662785086299352668561463379014187578360951190650532546066557991631,
    lc0⟩) (.out ⟨757, 16, 1889, 3423, 16, 3230, ⟨[[(14655692529025024, 0), (0, 3263117964773309), (38036185031, 0)],
    [(12517255875751426, 0), (0, 1424839689574), (16617022, 0)], [(6899004571928, 0), (0, 357188099), (0, 2706)]], 2,
    2⟩, ⟨[[(0, 11644244751220736), (0, 2677335007557716), (12351272290, 0)], [(0, 20027111215092322), (54709639077,
    0), (10623338, 0)], [(2642825022802, 0), (0, 54087986), (0, 4774)]], 2, 2⟩, 72057594037927936, 35205632604353,
    10411258352978, ⟨[], 0, 0⟩, 0, 0, 0, lc0⟩ 2 1 15605732818828)))))
theorem c120 : checkR job con0 true ⟨7, 9, 7, 9, 13, 17⟩ 1 28336 t120 411 21 320 29741 251 32000 = true := by decide +kernel

def t121 : CTree :=
  .sy (.sy (.sx (.leaf ⟨460, 16, 1114, 103, 16, 1501, ⟨[[(7870858993664000, 0), (0, 2965899409178722), (66218536292,
    0), (859598, 0), (184, 0)], [(15710641050577253, 0), (0, 5019173250775), (190117066, 0), (6711, 0), (1, 0)],
    [(21640198318486, 0), (0, 4158007933), (0, 68793), (0, 27)], [(68377275821, 0), (0, 7464352), (0, 549)]], 3, 4⟩,
    ⟨[[(0, 26854002449630208), (0, 1800883024405592), (4172811696, 0), (0, 2789259), (0, 332)], [(0,
    31141783796512933), (262829035028, 0), (78899780, 0), (9605, 0), (1, 0)], [(19657800603005, 0), (275525384, 0),
    (46652, 0), (11, 0)], [(0, 20090440066), (0, 2966036), (0, 532)]], 3, 4⟩, 72057594037927936, 15046965184998,
    4351572350612, ⟨[[(5547563439278, 0), (13715149660, 0), (20008422, 0), (0, 13750), (29, 0)], [(0, 8345254439),
    (0, 48495237), (0, 53246), (96, 0)], [(26149410, 0), (150192, 0), (0, 17)], [(0, 88416), (0, 382), (1, 0)]], 3,
    4⟩, 17592186044416, 48020529,
    3512230421962496649114821449470922677110150266786904841220655595963452007513645544996848713615940316622713749089455544210453526,
    lc0⟩) (.sx (.leaf ⟨528, 16, 1258, 130, 16, 2183, ⟨[[(0, 20779609910059008), (0, 3532744311334104), (81445651511,
    0), (1175852, 0), (245, 0)], [(9760928482216670, 0), (0, 2994273201333), (104047602, 0), (2674, 0), (1, 0)],
    [(8066779208392, 0), (0, 1368811392), (0, 32320), (0, 10)], [(11112561058, 0), (0, 1004094), (0, 58)]], 3, 4⟩,
    ⟨[[(0, 11549633840683008), (0, 2606832660124382), (9726958045, 0), (0, 3604074), (0, 434)], [(0,
    21786697179335040), (197502980874, 0), (58388692, 0), (7326, 0), (1, 0)], [(6503929657753, 0), (2616280, 0), (0,
    606), (1, 0)], [(0, 3153588639), (0, 490105), (0, 88)]], 3, 4⟩, 72057594037927936, 1345518582144, 470880834243,
    ⟨[[(5307749881111, 0), (8811795446, 0), (9535774, 0), (0, 4776), (8, 0)], [(0, 6503750268), (0, 27264976), (0,
    24108), (32, 0)], [(17497828, 0), (76434, 0), (1, 0)], [(0, 51892), (0, 181)]], 3, 4⟩, 17592186044416, 22377092,
    3653146122794736953712232262822019634277878237145094878646124999367454677954846609798158735702776798103816726661595480918221054,
    lc0⟩) (.leaf ⟨511, 16, 1205, 119, 16, 2209, ⟨[[(9291516171079680, 0), (0, 3506752992263550), (82141746602, 0),
    (1216306, 0), (256, 0)], [(10056960383331214, 0), (0, 2983271572967), (96795178, 0), (1708, 0)], [(9135614879476,
    0), (0, 1429498881), (0, 37032), (0, 11)], [(11736333059, 0), (0, 915062), (0, 41)]], 3, 4⟩, ⟨[[(0,
    22044963605886976), (0, 2629517999176549), (12316763199, 0), (0, 3334114), (0, 406)], [(0, 21509624374232920),
    (197525219612, 0), (58572047, 0), (7463, 0), (1, 0)], [(6201043106524, 0), (0, 57232097), (0, 11411)], [(0,
    2845094712), (0, 453441), (0, 82)]], 3, 4⟩, 72057594037927936, 1441203241188, 478337690445, ⟨[[(5166661132192,
    0), (8330145327, 0), (9357908, 0), (0, 4816), (8, 0)], [(0, 6256108769), (0, 26650798), (0, 25788), (34, 0)],
    [(17179487, 0), (79032, 0), (7, 0)], [(0, 52747), (0, 202)]], 3, 4⟩, 17592186044416, 24457677,
    3945707173541933550097291544775914894517088274606892414922829958326251145736209750342300741685907941862417295062005728850091922,
    lc0⟩))) (.sx (.leaf ⟨470, 16, 1190, 90, 16, 1505, ⟨[[(0, 23329503424016384), (0, 3096423819328330), (72433616193,
    0), (1348564, 0), (234, 0)], [(14143108356016241, 0), (0, 5151624163271), (215861233, 0), (9884, 0), (1, 0)],
    [(20864507304275, 0), (0, 4538465821), (0, 120501), (0, 34)], [(68877632817, 0), (0, 8647247), (0, 761)]], 3, 4⟩,
    ⟨[[(23827914089677824, 0), (0, 1803772860286340), (0, 565782280), (0, 3535143), (0, 405)], [(0,
    31071260583913984), (350771519229, 0), (95236382, 0), (11852, 0), (1, 0)], [(19862163182623, 0), (332420517, 0),
    (65885, 0), (14, 0)], [(0, 21781733459), (0, 3572935), (0, 664)]], 3, 4⟩, 72057594037927936, 16455249643089,
    4600582301760, ⟨[[(5534308804532, 0), (14145278963, 0), (21607074, 0), (0, 17580), (43, 0)], [(0, 8228927216),
    (0, 50015360), (0, 51774), (103, 0)], [(26253085, 0), (154333, 0), (0, 67)], [(0, 91568), (0, 377), (1, 0)]], 3,
    4⟩, 17592186044416, 49280671,
    2492763261806970484799266907908855546361601524102859794451770558895303760814852894794882678755535341094559728927617540294676113,
    lc0⟩) (.leaf ⟨436, 16, 1084, 75, 16, 1558, ⟨[[(0, 8509189070503936), (0, 3025568625767455), (73998978554, 0),
    (1544429, 0), (265, 0)], [(14835128423844584, 0), (0, 5080639500197), (184116610, 0), (5863, 0), (1, 0)],
    [(27764168402711, 0), (0, 5086544886), (0, 183351), (0, 43)], [(76930939850, 0), (0, 7166772), (0, 461)]], 3, 4⟩,
    ⟨[[(17636543054998528, 0), (0, 1851702808644308), (3625625512, 0), (0, 3125395), (0, 364)], [(0,
    30550625731367558), (373183038143, 0), (100797748, 0), (13003, 0), (1, 0)], [(17971717113967, 0), (0, 94729844),
    (0, 13937), (3, 0)], [(0, 18512467187), (0, 3228528), (0, 607)]], 3, 4⟩, 72057594037927936, 19632447939657,
    5159537209537, ⟨[[(5230879308132, 0), (12524662079, 0), (20634405, 0), (0, 17843), (42, 0)], [(0, 7662050650),
    (0, 48227733), (0, 60272), (127, 0)], [(25867870, 0), (170316, 0), (0, 47)], [(0, 98649), (0, 501), (1, 0)]], 3,
    4⟩, 17592186044416, 64004276,
    3797974723428548493744808975328772412305432502184190880884356410891871696116197096187070415420438151032811112377116872826393862,
    lc0⟩))) (.sy (.sx (.leaf ⟨480, 16, 1274, 78, 16, 1508, ⟨[[(678108654510080, 0), (0, 3235914442175224),
    (80121785458, 0), (1992010, 0), (297, 0)], [(12432462445802878, 0), (0, 5274398401564), (249606566, 0), (14108,
    0), (2, 0)], [(19860925353958, 0), (0, 5016967192), (0, 187452), (0, 42)], [(68868599981, 0), (0, 10187038), (0,
    1044)]], 3, 4⟩, ⟨[[(0, 6422839654440960), (0, 1810830599095311), (0, 6554216620), (0, 4436366), (0, 487)], [(0,
    30931128516249874), (456897572030, 0), (115254583, 0), (14535, 0), (1, 0)], [(20087523202021, 0), (411087372, 0),
    (90295, 0), (18, 0)], [(0, 23802752713), (0, 4325270), (0, 824)]], 3, 4⟩, 72057594037927936, 18107438096980,
    4882722147443, ⟨[[(5543122959772, 0), (14714372889, 0), (23357048, 0), (0, 22216), (58, 0)], [(0, 8238605891),
    (0, 52255903), (0, 47306), (102, 0)], [(27070724, 0), (160129, 0), (0, 145)], [(0, 98192), (0, 367), (1, 0)]], 3,
    4⟩, 17592186044416, 53920580,
    2523334991148163633864746755512391235789710807788431081771570180659612536631413453966498006834316200134740898762542953884840304,
    lc0⟩) (.leaf ⟨445, 16, 1161, 63, 16, 1564, ⟨[[(0, 32496323062153216), (0, 3159511386237243), (82202004535, 0),
    (2277493, 0), (339, 0)], [(13207832008151168, 0), (0, 5238171768097), (208568919, 0), (8913, 0), (1, 0)],
    [(26945888472198, 0), (0, 5682271485), (0, 272707), (0, 55)], [(78405818986, 0), (0, 8245227), (0, 646)]], 3, 4⟩,
    ⟨[[(0, 29430303245191680), (0, 1857745530342849), (0, 1673849983), (0, 3943680), (0, 439)], [(0,
    30452979800071424), (486796872626, 0), (123020295, 0), (16030, 0), (2, 0)], [(17990072341250, 0), (0, 106616996),
    (0, 8608), (4, 0)], [(0, 20376061514), (0, 3924464), (0, 757)]], 3, 4⟩, 72057594037927936, 21859376842480,
    5616056839121, ⟨[[(5236810447879, 0), (12995848297, 0), (22463014, 0), (0, 22776), (54, 0)], [(0, 7644412992),
    (0, 50636242), (0, 56897), (136, 0)], [(26637990, 0), (180119, 0), (0, 135)], [(0, 106439), (0, 514), (2, 0)]],
    3, 4⟩, 17592186044416, 69515552,
    3110101300391315351613307807193081798641710977625772287598522534660733356053075775089157691245119808088021053019566206613274012,
    lc0⟩)) (.sx (.leaf ⟨492, 16, 1369, 65, 16, 1510, ⟨[[(0, 8392459826368512), (0, 3388983130949687), (89832170033,
    0), (2840817, 0), (380, 0)], [(10583990546274156, 0), (0, 5385850027004), (294382049, 0), (19723, 0), (2, 0)],
    [(18578950643767, 0), (0, 5628946740), (0, 274198), (0, 52)], [(68201951903, 0), (0, 12219439), (0, 1423)]], 3,
    4⟩, ⟨[[(25281086000824320, 0), (0, 1823437691812824), (0, 14034988440), (0, 5511500), (0, 579)], [(0,
    30711464908709333), (585141231538, 0), (139647482, 0), (17729, 0), (2, 0)], [(20346000357838, 0), (517086561, 0),
    (120731, 0), (22, 0)], [(0, 26231566436), (0, 5251516), (0, 1015)]], 3, 4⟩, 72057594037927936, 20259148307304,
    5177802792192, ⟨[[(5535415926987, 0), (15284208989, 0), (25271980, 0), (0, 27892), (77, 0)], [(0, 8209772095),
    (0, 54690958), (0, 38780), (92, 0), (0, 1)], [(27998248, 0), (166343, 0), (0, 261), (1, 0)], [(0, 106112), (0,
    349), (2, 0)]], 3, 4⟩, 17592186044416, 57062250,
    2496446476944258561207941605156164397230447421249617686223459744031765597319595825568032021002714449173482905057760728351354683,
    lc0⟩) (.leaf ⟨454, 16, 1247, 50, 16, 1568, ⟨[[(10831362240266240, 0), (0, 3302863231110724), (92558759695, 0),
    (3244693, 0), (433, 0)], [(11419612452308178, 0), (0, 5393207580705), (240941047, 0), (13009, 0), (2, 0)],
    [(25796475625442, 0), (0, 6444491478), (0, 389638), (0, 70)], [(79576766989, 0), (0, 9651771), (0, 898)]], 3, 4⟩,
    ⟨[[(0, 17071986393515008), (0, 1867403673945184), (0, 8338838119), (0, 4919456), (0, 523)], [(0,
    30252647177847223), (624876075795, 0), (150133805, 0), (19621, 0), (2, 0)], [(17980843272709, 0), (0, 111904946),
    (0, 958), (6, 0)], [(0, 22608885171), (0, 4783409), (0, 937)]], 3, 4⟩, 72057594037927936, 24578761504831,
    6125946939450, ⟨[[(5239365489892, 0), (13551905633, 0), (24594496, 0), (0, 28965), (68, 0)], [(0, 7673089755),
    (0, 54014469), (0, 48832), (137, 0), (0, 1)], [(28075055, 0), (194591, 0), (0, 282), (1, 0)], [(0, 119119), (0,
    534), (3, 0)]], 3, 4⟩, 17592186044416, 79536441,
    2835638787452161718936873123055559353976242193786165927980799595405325601732307430780774915586510620928211183069538638692004926,
    lc0⟩)))
theorem c121 : checkR job con0 true ⟨7, 9, 7, 9, 13, 17⟩ 1 28336 t121 369 21 320 15247 251 16000 = true := by decide +kernel

def t122 : CTree :=
  .sy (.sx (.sx (.leaf ⟨494, 16, 1152, 108, 16, 2235, ⟨[[(34402760902316032, 0), (0, 3474775048123760), (82350420071,
    0), (1212787, 0), (261, 0)], [(10409631373320030, 0), (0, 2971391416567), (89385836, 0), (736, 0)],
    [(10219345448780, 0), (0, 1473530379), (0, 39315), (0, 11)], [(12378470810, 0), (0, 820691), (0, 23)]], 3, 4⟩,
    ⟨[[(0, 31921240690217984), (0, 2652209065232293), (14924401991, 0), (0, 3057560), (0, 376)], [(0,
    21250383242507471), (192642023739, 0), (57871226, 0), (7466, 0), (1, 0)], [(5933674627907, 0), (0, 112689680),
    (0, 21352), (0, 2)], [(0, 2523197216), (0, 409976), (0, 73)]], 3, 4⟩, 72057594037927936, 1502318412690,
    485301139596, ⟨[[(5032517899207, 0), (7859638289, 0), (9170238, 0), (0, 4835), (8, 0)], [(0, 6017178101), (0,
    25969881), (0, 27563), (37, 0)], [(16827872, 0), (81474, 0), (14, 0)], [(0, 53390), (0, 225)]], 3, 4⟩,
    17592186044416, 26812476,
    4420558368466650724524573959882461587830557998581870646675108808212929455601343454728036232975009198835020560278859944680813918,
    lc0⟩) (.leaf ⟨478, 16, 1100, 96, 16, 2260, ⟨[[(14567430974074880, 0), (0, 3439631722410064), (82150383274, 0),
    (1168619, 0), (262, 0)], [(10824067083107262, 0), (0, 2959501633170), (82107815, 0), (0, 205)], [(11322446206660,
    0), (0, 1502118068), (0, 39354), (0, 11)], [(13028414819, 0), (0, 724886), (0, 7)]], 3, 4⟩,
    ⟨[[(27364524261846016, 0), (0, 2673925114667497), (17505770010, 0), (0, 2778675), (0, 345)], [(0,
    20996943220175686), (183124155985, 0), (56333686, 0), (7340, 0), (1, 0)], [(5701372105393, 0), (0, 162845726),
    (0, 30199), (0, 3)], [(0, 2189177068), (0, 360994), (0, 63)]], 3, 4⟩, 72057594037927936, 1544052381890,
    491546589244, ⟨[[(4894617708076, 0), (7372099900, 0), (8975182, 0), (0, 4840), (8, 0)], [(0, 5740243975), (0,
    25054051), (0, 29494), (39, 0)], [(16245344, 0), (83101, 0), (24, 0)], [(0, 52987), (0, 247)]], 3, 4⟩,
    17592186044416, 28620237,
    4442156738743594861275479444429123456829372937408703224168388082164353165818120231515065718429662502860720251653957617126772494,
    lc0⟩)) (.sx (.sy (.sx (.leaf ⟨944, 16, 2123, 185, 16, 4559, ⟨[[(20939117947248640, 0), (0, 3431130453705998),
    (40669538080, 0), (245939, 0), (31, 0)], [(11543260056857819, 0), (0, 1484302776077), (19294552, 0), (0, 120)],
    [(6173719339628, 0), (0, 376112312), (0, 4264), (0, 1)], [(3397583374, 0), (0, 81863)]], 3, 4⟩,
    ⟨[[(32185987219935232, 0), (0, 2696344539097268), (10176646586, 0), (0, 603861), (0, 38)], [(0,
    20843029473080783), (79955865163, 0), (13024267, 0), (846, 0)], [(2789496879061, 0), (0, 46955010), (0, 4312)],
    [(0, 473530443), (0, 38573), (0, 3)]], 3, 4⟩, 72057594037927936, 192190941422, 61528580663, ⟨[[(4802405948558,
    0), (3484421863, 0), (2139977, 0), (0, 553)], [(0, 2745198634), (0, 5918998), (0, 3736), (2, 0)], [(3834614, 0),
    (9986, 0), (2, 0)], [(0, 6202), (0, 15)]], 3, 4⟩, 17592186044416, 1191628,
    2279674010764991666491384850181720561485948781884136542424221106689732266783315133241646543266397455472760737058039336670003392,
    lc0⟩) (.leaf ⟨928, 16, 2072, 174, 16, 4582, ⟨[[(23330556255444992, 0), (0, 3410202252949188), (40476142274, 0),
    (234029, 0), (31, 0)], [(11789919776810083, 0), (0, 1479896852648), (18483773, 0), (0, 169)], [(6453120282910,
    0), (0, 376915458), (0, 4098), (0, 1)], [(3473947311, 0), (0, 76252), (1, 0)]], 3, 4⟩, ⟨[[(17322032997718016, 0),
    (0, 2706658473244833), (10769891367, 0), (0, 571651), (0, 36)], [(0, 20715121149487397), (76195967692, 0),
    (12709645, 0), (828, 0)], [(2746438980902, 0), (0, 51861992), (0, 4714)], [(0, 430943311), (0, 35357), (0, 3)]],
    3, 4⟩, 72057594037927936, 195052530977, 62250160270, ⟨[[(4743204003836, 0), (3376908668, 0), (2112663, 0), (0,
    550)], [(0, 2690052166), (0, 5806394), (0, 3844), (2, 0)], [(3774908, 0), (10050, 0), (3, 0)], [(0, 6174), (0,
    16)]], 3, 4⟩, 17592186044416, 1214015,
    4672182150745527521293691318656030886364907238259607145201872558577145258366094441726061064976002190274314789067206514459853905,
    lc0⟩)) (.sx (.leaf ⟨942, 16, 2173, 167, 16, 4573, ⟨[[(15112360049745920, 0), (0, 3469938402431509), (42055872411,
    0), (318405, 0), (35, 0)], [(11057415310070202, 0), (0, 1499519574524), (19581214, 0), (0, 100)],
    [(6124680540627, 0), (0, 389862594), (0, 5399), (0, 1)], [(3435616006, 0), (0, 83484)]], 3, 4⟩,
    ⟨[[(15029712773855232, 0), (0, 2694853709933808), (9235661372, 0), (0, 686907), (0, 43)], [(0,
    20863371358567906), (93985080433, 0), (14419183, 0), (952, 0)], [(2773297067332, 0), (0, 51634997), (0, 4714)],
    [(0, 495249394), (0, 42118), (0, 4)]], 3, 4⟩, 72057594037927936, 199049737915, 65382306441, ⟨[[(4803199340221,
    0), (3536317175, 0), (2250688, 0), (0, 642)], [(0, 2755415666), (0, 6111206), (0, 3857), (3, 0)], [(3921441, 0),
    (10544, 0), (2, 0)], [(0, 6542), (0, 16)]], 3, 4⟩, 17592186044416, 1317404,
    4776570810423625411377329741365480055062331888151809638382045399797106581562962692688750338213104350971940464306309274150792003,
    lc0⟩) (.out ⟨770, 16, 2079, 3398, 16, 3219, ⟨[[(24689295519350784, 0), (0, 3380754463221653), (41014366369, 0)],
    [(11088985294986513, 0), (0, 1466400406889), (18302667, 0)], [(6283953571375, 0), (0, 382804099), (0, 5099)]], 2,
    2⟩, ⟨[[(0, 27733241726566400), (0, 2651927120727300), (9689918556, 0)], [(0, 20333362187903744), (88132977070,
    0), (13801313, 0)], [(2674433643626, 0), (0, 55880112), (0, 5072)]], 2, 2⟩, 72057594037927936, 37241739444605,
    14858494685538, ⟨[], 0, 0⟩, 0, 0, 0, lc0⟩ 2 1 16480395451308))) (.out ⟨373, 16, 978, 1700, 16, 1615, ⟨[[(0,
    12704256993337344), (0, 3288960365256127), (78924955920, 0)], [(11576344735267675, 0), (0, 2868476483696),
    (67191198, 0)], [(13281291447032, 0), (0, 1483531855), (0, 33055)]], 2, 2⟩, ⟨[[(28587577703923712, 0), (0,
    2661066060100863), (22000738515, 0)], [(0, 20089222667174958), (148981482533, 0), (50120876, 0)],
    [(5243298133924, 0), (0, 239746023), (0, 43031)]], 2, 2⟩, 72057594037927936, 149143565485660, 53135632239038,
    ⟨[], 0, 0⟩, 0, 0, 0, lc0⟩ 2 1 25147985344486))) (.sx (.sx (.leaf ⟨494, 16, 1209, 90, 16, 2246, ⟨[[(0,
    11299127150522368), (0, 3558825573076026), (88783384333, 0), (1877729, 0), (330, 0)], [(9383010485385463, 0), (0,
    3023444758313), (95584480, 0), (1619, 0)], [(9936741423071, 0), (0, 1597202762), (0, 60446), (0, 14)],
    [(12551711963, 0), (0, 890229), (0, 34)]], 3, 4⟩, ⟨[[(0, 31335866074380288), (0, 2652729112318666), (9757615785,
    0), (0, 3914857), (0, 463)], [(0, 21242129877312213), (258088630678, 0), (70782757, 0), (9319, 0), (1, 0)],
    [(5900396906717, 0), (0, 136137832), (0, 24159), (0, 2)], [(0, 2762437956), (0, 494898), (0, 92)]], 3, 4⟩,
    72057594037927936, 1636654975510, 516942154487, ⟨[[(5028932889366, 0), (8103656575, 0), (10053978, 0), (0, 6366),
    (10, 0)], [(0, 6052039171), (0, 27584081), (0, 28392), (43, 0)], [(17613095, 0), (89594, 0), (0, 6)], [(0,
    59395), (0, 251)]], 3, 4⟩, 17592186044416, 31614731,
    3524656815705050807349883180907466086853135866954663475940372164701389983180534383330368590392529332099921441547425638447779072,
    lc0⟩) (.sx (.leaf ⟨536, 16, 1300, 101, 16, 2833, ⟨[[(0, 30422044172361728), (0, 3930834682911955), (98638051136,
    0), (2058828, 0), (369, 0)], [(5401816373627871, 0), (0, 1680998767357), (49296674, 0), (388, 0)],
    [(3002761253819, 0), (0, 451187202), (0, 16902), (0, 4)], [(1823306976, 0), (0, 111274), (0, 2)]], 3, 4⟩,
    ⟨[[(26039328872509440, 0), (0, 3335964082629240), (15086399829, 0), (0, 4570554), (0, 544)], [(0,
    13167483079873341), (156462247066, 0), (43513514, 0), (5780, 0), (1, 0)], [(1782646504709, 0), (0, 56960261), (0,
    10231), (0, 1)], [(0, 389522538), (0, 70373), (0, 13)]], 3, 4⟩, 72057594037927936, 160343403604, 115135350340,
    ⟨[[(4923914263001, 0), (6170276959, 0), (6358536, 0), (0, 3275), (4, 0)], [(0, 5240137113), (0, 19331561), (0,
    17369), (21, 0)], [(13823811, 0), (59153, 0), (1, 0)], [(0, 42882), (0, 159)]], 3, 4⟩, 17592186044416, 19724189,
    4267893764276700221535764560142311390364121826561710798744965343933174791949603452106307294993141577964397074482167184944837403,
    lc0⟩) (.sy (.leaf ⟨957, 16, 2280, 160, 16, 4561, ⟨[[(17233660405202944, 0), (0, 3531734208758866), (43817649272,
    0), (412827, 0), (39, 0)], [(10313338552812029, 0), (0, 1518383874056), (20985576, 0), (0, 6)], [(5781644684996,
    0), (0, 404025779), (0, 6861), (0, 1)], [(3388462316, 0), (0, 92259)]], 3, 4⟩, ⟨[[(17480333686175744, 0), (0,
    2683744749139556), (7436738517, 0), (0, 820217), (0, 50)], [(0, 20990707406131700), (113412471673, 0), (16301929,
    0), (1084, 0)], [(2807026465073, 0), (0, 50381829), (0, 4570)], [(0, 564623841), (0, 50029), (0, 5)]], 3, 4⟩,
    72057594037927936, 205721203329, 68211967997, ⟨[[(4864881946806, 0), (3707490819, 0), (2394363, 0), (0, 743), (1,
    0)], [(0, 2825314237), (0, 6437167), (0, 3826), (3, 0)], [(4085965, 0), (11049, 0), (1, 0)], [(0, 6963), (0,
    17)]], 3, 4⟩, 17592186044416, 1374554,
    4610870108744449396985429671069240425307053620228614853721998787055569223924917673416667568760071994648692152438982004944402252,
    lc0⟩) (.out ⟨786, 16, 2292, 3367, 16, 3202, ⟨[[(14197324718604288, 0), (0, 3505763509791680), (44735198095, 0)],
    [(9606695523604026, 0), (0, 1505190130952), (21115635, 0)], [(5606339951112, 0), (0, 413727047), (0, 8213)]], 2,
    2⟩, ⟨[[(0, 17356726249881600), (0, 2631027280137937), (6018889237, 0)], [(0, 20570680946922950), (128389948068,
    0), (17717292, 0)], [(2732879040574, 0), (0, 54207788), (0, 4854)]], 2, 2⟩, 72057594037927936, 39645729486250,
    20644490040894, ⟨[], 0, 0⟩, 0, 0, 0, lc0⟩ 2 1 17740914504485)))) (.out ⟨304, 16, 855, 1210, 16, 1158, ⟨[[(0,
    27010834961768448), (0, 2754433989808855), (69397099773, 0)], [(16863625698571621, 0), (0, 4789088113349),
    (116507639, 0)], [(40854209259317, 0), (0, 5215857614), (0, 176823)]], 2, 2⟩, ⟨[[(13934695155367936, 0), (0,
    1896685948601969), (12145223837, 0)], [(0, 28993451225754173), (310296560428, 0), (90973660, 0)],
    [(14967208924858, 0), (0, 767670552), (0, 138491)]], 2, 2⟩, 72057594037927936, 900600641196223, 146046856799801,
    ⟨[], 0, 0⟩, 0, 0, 0, lc0⟩ 2 1 34186643320322))
theorem c122 : checkR job con0 true ⟨7, 9, 7, 9, 13, 17⟩ 1 28336 t122 411 21 320 30243 251 32000 = true := by decide +kernel

end PyX.Kron.V3b
