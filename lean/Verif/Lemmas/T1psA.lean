import Verif.Lemmas.T1psJob

/-!
# Temperature from pressure and entropy in region 1, part A of the certificate
-/

namespace PyX.Kron.T1ps

set_option Elab.async false

def t0 : CTree :=
  .sy (.sy (.sy (.sy (.leaf ⟨750, 51, 8, 475, 16, 231, ⟨[[(219550481834496, 0)], [(0, 1861112546010858)]], 2, 3⟩,
    ⟨[[(593534248224768, 0), (384287411524770, 0), (0, 24876698974), (0, 33123)], [(11857478892162, 0), (8770006241,
    0), (0, 2188393), (1014, 0)], [(0, 2183038852), (2460489, 0), (0, 1446), (1, 0)]], 2, 3⟩, 4503599627370496, 249,
    2505256444336, ⟨[[(305235131630815, 0), (334963101209, 0), (153971828, 0), (92763, 0)], [(2219099062, 0),
    (20730485, 0), (0, 19600), (83, 0)], [(1445016, 0), (0, 10649), (14, 0)]], 2, 3⟩, 1099511627776, 953890,
    45787008887027680663723148059415141103848604852718160653845631668096630389719859934898494, lc0⟩) (.leaf ⟨750, 51,
    8, 524, 16, 240, ⟨[[(219550481834496, 0)], [(0, 1861112546010858)]], 2, 3⟩, ⟨[[(0, 129381674658304),
    (381279081517261, 0), (0, 25377822779), (824639, 0)], [(15268397696775, 0), (7832443040, 0), (0, 1468930), (547,
    0)], [(0, 1523141442), (1781600, 0), (0, 800)]], 2, 3⟩, 4503599627370496, 249, 1416253723915,
    ⟨[[(315201272029711, 0), (331331039695, 0), (150161923, 0), (81673, 0)], [(2812747093, 0), (19051180, 0), (0,
    11444), (73, 0)], [(1144306, 0), (0, 9475), (13, 0)]], 2, 3⟩, 1099511627776, 1405960,
    37175274118111074863912585969994064845012539088622570816635144316927769317789799623388905, lc0⟩)) (.leaf ⟨750,
    51, 8, 302, 16, 128, ⟨[[(219550481834496, 0)], [(0, 1861112546010858)]], 2, 3⟩, ⟨[[(1554609567012608, 0),
    (379196130782313, 0), (0, 50358589750), (5617475, 0)], [(10154777881071, 0), (7079643163, 0), (0, 1887297),
    (1057, 0)], [(0, 404208384), (1288808, 0), (0, 779), (1, 0)]], 2, 3⟩, 4503599627370496, 249, 6507076584848,
    ⟨[[(329474182481150, 0), (645850882215, 0), (563881958, 0), (524943, 0)], [(3602653853, 0), (34627445, 0), (0,
    8507), (459, 0)], [(766133, 0), (0, 15812), (42, 0)]], 2, 3⟩, 1099511627776, 14677400,
    34380312801657168442988199424875717758745297110475898995991820543026936044624331765265580, lc0⟩)) (.sy (.leaf
    ⟨750, 51, 8, 361, 16, 140, ⟨[[(219550481834496, 0)], [(0, 1861112546010858)]], 2, 3⟩, ⟨[[(2181524262987776, 0),
    (378528174387462, 0), (0, 48373045907), (6333824, 0)], [(13604684071285, 0), (6625929496, 0), (0, 1232971), (542,
    0)], [(0, 28601481), (1006484, 0), (0, 384)]], 2, 3⟩, 4503599627370496, 249, 3527584554414, ⟨[[(348050275338174,
    0), (620539145471, 0), (507471181, 0), (381933, 0)], [(4577495521, 0), (32194278, 0), (24180, 0), (328, 0)],
    [(355114, 0), (0, 12359), (33, 0)]], 2, 3⟩, 1099511627776, 16192303,
    32015090602367035928661758251974406629299270248285802087730355259525366969176939787191321, lc0⟩) (.leaf ⟨750, 51,
    8, 423, 16, 152, ⟨[[(219550481834496, 0)], [(0, 1861112546010858)]], 2, 3⟩, ⟨[[(194004515695104, 0),
    (376648262738715, 0), (0, 45699515708), (6050486, 0)], [(17146576760588, 0), (6436570220, 0), (0, 867439), (343,
    0)], [(309915844, 0), (878024, 0), (0, 222)]], 2, 3⟩, 4503599627370496, 249, 3441476250146, ⟨[[(366225005460273,
    0), (599135137743, 0), (457402067, 0), (277654, 0)], [(5525723328, 0), (31647780, 0), (43399, 0), (235, 0)],
    [(27389, 0), (0, 9755), (24, 0)]], 2, 3⟩, 1099511627776, 18032539,
    24804892082540368653863140505639913173758114556110622758642633800304778337828784656489782, lc0⟩))) (.sy (.sy
    (.leaf ⟨750, 51, 8, 487, 16, 164, ⟨[[(219550481834496, 0)], [(0, 1861112546010858)]], 2, 3⟩, ⟨[[(0,
    1161627626573824), (374140713471001, 0), (0, 42994675834), (5506715, 0)], [(20830452408134, 0), (6407106050, 0),
    (0, 622495), (241, 0)], [(641550470, 0), (820176, 0), (0, 134)]], 2, 3⟩, 4503599627370496, 249, 2974136264257,
    ⟨[[(383594221066000, 0), (579949486334, 0), (412297838, 0), (200150, 0)], [(6463597196, 0), (32123498, 0),
    (53667, 0), (170, 0)], [(0, 230663), (0, 7858), (17, 0)]], 2, 3⟩, 1099511627776, 20152446,
    16552196957135259376183302084082770470981356761054306167601066275878448047282229583706735, lc0⟩) (.leaf ⟨750, 51,
    8, 555, 16, 177, ⟨[[(219550481834496, 0)], [(0, 1861112546010858)]], 2, 3⟩, ⟨[[(2245866149947904, 0),
    (373376635809080, 0), (0, 40685175551), (4976865, 0)], [(24829736239154, 0), (6529098753, 0), (0, 444593), (180,
    0)], [(987715845, 0), (810410, 0), (0, 74)]], 2, 3⟩, 4503599627370496, 249, 2563989480321, ⟨[[(399700274260461,
    0), (558561559200, 0), (367182826, 0), (139945, 0)], [(7381727153, 0), (32813205, 0), (57480, 0), (124, 0)], [(0,
    432680), (0, 6498), (11, 0)]], 2, 3⟩, 1099511627776, 22734722,
    23815892671088073373688281399369909152040649116290901731518113329702891107107826597306700, lc0⟩)) (.sy (.leaf
    ⟨750, 51, 8, 623, 16, 189, ⟨[[(219550481834496, 0)], [(0, 1861112546010858)]], 2, 3⟩, ⟨[[(48830835522560, 0),
    (370123947943768, 0), (0, 38322211422), (4470731, 0)], [(28902647838562, 0), (6702725765, 0), (0, 303217), (139,
    0)], [(1350094704, 0), (828695, 0), (0, 28)]], 2, 3⟩, 4503599627370496, 249, 2276788784425, ⟨[[(415888425373507,
    0), (542961109976, 0), (331670866, 0), (95869, 0)], [(8364380232, 0), (34066400, 0), (59335, 0), (95, 0)], [(0,
    609311), (0, 5583), (6, 0)]], 2, 3⟩, 1099511627776, 27259683,
    28671351890406392648721553653091707629759187712924517559376571613985123137838565735250033, lc0⟩) (.leaf ⟨750, 51,
    8, 692, 16, 201, ⟨[[(219550481834496, 0)], [(0, 1861112546010858)]], 2, 3⟩, ⟨[[(417371935741952, 0),
    (366749158948427, 0), (0, 36155778506), (4032670, 0)], [(33199006347100, 0), (6951684021, 0), (0, 188656), (110,
    0)], [(1742374234, 0), (875182, 0), (11, 0)]], 2, 3⟩, 4503599627370496, 249, 2126440851873, ⟨[[(431177324745878,
    0), (528007568675, 0), (299544088, 0), (62310, 0)], [(9355034839, 0), (35324229, 0), (59301, 0), (77, 0)], [(0,
    760006), (0, 5022), (2, 0)]], 2, 3⟩, 1099511627776, 33405344,
    27900918310492635073898774167298140856558783195043725390803558061770379691970992824263242, lc0⟩)))
theorem c0 : checkC job ⟨6, 8, 5, 6, 9, 13⟩ 1 40 B1.zlims t0 457 121 320 667 175 1896 = true := by decide +kernel

def t1 : CTree :=
  .sy (.sy (.sy (.sy (.leaf ⟨650, 51, 8, 474, 16, 230, ⟨[[(190277084256256, 0)], [(0, 1861112546010858)]], 2, 3⟩,
    ⟨[[(0, 1440120548553728), (384884786691975, 0), (0, 25382767750), (266389, 0)], [(10706115439170, 0),
    (9972285654, 0), (0, 2902752), (1468, 0)], [(0, 2376414055), (2682043, 0), (0, 1555), (1, 0)]], 2, 3⟩,
    4503599627370496, 212, 2367361292635, ⟨[[(305380886802439, 0), (334563294472, 0), (157701054, 0), (85495, 0)],
    [(1954346100, 0), (22912853, 0), (0, 22289), (85, 0)], [(1433499, 0), (0, 10671), (14, 0)]], 2, 3⟩,
    1099511627776, 855139, 49739460821820301527253879346809374503941894744337063358586301628392141691888555781479763,
    lc0⟩) (.leaf ⟨650, 51, 8, 523, 16, 239, ⟨[[(190277084256256, 0)], [(0, 1861112546010858)]], 2, 3⟩, ⟨[[(0,
    1870014706418176), (381685122873517, 0), (0, 25674185551), (979686, 0)], [(14437620169718, 0), (8699339612, 0),
    (0, 1866635), (767, 0)], [(0, 1655831013), (1947592, 0), (0, 875)]], 2, 3⟩, 4503599627370496, 212, 1371642178442,
    ⟨[[(315322992032380, 0), (331070805048, 0), (152968957, 0), (75281, 0)], [(2608799219, 0), (21001738, 0), (0,
    13804), (74, 0)], [(1132636, 0), (0, 9493), (13, 0)]], 2, 3⟩, 1099511627776, 1246887,
    43850585060275171098670551433607993622034550512102527559597739755562167129933663712232746, lc0⟩)) (.leaf ⟨650,
    51, 8, 303, 16, 128, ⟨[[(190277084256256, 0)], [(0, 1861112546010858)]], 2, 3⟩, ⟨[[(0, 515881222900480),
    (380987149934044, 0), (0, 50862620290), (5914690, 0)], [(9950725090954, 0), (7731886252, 0), (0, 2285541), (1405,
    0)], [(0, 439346452), (1409283, 0), (0, 869), (1, 0)]], 2, 3⟩, 4503599627370496, 212, 5993391507808,
    ⟨[[(329764370944301, 0), (643361661399, 0), (566590607, 0), (478039, 0)], [(3487294589, 0), (37760403, 0), (0,
    15552), (465, 0)], [(749423, 0), (0, 15758), (42, 0)]], 2, 3⟩, 1099511627776, 13071241,
    42917643397505606040756435447804606038408669629576831775390566300365818291671984252185894, lc0⟩)) (.sy (.leaf
    ⟨650, 51, 8, 360, 16, 139, ⟨[[(190277084256256, 0)], [(0, 1861112546010858)]], 2, 3⟩, ⟨[[(0, 1676204990322432),
    (377476518981675, 0), (0, 48346941683), (6434156, 0)], [(13493231218185, 0), (7081973464, 0), (0, 1419267), (668,
    0)], [(0, 30172835), (1082518, 0), (0, 426)]], 2, 3⟩, 4503599627370496, 212, 3761411531890, ⟨[[(348578645609241,
    0), (623257435091, 0), (514360370, 0), (355237, 0)], [(4561866095, 0), (34980896, 0), (19593, 0), (342, 0)],
    [(333237, 0), (0, 12407), (32, 0)]], 2, 3⟩, 1099511627776, 15450664,
    23665696283542991444701632148526993103733894864396618185284949428513112441606242184037042, lc0⟩) (.leaf ⟨650, 51,
    8, 421, 16, 151, ⟨[[(190277084256256, 0)], [(0, 1861112546010858)]], 2, 3⟩, ⟨[[(807546073764352, 0),
    (375770065805027, 0), (0, 45620729925), (6100610, 0)], [(17188601352018, 0), (6832272607, 0), (0, 973616), (404,
    0)], [(332941689, 0), (939251, 0), (0, 242)]], 2, 3⟩, 4503599627370496, 212, 3581209616466, ⟨[[(366142567708187,
    0), (600538292713, 0), (459934041, 0), (258225, 0)], [(5547230915, 0), (33894368, 0), (39720, 0), (248, 0)],
    [(14889, 0), (0, 9896), (23, 0)]], 2, 3⟩, 1099511627776, 17425295,
    19206966078125830670550472507628796356072579386501007362908101695702472547156399958292065, lc0⟩))) (.sy (.sy
    (.leaf ⟨650, 51, 8, 485, 16, 163, ⟨[[(190277084256256, 0)], [(0, 1861112546010858)]], 2, 3⟩, ⟨[[(0,
    472329803390208), (373449346829214, 0), (0, 42890162259), (5535648, 0)], [(21023836903850, 0), (6777299001, 0),
    (0, 684795), (278, 0)], [(687916905, 0), (877333, 0), (0, 140)]], 2, 3⟩, 4503599627370496, 212, 3089585698322,
    ⟨[[(383508418844164, 0), (580995332435, 0), (412650690, 0), (185326, 0)], [(6543571071, 0), (34019859, 0),
    (51495, 0), (183, 0)], [(0, 247563), (0, 8063), (16, 0)]], 2, 3⟩, 1099511627776, 19818366,
    17737033315104083895526309651800327620982225314160939401520210198779294093101375088306379, lc0⟩) (.leaf ⟨650, 51,
    8, 554, 16, 176, ⟨[[(190277084256256, 0)], [(0, 1861112546010858)]], 2, 3⟩, ⟨[[(0, 1350871012204544),
    (372886697426538, 0), (0, 40566603406), (4995299, 0)], [(25182957240650, 0), (6897620004, 0), (0, 477517), (207,
    0)], [(1059364166, 0), (870942, 0), (0, 72)]], 2, 3⟩, 4503599627370496, 212, 2685761254759, ⟨[[(400151840541455,
    0), (559932518282, 0), (366485313, 0), (127716, 0)], [(7543408289, 0), (34576202, 0), (56914, 0), (135, 0)], [(0,
    462826), (0, 6779), (9, 0)]], 2, 3⟩, 1099511627776, 22934501,
    10735827999290644790738618250633624498050723398769733051885514780330216154624892352608276, lc0⟩)) (.sy (.leaf
    ⟨650, 51, 8, 621, 16, 188, ⟨[[(190277084256256, 0)], [(0, 1861112546010858)]], 2, 3⟩, ⟨[[(1248663001716224, 0),
    (369828750483082, 0), (0, 38193918727), (4482959, 0)], [(29424969524196, 0), (7083535599, 0), (0, 313136), (159,
    0)], [(1450316972, 0), (897697, 0), (0, 19)]], 2, 3⟩, 4503599627370496, 212, 2414140018750, ⟨[[(415749430101942,
    0), (543221020603, 0), (329603746, 0), (86379, 0)], [(8534821680, 0), (35565144, 0), (59399, 0), (107, 0)], [(0,
    642878), (0, 6020), (3, 0)]], 2, 3⟩, 1099511627776, 27764437,
    15507938963988432711567491324844978619927130533436705166339120287751091146900117935701583, lc0⟩) (.leaf ⟨650, 51,
    8, 690, 16, 200, ⟨[[(190277084256256, 0)], [(0, 1861112546010858)]], 2, 3⟩, ⟨[[(2015960962157568, 0),
    (366651096734299, 0), (0, 36020429222), (4041169, 0)], [(33906586484218, 0), (7358987358, 0), (0, 179085), (127,
    0)], [(1876641041, 0), (957518, 0), (26, 0)]], 2, 3⟩, 4503599627370496, 212, 2290707943674, ⟨[[(430995119458874,
    0), (527901231458, 0), (296801189, 0), (54005, 0)], [(9563899211, 0), (36741240, 0), (60246, 0), (88, 0)], [(0,
    807911), (0, 5630), (0, 2)]], 2, 3⟩, 1099511627776, 34580540,
    15082121033589946807057497829401767635236976957958101850231482078228863104870199061795508, lc0⟩)))
theorem c1 : checkC job ⟨6, 8, 5, 6, 9, 13⟩ 1 40 B1.zlims t1 699 121 320 667 175 1896 = true := by decide +kernel

def t2 : CTree :=
  .sx (.sy (.sy (.leaf ⟨750, 51, 8, 408, 16, 112, ⟨[[(219550481834496, 0)], [(0, 1861112546010858)]], 2, 3⟩,
    ⟨[[(1357800908208640, 0), (369848128218894, 0), (0, 67966302860), (14264506, 0)], [(20511646946303, 0),
    (7615533678, 0), (0, 101165), (335, 0)], [(1231067552, 0), (1016041, 0), (126, 0)]], 2, 3⟩, 4503599627370496,
    249, 34712957185184, ⟨[[(452898806874850, 0), (991285131635, 0), (983602803, 0), (195219, 0)], [(10876512790, 0),
    (72632170, 0), (221680, 0), (482, 0)], [(0, 961680), (0, 9130), (0, 12)]], 2, 3⟩, 1099511627776, 191055635,
    27632245222078747472789646766831481261444170106765522780841164116383889197932797148270008, lc0⟩) (.leaf ⟨750, 51,
    8, 490, 16, 126, ⟨[[(219550481834496, 0)], [(0, 1861112546010858)]], 2, 3⟩, ⟨[[(0, 1182279834413312),
    (367921737756304, 0), (0, 61822358239), (12082023, 0)], [(26074817919819, 0), (8608409507, 0), (209263, 0), (253,
    0)], [(1807532168, 0), (1285389, 0), (260, 0)]], 2, 3⟩, 4503599627370496, 249, 20795046891868,
    ⟨[[(480963945947973, 0), (929563453447, 0), (782114150, 0), (0, 36405)], [(13057032998, 0), (76492942, 0),
    (211772, 0), (472, 0)], [(0, 1229558), (0, 9402), (0, 33)]], 2, 3⟩, 1099511627776, 197412471,
    24619526778876242973250178282727525114945491725591969474148728306524210124951325257932140, lc0⟩)) (.sy (.leaf
    ⟨750, 51, 8, 570, 16, 139, ⟨[[(219550481834496, 0)], [(0, 1861112546010858)]], 2, 3⟩, ⟨[[(328901255983616, 0),
    (362630507662878, 0), (0, 55912590263), (10247016, 0)], [(32128252190875, 0), (9751085346, 0), (484715, 0), (212,
    0)], [(2530051008, 0), (1657784, 0), (396, 0)]], 2, 3⟩, 4503599627370496, 249, 14375456284725,
    ⟨[[(506330271153487, 0), (880290864644, 0), (634587981, 0), (0, 158957)], [(15259503297, 0), (80638907, 0),
    (212487, 0), (537, 0)], [(0, 1509194), (0, 10672), (0, 47)]], 2, 3⟩, 1099511627776, 229100150,
    33349442845155307877459917231279515053257547797620544214611126724648356116677011603632935, lc0⟩) (.leaf ⟨750, 51,
    8, 657, 16, 153, ⟨[[(219550481834496, 0)], [(0, 1861112546010858)]], 2, 3⟩, ⟨[[(0, 279623035486720),
    (359892549884457, 0), (0, 51064809017), (8805537, 0)], [(39195732183683, 0), (11187486458, 0), (758373, 0), (199,
    0)], [(3481678264, 0), (2170269, 0), (551, 0)]], 2, 3⟩, 4503599627370496, 249, 11664248329803,
    ⟨[[(530449415428578, 0), (830336298125, 0), (508639974, 0), (0, 224556)], [(17592410606, 0), (84855839, 0),
    (219424, 0), (600, 0)], [(0, 1835941), (0, 12606), (0, 61)]], 2, 3⟩, 1099511627776, 285314755,
    35203551745114297243259355240895551466444007429886466443466795854687383349873844726163007, lc0⟩))) (.sy (.sy
    (.leaf ⟨650, 51, 8, 406, 16, 111, ⟨[[(190277084256256, 0)], [(0, 1861112546010858)]], 2, 3⟩, ⟨[[(0,
    1060134796290816), (368433593887550, 0), (0, 67375474301), (14224465, 0)], [(20944263630500, 0), (8062661268, 0),
    (0, 28061), (391, 0)], [(1327357221, 0), (1125141, 0), (175, 0)]], 2, 3⟩, 4503599627370496, 212, 34926698054181,
    ⟨[[(453434958170189, 0), (996005794830, 0), (979336383, 0), (132877, 0)], [(11200180540, 0), (76062723, 0),
    (232976, 0), (579, 0)], [(0, 1049724), (0, 11050), (0, 34)]], 2, 3⟩, 1099511627776, 210483185,
    16367424083652919997458515657736277358889171973230912195076236979509240493268876061031699, lc0⟩) (.leaf ⟨650, 51,
    8, 487, 16, 125, ⟨[[(190277084256256, 0)], [(0, 1861112546010858)]], 2, 3⟩, ⟨[[(1192218930231808, 0),
    (367146464058214, 0), (0, 61264888059), (12053185, 0)], [(26776963043630, 0), (9199620832, 0), (351121, 0), (305,
    0)], [(1968441801, 0), (1456094, 0), (339, 0)]], 2, 3⟩, 4503599627370496, 212, 21170237440843,
    ⟨[[(480472052243380, 0), (930559067422, 0), (772500333, 0), (0, 95201)], [(13387030508, 0), (79676137, 0),
    (225799, 0), (560, 0)], [(0, 1374899), (0, 12340), (0, 59)]], 2, 3⟩, 1099511627776, 218169207,
    15790294953745568061645162357816790532587517089038224195410232833051270745314321257469347, lc0⟩)) (.sy (.leaf
    ⟨650, 51, 8, 568, 16, 138, ⟨[[(190277084256256, 0)], [(0, 1861112546010858)]], 2, 3⟩, ⟨[[(0, 1262925244951552),
    (362465871550461, 0), (0, 55368632373), (10230738, 0)], [(33177495121315, 0), (10541219466, 0), (699715, 0),
    (267, 0)], [(2787426761, 0), (1919013, 0), (515, 0)]], 2, 3⟩, 4503599627370496, 212, 14968063518220,
    ⟨[[(506636538833875, 0), (881035632990, 0), (620250557, 0), (0, 232859)], [(15761123150, 0), (84739656, 0),
    (232185, 0), (636, 0)], [(0, 1768448), (0, 15083), (0, 81)]], 2, 3⟩, 1099511627776, 255586495,
    18018150343909248044039975764183117389193092917692100978769681380749438223753231962535494, lc0⟩) (.leaf ⟨650, 51,
    8, 650, 16, 151, ⟨[[(190277084256256, 0)], [(0, 1861112546010858)]], 2, 3⟩, ⟨[[(2141740268038656, 0),
    (357992954419886, 0), (0, 50181169280), (8745061, 0)], [(40445735479695, 0), (12172394335, 0), (1052001, 0),
    (259, 0)], [(3860321168, 0), (2548872, 0), (721, 0)]], 2, 3⟩, 4503599627370496, 212, 12496123766618,
    ⟨[[(529994225954833, 0), (834172974661, 0), (497487473, 0), (0, 307564)], [(18137572545, 0), (89847115, 0),
    (244637, 0), (715, 0)], [(0, 2224282), (0, 18511), (0, 100)]], 2, 3⟩, 1099511627776, 313211273,
    15459104011656601903480205823819162089273050522787177486729792320663202295536022514853488, lc0⟩)))
theorem c2 : checkC job ⟨6, 8, 5, 6, 9, 13⟩ 1 40 B1.zlims t2 289 121 160 1017 175 1896 = true := by decide +kernel

def t3 : CTree :=
  .sx (.sy (.sy (.sy (.sy (.leaf ⟨550, 51, 8, 472, 16, 229, ⟨[[(161003686678528, 0)], [(0, 1861112546010858)]], 2,
    3⟩, ⟨[[(728728650790144, 0), (385775680534853, 0), (0, 26065116268), (676833, 0)], [(9460198921542, 0),
    (11285660993, 0), (0, 3672508), (1945, 0)], [(0, 2594370977), (2942833, 0), (0, 1689), (1, 0)]], 2, 3⟩,
    4503599627370496, 97, 2122314944958, ⟨[[(305220094046934, 0), (333635443372, 0), (161484035, 0), (78001, 0)],
    [(1669200966, 0), (25153865, 0), (0, 25268), (86, 0)], [(1432612, 0), (0, 10721), (14, 0)]], 2, 3⟩,
    1099511627776, 784110, 48465014202821290500449359075462347393144744898153435803292850342534340256731764157986323,
    lc0⟩) (.leaf ⟨550, 51, 8, 521, 16, 238, ⟨[[(161003686678528, 0)], [(0, 1861112546010858)]], 2, 3⟩,
    ⟨[[(669645147297792, 0), (382301909348615, 0), (0, 26069352936), (1189016, 0)], [(13542573444351, 0),
    (9649084227, 0), (0, 2302375), (1003, 0)], [(0, 1802539011), (2140216, 0), (0, 965), (1, 0)]], 2, 3⟩,
    4503599627370496, 97, 1287793406209, ⟨[[(315135624942185, 0), (330316168778, 0), (155814712, 0), (68687, 0)],
    [(2386644292, 0), (22991261, 0), (0, 16410), (76, 0)], [(1130412, 0), (0, 9537), (13, 0)]], 2, 3⟩, 1099511627776,
    1169807, 44708295003887909687026649642220799928864522503578439591027143776940212460249870357066389, lc0⟩)) (.leaf
    ⟨550, 51, 8, 301, 16, 127, ⟨[[(161003686678528, 0)], [(0, 1861112546010858)]], 2, 3⟩, ⟨[[(197505289381376, 0),
    (379951658788167, 0), (0, 51066549798), (6251267, 0)], [(9653135938408, 0), (8380626053, 0), (0, 2710258), (1776,
    0)], [(0, 472901772), (1534944, 0), (0, 969), (1, 0)]], 2, 3⟩, 4503599627370496, 97, 5257765425789,
    ⟨[[(329659849162660, 0), (644887116774, 0), (578038184, 0), (441192, 0)], [(3352642468, 0), (41219749, 0), (0,
    23726), (484, 0)], [(742646, 0), (0, 15883), (42, 0)]], 2, 3⟩, 1099511627776, 11993790,
    44458258635089740056019159931816503950841344242920114440365953439892441087104022889718290, lc0⟩)) (.sy (.leaf
    ⟨550, 51, 8, 360, 16, 139, ⟨[[(161003686678528, 0)], [(0, 1861112546010858)]], 2, 3⟩, ⟨[[(1587392981679360, 0),
    (379255533466315, 0), (0, 48716332140), (6613111, 0)], [(13478718766647, 0), (7628198535, 0), (0, 1637710), (815,
    0)], [(0, 29353049), (1176402, 0), (0, 478)]], 2, 3⟩, 4503599627370496, 97, 4106357144740, ⟨[[(348125783675494,
    0), (619635057693, 0), (512720235, 0), (320610, 0)], [(4495449567, 0), (37468791, 0), (13236, 0), (351, 0)],
    [(330928, 0), (0, 12472), (31, 0)]], 2, 3⟩, 1099511627776, 14261242,
    17370392054834237276815512918757481790172627077880987046157035774733590526739261840202542, lc0⟩) (.leaf ⟨550, 51,
    8, 422, 16, 151, ⟨[[(161003686678528, 0)], [(0, 1861112546010858)]], 2, 3⟩, ⟨[[(483666226801152, 0),
    (377479912753944, 0), (0, 45870970251), (6207188, 0)], [(17357060518499, 0), (7304777888, 0), (0, 1096396), (478,
    0)], [(364225512, 0), (1014679, 0), (0, 266)]], 2, 3⟩, 4503599627370496, 97, 3770495816654, ⟨[[(366185483351285,
    0), (597962598518, 0), (456890308, 0), (232175, 0)], [(5580656360, 0), (35956077, 0), (35924, 0), (259, 0)],
    [(73, 0), (0, 9966), (22, 0)]], 2, 3⟩, 1099511627776, 16441130,
    19109829579178227793278705688741080265428502062709495182438370395880896403643460537158671, lc0⟩))) (.sy (.sy
    (.leaf ⟨550, 51, 8, 486, 16, 163, ⟨[[(161003686678528, 0)], [(0, 1861112546010858)]], 2, 3⟩, ⟨[[(153249022973184,
    0), (375142167127038, 0), (0, 43064250234), (5608335, 0)], [(21370905805966, 0), (7218634301, 0), (0, 754559),
    (323, 0)], [(747901675, 0), (947792, 0), (0, 148)]], 2, 3⟩, 4503599627370496, 97, 3237975568802,
    ⟨[[(383429475173650, 0), (578327889304, 0), (408151502, 0), (165748, 0)], [(6629708963, 0), (35749075, 0),
    (49098, 0), (194, 0)], [(0, 265054), (0, 8226), (14, 0)]], 2, 3⟩, 1099511627776, 19405708,
    17465758251744221473838486418740386252893864339645995770439593476370766541585941398339808, lc0⟩) (.leaf ⟨550, 51,
    8, 552, 16, 175, ⟨[[(161003686678528, 0)], [(0, 1861112546010858)]], 2, 3⟩, ⟨[[(0, 389065696390144),
    (372479879691243, 0), (0, 40455168925), (5020332, 0)], [(25571005835467, 0), (7295132605, 0), (0, 508888), (237,
    0)], [(1143743372, 0), (940213, 0), (0, 69)]], 2, 3⟩, 4503599627370496, 97, 2815864394130, ⟨[[(400035549958946,
    0), (560423914541, 0), (365407722, 0), (114673, 0)], [(7679181261, 0), (36296000, 0), (56518, 0), (151, 0)], [(0,
    487222), (0, 7098), (6, 0)]], 2, 3⟩, 1099511627776, 23475782,
    12064894116910456334865110628917067962385233990059350119243709196518190857709474385578293, lc0⟩)) (.leaf ⟨550,
    51, 8, 329, 16, 97, ⟨[[(161003686678528, 0)], [(0, 1861112546010858)]], 2, 3⟩, ⟨[[(0, 1364503583674112),
    (370051449164124, 0), (0, 74284155731), (17161830, 0)], [(16235596200054, 0), (7679784272, 0), (0, 475101), (654,
    0)], [(901975127, 0), (1016335, 0), (39, 0)]], 2, 3⟩, 4503599627370496, 97, 68048294033073, ⟨[[(423963601694744,
    0), (1066832950243, 0), (1228843054, 0), (456341, 0)], [(9295846692, 0), (75351454, 0), (244425, 0), (879, 0)],
    [(0, 776772), (0, 12603), (0, 14), (0, 1)]], 2, 3⟩, 1099511627776, 226380022,
    12184098643704631315720483618706404425990775828645492306548954410955340704214054967521746, lc0⟩))) (.sy (.sy (.sy
    (.sy (.leaf ⟨450, 51, 8, 469, 16, 227, ⟨[[(131730289100544, 0)], [(0, 1861112546010858)]], 2, 3⟩, ⟨[[(0,
    2217929053126400), (385290448475984, 0), (0, 26819596447), (1198528, 0)], [(8072851793406, 0), (12672603987, 0),
    (0, 4489594), (2439, 0)], [(0, 2824043376), (3228165, 0), (0, 1839), (1, 0)]], 2, 3⟩, 4503599627370496, 107,
    1760986991995, ⟨[[(305442468806384, 0), (334304475460, 0), (167295204, 0), (71142, 0)], [(1413572657, 0),
    (27475318, 0), (0, 28253), (89, 0)], [(1420251, 0), (0, 10789), (14, 0)]], 2, 3⟩, 1099511627776, 830934,
    42081688050786312719487147881485047624952778501792669246364523957115354063204482982669111, lc0⟩) (.leaf ⟨450, 51,
    8, 520, 16, 237, ⟨[[(131730289100544, 0)], [(0, 1861112546010858)]], 2, 3⟩, ⟨[[(0, 1533083479906816),
    (383149992198322, 0), (0, 26572963149), (1456441, 0)], [(12576855140336, 0), (10694091324, 0), (0, 2783442),
    (1257, 0)], [(0, 1962963144), (2359204, 0), (0, 1070), (1, 0)]], 2, 3⟩, 4503599627370496, 107, 1131732806440,
    ⟨[[(315300056879838, 0), (329683468420, 0), (159134874, 0), (61811, 0)], [(2190310269, 0), (24959422, 0), (0,
    18811), (78, 0)], [(1118602, 0), (0, 9555), (13, 0)]], 2, 3⟩, 1099511627776, 1148397,
    42881050020371778756020815956701855652782715792656867519208444960824455880299446241939300, lc0⟩)) (.leaf ⟨450,
    51, 8, 299, 16, 126, ⟨[[(131730289100544, 0)], [(0, 1861112546010858)]], 2, 3⟩, ⟨[[(818705221939712, 0),
    (379064137636021, 0), (0, 51373764127), (6678692, 0)], [(9340754451135, 0), (9087965656, 0), (0, 3182998), (2185,
    0)], [(0, 507893445), (1675588, 0), (0, 1083), (1, 0)]], 2, 3⟩, 4503599627370496, 107, 4804722454689,
    ⟨[[(329571045326808, 0), (646127304674, 0), (590531583, 0), (401605, 0)], [(3220765657, 0), (44727956, 0), (0,
    32036), (504, 0)], [(735764, 0), (0, 16010), (42, 0)]], 2, 3⟩, 1099511627776, 11260960,
    42206488462993809896685932938547391933317535127719997818858223691971851787803637691077563, lc0⟩)) (.sy (.leaf
    ⟨450, 51, 8, 358, 16, 138, ⟨[[(131730289100544, 0)], [(0, 1861112546010858)]], 2, 3⟩, ⟨[[(2155905294740992, 0),
    (378430195964706, 0), (0, 48788200807), (6781006, 0)], [(13368389414907, 0), (8163332125, 0), (0, 1869198), (976,
    0)], [(0, 25589043), (1271961, 0), (0, 532)]], 2, 3⟩, 4503599627370496, 107, 4501457714096, ⟨[[(348045609338072,
    0), (620838128886, 0), (519665793, 0), (290848, 0)], [(4453247525, 0), (40267962, 0), (7796, 0), (369, 0)],
    [(321180, 0), (0, 12590), (31, 0)]], 2, 3⟩, 1099511627776, 13546526,
    13914204044295599976579505801778596361667570222178156359291028663461932030046828740034418, lc0⟩) (.leaf ⟨450, 51,
    8, 420, 16, 150, ⟨[[(131730289100544, 0)], [(0, 1861112546010858)]], 2, 3⟩, ⟨[[(1095924546860800, 0),
    (376796714785975, 0), (0, 45846707520), (6290970, 0)], [(17426046569513, 0), (7764140999, 0), (0, 1223002), (559,
    0)], [(399354310, 0), (1091641, 0), (0, 290)]], 2, 3⟩, 4503599627370496, 107, 3964371912466, ⟨[[(366103105870979,
    0), (598959575923, 0), (460081146, 0), (209300, 0)], [(5611525337, 0), (38265579, 0), (32717, 0), (276, 0)], [(0,
    12924), (0, 10117), (21, 0)]], 2, 3⟩, 1099511627776, 16198020,
    18228019661232822931730325967694084324474959860293685531942864149348909716579950858989242, lc0⟩))) (.sy (.sy
    (.leaf ⟨450, 51, 8, 484, 16, 162, ⟨[[(131730289100544, 0)], [(0, 1861112546010858)]], 2, 3⟩, ⟨[[(916470212710144,
    0), (374633534735019, 0), (0, 42990286930), (5657756, 0)], [(21616016970708, 0), (7648985042, 0), (0, 822835),
    (373, 0)], [(813067425, 0), (1020886, 0), (0, 154)]], 2, 3⟩, 4503599627370496, 107, 3384232096404,
    ⟨[[(383331791262864, 0), (579019559326, 0), (408805007, 0), (147621, 0)], [(6720661380, 0), (37737624, 0),
    (47714, 0), (212, 0)], [(0, 282802), (0, 8448), (12, 0)]], 2, 3⟩, 1099511627776, 19438028,
    15884995874085114337782732339945576438524857687218131938944412121950779658205038598983689, lc0⟩) (.leaf ⟨450, 51,
    8, 550, 16, 174, ⟨[[(131730289100544, 0)], [(0, 1861112546010858)]], 2, 3⟩, ⟨[[(636100693835776, 0),
    (372163095337827, 0), (0, 40350353570), (5052840, 0)], [(25999915848728, 0), (7725842574, 0), (0, 537873), (271,
    0)], [(1241438486, 0), (1019067, 0), (0, 63)]], 2, 3⟩, 4503599627370496, 107, 2959452165095, ⟨[[(399909499253978,
    0), (560762514974, 0), (364306144, 0), (99723, 0)], [(7822178707, 0), (38092790, 0), (56709, 0), (169, 0)], [(0,
    512389), (0, 7432), (4, 0)]], 2, 3⟩, 1099511627776, 23927824,
    12420928086558763224508337542689374575487422232127079962957397353163202088126981603947492, lc0⟩)) (.leaf ⟨450,
    51, 8, 330, 16, 97, ⟨[[(131730289100544, 0)], [(0, 1861112546010858)]], 2, 3⟩, ⟨[[(0, 1884679302472192),
    (371971503404019, 0), (0, 74396124159), (17332164, 0)], [(16692058363972, 0), (8197132187, 0), (0, 447035), (756,
    0)], [(986245303, 0), (1124237, 0), (79, 0)]], 2, 3⟩, 4503599627370496, 107, 68901456397765, ⟨[[(424086507950652,
    0), (1061577802263, 0), (1205280571, 0), (350400, 0)], [(9532853876, 0), (78476575, 0), (251712, 0), (1015, 0)],
    [(0, 824715), (0, 13703), (0, 31), (0, 1)]], 2, 3⟩, 1099511627776, 236933106,
    9519532798947592810144524833618462384361972772609434557652114273245584187216406230627288, lc0⟩)))
theorem c3 : checkC job ⟨6, 8, 5, 6, 9, 13⟩ 1 40 B1.zlims t3 531 121 160 667 175 1896 = true := by decide +kernel

def t4 : CTree :=
  .sy (.sy (.leaf ⟨500, 101, 8, 389, 16, 106, ⟨[[(146366987889664, 0)], [(0, 3722225092021715)]], 2, 3⟩,
    ⟨[[(620782054715648, 0), (354782647055615, 0), (0, 64324354524), (13737605, 0)], [(41973177359267, 0),
    (17105635523, 0), (255466, 0), (959, 0)], [(5820915373, 0), (5142395, 0), (1058, 0), (1, 0)]], 2, 3⟩,
    4503599627370496, 130, 50729453993961, ⟨[[(453060122998833, 0), (1033423753014, 0), (1034622170, 0), (24203, 0)],
    [(11639579088, 0), (84248863, 0), (274905, 0), (865, 0)], [(0, 1177712), (0, 14575), (0, 73), (0, 1)]], 2, 3⟩,
    1099511627776, 622267216,
    9419504859269487484387334655786822319421596137755542878861464329012457477651456735477776, lc0⟩) (.leaf ⟨500, 101,
    8, 458, 16, 117, ⟨[[(146366987889664, 0)], [(0, 3722225092021715)]], 2, 3⟩, ⟨[[(705377866194688, 0),
    (346967669013142, 0), (0, 57176553575), (11402998, 0)], [(53013275435605, 0), (19425399887, 0), (1225670, 0),
    (778, 0)], [(8585428359, 0), (6755435, 0), (1908, 0), (1, 0)]], 2, 3⟩, 4503599627370496, 130, 43755997157727,
    ⟨[[(480562472039122, 0), (984732232433, 0), (839647445, 0), (0, 255879)], [(14026253777, 0), (91001720, 0),
    (290518, 0), (901, 0)], [(0, 1619266), (0, 18186), (0, 117), (0, 1)]], 2, 3⟩, 1099511627776, 924056557,
    10944759755746353441115990589250413627860476543550411678719214118242371408098286489155495, lc0⟩)) (.sy (.leaf
    ⟨500, 101, 8, 529, 16, 128, ⟨[[(146366987889664, 0)], [(0, 3722225092021715)]], 2, 3⟩, ⟨[[(634559799879168, 0),
    (340004211229883, 0), (0, 51048167470), (9598532, 0)], [(65634539622469, 0), (22484068428, 0), (2158789, 0),
    (728, 0)], [(12267892334, 0), (9135563, 0), (2911, 0), (1, 0)]], 2, 3⟩, 4503599627370496, 130, 47673912389271,
    ⟨[[(506253742058868, 0), (938668069010, 0), (675091426, 0), (0, 447048)], [(16556399344, 0), (98585224, 0),
    (313296, 0), (1026, 0)], [(0, 2174352), (0, 23657), (0, 157), (0, 1)]], 2, 3⟩, 1099511627776, 1363167285,
    12370763856140775122963350339205775910059450676131036577237121589672991970805857450873816, lc0⟩) (.leaf ⟨500,
    101, 8, 593, 16, 137, ⟨[[(146366987889664, 0)], [(0, 3722225092021715)]], 2, 3⟩, ⟨[[(1051578580708352, 0),
    (329145456571769, 0), (0, 45081573676), (8042528, 0)], [(78988125111904, 0), (25963084131, 0), (3108093, 0),
    (753, 0)], [(16973998730, 0), (12303223, 0), (4130, 0), (1, 0)]], 2, 3⟩, 4503599627370496, 130, 59188750958491,
    ⟨[[(530176879487764, 0), (907649490554, 0), (550804541, 0), (0, 602623)], [(19239629655, 0), (108828226, 0),
    (355501, 0), (1228, 0)], [(0, 2878898), (0, 31021), (0, 199), (0, 1)]], 2, 3⟩, 1099511627776, 1983407520,
    14331422711008516240980964404461521582083472226285949737377447300546061719445779028174676, lc0⟩))
theorem c4 : checkC job ⟨6, 8, 5, 6, 9, 13⟩ 1 40 B1.zlims t4 531 121 160 1017 175 1896 = true := by decide +kernel

def t5 : CTree :=
  .sy (.sy (.sx (.leaf ⟨750, 51, 8, 742, 16, 166, ⟨[[(219550481834496, 0)], [(0, 1861112546010858)]], 2, 3⟩, ⟨[[(0,
    1438121995655680), (354936923900553, 0), (0, 46474662108), (7547592, 0)], [(46884237344593, 0), (12790925514, 0),
    (1039705, 0), (200, 0)], [(4679894314, 0), (2816492, 0), (723, 0)]], 2, 3⟩, 4503599627370496, 249,
    10877855581721, ⟨[[(553141389767096, 0), (790001593810, 0), (412867822, 0), (0, 266854)], [(20045696416, 0),
    (90429733, 0), (234891, 0), (640, 0)], [(0, 2226360), (0, 15435), (0, 82)]], 2, 3⟩, 1099511627776, 369873419,
    25976635790908693167907411950987283290941446028517827352059564355898177811752981153474982, lc0⟩) (.leaf ⟨650, 51,
    8, 735, 16, 164, ⟨[[(190277084256256, 0)], [(0, 1861112546010858)]], 2, 3⟩, ⟨[[(1335216200522240, 0),
    (353892523266327, 0), (0, 45619794493), (7512629, 0)], [(48706791712854, 0), (14121662226, 0), (1430827, 0),
    (271, 0)], [(5264903562, 0), (3380538, 0), (970, 0)]], 2, 3⟩, 4503599627370496, 212, 12203831796647,
    ⟨[[(552647291095454, 0), (791843676359, 0), (395932059, 0), (0, 356649)], [(20729711470, 0), (96358467, 0),
    (265303, 0), (779, 0)], [(0, 2799707), (0, 22942), (0, 121), (0, 1)]], 2, 3⟩, 1099511627776, 398549599,
    25506936911873310139481406539359460326035944587242988193373639209694149282434949437298131, lc0⟩)) (.sx (.leaf
    ⟨750, 51, 8, 828, 16, 179, ⟨[[(219550481834496, 0)], [(0, 1861112546010858)]], 2, 3⟩, ⟨[[(984293035129344, 0),
    (350428926086694, 0), (0, 42471526020), (6491332, 0)], [(55529780956291, 0), (14655427790, 0), (1342736, 0),
    (208, 0)], [(6210655169, 0), (3632689, 0), (924, 0)]], 2, 3⟩, 4503599627370496, 249, 11473214523590,
    ⟨[[(573846706467336, 0), (751877818223, 0), (333975400, 0), (0, 295037)], [(22553594379, 0), (96410498, 0),
    (249362, 0), (615, 0)], [(0, 2690686), (0, 19414), (0, 118), (0, 1)]], 2, 3⟩, 1099511627776, 460339713,
    35565218939131241561633159345317891466309633624087553706129036471023722458353088568785248, lc0⟩) (.leaf ⟨650, 51,
    8, 817, 16, 176, ⟨[[(190277084256256, 0)], [(0, 1861112546010858)]], 2, 3⟩, ⟨[[(1598578609922048, 0),
    (348267729729409, 0), (0, 41380698451), (6441786, 0)], [(57775496754558, 0), (16336654585, 0), (1841213, 0),
    (293, 0)], [(7056429488, 0), (4434809, 0), (1270, 0)]], 2, 3⟩, 4503599627370496, 212, 13471035147001,
    ⟨[[(573735905218881, 0), (756487668416, 0), (315021192, 0), (0, 394707)], [(23462127839, 0), (104440407, 0),
    (291458, 0), (815, 0)], [(0, 3497769), (0, 28534), (0, 152), (0, 1)]], 2, 3⟩, 1099511627776, 502727399,
    34354119176162801701001935994316043524564735550437642774677009795242453100788454433443874, lc0⟩))) (.sy (.sx
    (.leaf ⟨750, 51, 8, 907, 16, 190, ⟨[[(219550481834496, 0)], [(0, 1861112546010858)]], 2, 3⟩, ⟨[[(0,
    639745905400320), (342762675588559, 0), (0, 38586268320), (5537769, 0)], [(64570820530642, 0), (16633979373, 0),
    (1653365, 0), (213, 0)], [(8068699476, 0), (4600087, 0), (1148, 0)]], 2, 3⟩, 4503599627370496, 249,
    13108919571112, ⟨[[(593991984867352, 0), (724369849262, 0), (272220791, 0), (0, 330198)], [(25294163528, 0),
    (104534427, 0), (266580, 0), (547, 0)], [(0, 3305667), (0, 26230), (0, 188), (0, 1)]], 2, 3⟩, 1099511627776,
    563149009, 37954480365626919318943545149275842339691023303234660945316434174954307034398224879538874, lc0⟩)
    (.leaf ⟨650, 51, 8, 896, 16, 187, ⟨[[(190277084256256, 0)], [(0, 1861112546010858)]], 2, 3⟩, ⟨[[(283380361324544,
    0), (341599546979965, 0), (0, 37508312227), (5513015, 0)], [(67714729300685, 0), (18842396508, 0), (2287014, 0),
    (319, 0)], [(9323235356, 0), (5754539, 0), (1637, 0)]], 2, 3⟩, 4503599627370496, 212, 16193234675642,
    ⟨[[(593837186361219, 0), (726734860105, 0), (247388923, 0), (0, 429083)], [(26425425146, 0), (114428883, 0),
    (321342, 0), (829, 0)], [(0, 4368167), (0, 36065), (0, 201), (0, 1)]], 2, 3⟩, 1099511627776, 617002857,
    34663721910189770202068470254428569026003273356045433595745631021252422347285045357526424, lc0⟩)) (.sx (.leaf
    ⟨750, 51, 8, 986, 16, 201, ⟨[[(219550481834496, 0)], [(0, 1861112546010858)]], 2, 3⟩, ⟨[[(2175424714699776, 0),
    (336039891403435, 0), (0, 35281715013), (4734844, 0)], [(74691896474282, 0), (18902801916, 0), (1979061, 0),
    (210, 0)], [(10395717047, 0), (5784532, 0), (1412, 0)]], 2, 3⟩, 4503599627370496, 249, 15903840126197,
    ⟨[[(612295230010429, 0), (696977630118, 0), (218261502, 0), (0, 349586)], [(28087332677, 0), (112391385, 0),
    (273918, 0), (428, 0)], [(0, 4106882), (0, 36881), (0, 303), (0, 2)]], 2, 3⟩, 1099511627776, 630911111,
    37898903593453053235483276074756418464496305196933720892395992908590310346799271193762584, lc0⟩) (.leaf ⟨650, 51,
    8, 971, 16, 197, ⟨[[(190277084256256, 0)], [(0, 1861112546010858)]], 2, 3⟩, ⟨[[(0, 334696573440000),
    (334198418814266, 0), (0, 34017205091), (4704859, 0)], [(78592943664404, 0), (21660634901, 0), (2764634, 0),
    (340, 0)], [(12169028769, 0), (7392822, 0), (2088, 0)]], 2, 3⟩, 4503599627370496, 212, 20521393767308,
    ⟨[[(612677837991405, 0), (701050046678, 0), (189646712, 0), (0, 450774)], [(29594620936, 0), (125962573, 0),
    (352673, 0), (854, 0)], [(0, 5447942), (0, 46332), (0, 274), (0, 1)]], 2, 3⟩, 1099511627776, 732101396,
    33558238758695558955262430436533228004522247787448570338054961857758042610995790907872527, lc0⟩)))
theorem c5 : checkC job ⟨6, 8, 5, 6, 9, 13⟩ 1 40 B1.zlims t5 289 121 160 1367 175 1896 = true := by decide +kernel

def t6 : CTree :=
  .sy (.sx (.sy (.leaf ⟨750, 51, 8, 1062, 16, 211, ⟨[[(219550481834496, 0)], [(0, 1861112546010858)]], 2, 3⟩,
    ⟨[[(63645156593664, 0), (328537346143517, 0), (0, 32330348358), (4028415, 0)], [(85616695944467, 0),
    (21374970499, 0), (2292708, 0), (185, 0)], [(13229109506, 0), (7190392, 0), (1717, 0)]], 2, 3⟩, 4503599627370496,
    249, 19906628626021, ⟨[[(630323061639196, 0), (673924633550, 0), (171737310, 0), (0, 341550)], [(31159671789, 0),
    (121227326, 0), (276341, 0), (321, 0)], [(0, 5299937), (0, 55458), (0, 503), (0, 4)]], 2, 3⟩, 1099511627776,
    661214893, 32408068838791223789467322481915503930224221668514662722072132855455586543878666696965345, lc0⟩)
    (.leaf ⟨750, 51, 8, 1133, 16, 220, ⟨[[(219550481834496, 0)], [(0, 1861112546010858)]], 2, 3⟩,
    ⟨[[(251820876368896, 0), (320394935853489, 0), (0, 29733130891), (3399012, 0)], [(97369440844135, 0),
    (24023785561, 0), (2560608, 0), (124, 0)], [(16647655358, 0), (8845540, 0), (2069, 0)]], 2, 3⟩, 4503599627370496,
    249, 25324777066293, ⟨[[(647034577698928, 0), (653887438947, 0), (135636379, 0), (0, 257521)], [(34320645417, 0),
    (129900955, 0), (276909, 0), (340, 0)], [(0, 7039254), (0, 85144), (0, 813), (0, 6)]], 2, 3⟩, 1099511627776,
    824933041, 37108080065613773140289659159508143683472843262245621258498290087136936901865250327190396, lc0⟩)) (.sy
    (.leaf ⟨650, 51, 8, 1042, 16, 206, ⟨[[(190277084256256, 0)], [(0, 1861112546010858)]], 2, 3⟩, ⟨[[(0,
    2167920785728512), (326255162346606, 0), (0, 30908207511), (3994324, 0)], [(90480392792310, 0), (24803911943, 0),
    (3261023, 0), (347, 0)], [(15716129794, 0), (9415698, 0), (2647, 0)]], 2, 3⟩, 4503599627370496, 212,
    26802283785467, ⟨[[(630652954476860, 0), (678783228296, 0), (139844858, 0), (0, 437649)], [(33047472632, 0),
    (139367461, 0), (390349, 0), (985, 0)], [(0, 6833306), (0, 60855), (0, 381), (0, 2)]], 2, 3⟩, 1099511627776,
    789004058, 23151490193017528333094592008773274539053078198798049620582167763464294157379225865834589, lc0⟩)
    (.leaf ⟨650, 51, 8, 1102, 16, 213, ⟨[[(190277084256256, 0)], [(0, 1861112546010858)]], 2, 3⟩,
    ⟨[[(1327617056448512, 0), (316387426562480, 0), (0, 28048151631), (3341462, 0)], [(102959494501983, 0),
    (28135635210, 0), (3733487, 0), (325, 0)], [(20015640310, 0), (11849910, 0), (3325, 0), (1, 0)]], 2, 3⟩,
    4503599627370496, 212, 35345783569866, ⟨[[(646870415162765, 0), (662200001681, 0), (102490102, 0), (0, 350748)],
    [(36597600673, 0), (154591943, 0), (446162, 0), (1383, 0)], [(0, 8526364), (0, 80187), (0, 521), (0, 3)]], 2, 3⟩,
    1099511627776, 990299807,
    12519946811788481866567810627007324190150482018042630948343571290672287702061432698604724, lc0⟩))) (.sx (.sy
    (.leaf ⟨750, 51, 8, 1199, 16, 228, ⟨[[(219550481834496, 0)], [(0, 1861112546010858)]], 2, 3⟩,
    ⟨[[(1156134674015232, 0), (311681424261013, 0), (0, 27490977124), (2826007, 0)], [(109953732720664, 0),
    (26789397198, 0), (2731117, 0), (9, 0)], [(20737288502, 0), (10781640, 0), (2476, 0)]], 2, 3⟩, 4503599627370496,
    249, 32453822151371, ⟨[[(662756645897855, 0), (636870528633, 0), (115199571, 0), (0, 25203)], [(37593235862, 0),
    (138845859, 0), (291150, 0), (677, 0)], [(0, 9635657), (0, 131512), (0, 1277), (0, 9)]], 2, 3⟩, 1099511627776,
    1043031421, 32129528550920406017583405693496925625529506523361070571230020144037746253009829830480028, lc0⟩) (.sx
    (.sy (.leaf ⟨775, 26, 8, 2548, 16, 478, ⟨[[(226868831228928, 0)], [(0, 930556273005429)]], 2, 3⟩,
    ⟨[[(894017425530880, 0), (310423742283109, 0), (0, 13419044049), (622040, 0)], [(119900983290397, 0),
    (14050513214, 0), (622754, 0), (0, 22)], [(11747621938, 0), (2923716, 0), (316, 0)]], 2, 3⟩, 4503599627370496,
    172, 5400890092599, ⟨[[(674200431212904, 0), (307324407627, 0), (29216394, 0), (35567, 0)], [(39329968466, 0),
    (66503663, 0), (54633, 0), (70, 0)], [(0, 12520229), (0, 97667), (0, 490), (0, 2)]], 2, 3⟩, 1099511627776,
    182799217, 29938703582432075568121149238101356773219032799631588696544672340701285770970732757400561, lc0⟩)
    (.leaf ⟨775, 26, 8, 2610, 16, 485, ⟨[[(226868831228928, 0)], [(0, 930556273005429)]], 2, 3⟩, ⟨[[(0,
    1671880152584192), (305661507117588, 0), (0, 12992305202), (556644, 0)], [(126722856143791, 0), (14688690766, 0),
    (600870, 0), (0, 38)], [(12998091834, 0), (3198493, 0), (342, 0)]], 2, 3⟩, 4503599627370496, 172, 6160630087000,
    ⟨[[(681695549579210, 0), (304375475630, 0), (32369070, 0), (76700, 0)], [(40981562756, 0), (68322884, 0), (60352,
    0), (136, 0)], [(0, 15212189), (0, 122944), (0, 610), (0, 2)]], 2, 3⟩, 1099511627776, 296894381,
    47414027985240932385541235484837914757464390259891259471633466633559541604367818714558550, lc0⟩)) (.sx (.leaf
    ⟨830, 16, 9, 1519, 16, 283, ⟨[[(0, 1164497163024384)], [(0, 523437903565554)]], 2, 3⟩, ⟨[[(0, 1242445887115264),
    (365267656609760, 0), (0, 30739537117), (2748764, 0)], [(37605609597251, 0), (9143692802, 0), (877671, 0), (0,
    48)], [(1985717720, 0), (1026764, 0), (239, 0)]], 2, 3⟩, 4503599627370496, 352, 1944103401189,
    ⟨[[(678109492722461, 0), (516335707700, 0), (82464749, 0), (284804, 0)], [(36944682076, 0), (114702817, 0),
    (247634, 0), (1046, 0)], [(0, 10750342), (0, 127939), (0, 993), (0, 5)]], 2, 3⟩, 1099511627776, 369325039,
    35319102034392341697505378716875060742266814955996068243542729925120100900800921627947282, lc0⟩) (.leaf ⟨802, 16,
    9, 1510, 16, 281, ⟨[[(0, 1735680259514368)], [(0, 523437903565554)]], 2, 3⟩, ⟨[[(106814090586112, 0),
    (364945003566324, 0), (0, 30296826885), (2720091, 0)], [(38324571439474, 0), (9596376621, 0), (994977, 0), (0,
    28)], [(2099700515, 0), (1120523, 0), (275, 0)]], 2, 3⟩, 4503599627370496, 238, 2048833133347,
    ⟨[[(677963355004003, 0), (516945087685, 0), (77277316, 0), (282949, 0)], [(37751219349, 0), (123342450, 0),
    (309165, 0), (1402, 0)], [(0, 10661624), (0, 115929), (0, 835), (0, 4)]], 2, 3⟩, 1099511627776, 368182859,
    43795532862610825016551497376280955633544762465690793537281461824230374865592060227788323, lc0⟩)))) (.sy (.leaf
    ⟨650, 51, 8, 1158, 16, 219, ⟨[[(190277084256256, 0)], [(0, 1861112546010858)]], 2, 3⟩, ⟨[[(0, 572890267905024),
    (306287772669471, 0), (0, 25602801095), (2742764, 0)], [(116468580712532, 0), (31730770152, 0), (4156178, 0),
    (263, 0)], [(25291519046, 0), (14829768, 0), (4169, 0), (1, 0)]], 2, 3⟩, 4503599627370496, 212, 47014921607823,
    ⟨[[(663000596154827, 0), (648394920023, 0), (79668701, 0), (0, 91830)], [(40636100248, 0), (174352413, 0),
    (553380, 0), (2406, 0)], [(0, 10821376), (0, 107709), (0, 708), (0, 3)]], 2, 3⟩, 1099511627776, 1342633943,
    20955120530156509997540028496319519335898844327386477813559753238116841001572180086019592, lc0⟩) (.sx (.sy (.leaf
    ⟨675, 26, 8, 2455, 16, 458, ⟨[[(197595433650688, 0)], [(0, 930556273005429)]], 2, 3⟩, ⟨[[(0, 1980313103400960),
    (304691766480487, 0), (0, 12482702281), (592174, 0)], [(127195294108214, 0), (16723350476, 0), (990322, 0), (10,
    0)], [(14397547356, 0), (4052161, 0), (540, 0)]], 2, 3⟩, 4503599627370496, 225, 7918956228435,
    ⟨[[(674409452015297, 0), (313533464268, 0), (22802882, 0), (38902, 0)], [(42923098806, 0), (89456724, 0),
    (148544, 0), (397, 0)], [(0, 12716314), (0, 70844), (0, 262), (0, 1)]], 2, 3⟩, 1099511627776, 94439128,
    23977151640434123747371913088846605328103768466211247753400740274727865572000193392525260, lc0⟩) (.leaf ⟨675, 26,
    8, 2505, 16, 463, ⟨[[(197595433650688, 0)], [(0, 930556273005429)]], 2, 3⟩, ⟨[[(0, 194209943273472),
    (299395206934275, 0), (0, 12031462273), (520828, 0)], [(134623892457151, 0), (17608860101, 0), (1005155, 0), (0,
    2)], [(16057523523, 0), (4497326, 0), (600, 0)]], 2, 3⟩, 4503599627370496, 225, 9196262851187,
    ⟨[[(681617077447932, 0), (311266436067, 0), (26460110, 0), (84625, 0)], [(45059450130, 0), (95936062, 0),
    (177510, 0), (550, 0)], [(0, 14488215), (0, 83056), (0, 305), (0, 1)]], 2, 3⟩, 1099511627776, 179288869,
    48332805000546762805221261164408515880485071735430582964054585381944533834668498866197332, lc0⟩)) (.leaf ⟨625,
    26, 8, 1366, 16, 253, ⟨[[(182958734861824, 0)], [(0, 930556273005429)]], 2, 3⟩, ⟨[[(1685987973258240, 0),
    (336715817507006, 0), (0, 26304026731), (2465361, 0)], [(76239726629596, 0), (21391763803, 0), (2913526, 0),
    (158, 0)], [(9643639997, 0), (5830705, 0), (1746, 0)]], 2, 3⟩, 4503599627370496, 135, 10775414632519,
    ⟨[[(677746410954385, 0), (560190630476, 0), (54159478, 0), (280943, 0)], [(45963825588, 0), (185214782, 0),
    (640566, 0), (3364, 0)], [(0, 13951401), (0, 114800), (0, 518), (0, 1)]], 2, 3⟩, 1099511627776, 603628537,
    44843655411403528316242727809270321448962426333617009223832071867806122322737570922805118, lc0⟩))))
theorem c6 : checkC job ⟨6, 8, 5, 6, 9, 13⟩ 1 40 B1.zlims t6 289 121 160 1717 175 1896 = true := by decide +kernel

def t7 : CTree :=
  .sy (.sy (.sx (.leaf ⟨550, 51, 8, 729, 16, 162, ⟨[[(161003686678528, 0)], [(0, 1861112546010858)]], 2, 3⟩, ⟨[[(0,
    64694891771904), (353162296338860, 0), (0, 44658722946), (7498680, 0)], [(50813513698051, 0), (15746258466, 0),
    (1961710, 0), (384, 0)], [(5988318145, 0), (4124048, 0), (1334, 0)]], 2, 3⟩, 4503599627370496, 97,
    13966782127282, ⟨[[(552893660092718, 0), (793831565861, 0), (373068369, 0), (0, 473550)], [(21652181434, 0),
    (104733284, 0), (309175, 0), (957, 0)], [(0, 3441536), (0, 31603), (0, 172), (0, 1)]], 2, 3⟩, 1099511627776,
    438272142, 22198458142519618144964715809930179506784793933051570499151402434402883494002886000043629, lc0⟩)
    (.leaf ⟨450, 51, 8, 718, 16, 159, ⟨[[(131730289100544, 0)], [(0, 1861112546010858)]], 2, 3⟩,
    ⟨[[(1108742435585536, 0), (350618213411962, 0), (0, 43279230645), (7472033, 0)], [(52943478531671, 0),
    (17654530525, 0), (2686328, 0), (568, 0)], [(6851913814, 0), (5100730, 0), (1879, 0), (1, 0)]], 2, 3⟩,
    4503599627370496, 107, 16381652216722, ⟨[[(552688773110680, 0), (799544436234, 0), (348593225, 0), (0, 628619)],
    [(22685505929, 0), (115786025, 0), (370527, 0), (1205, 0)], [(0, 4123607), (0, 41489), (0, 237), (0, 1)]], 2, 3⟩,
    1099511627776, 487698256,
    13423847277273244205019946700235246013265514824093506890307989618812572310786064893588616, lc0⟩)) (.sx (.leaf
    ⟨550, 51, 8, 807, 16, 173, ⟨[[(161003686678528, 0)], [(0, 1861112546010858)]], 2, 3⟩, ⟨[[(0, 1939071997687296),
    (346493686867365, 0), (0, 40154577741), (6418203, 0)], [(60423674707820, 0), (18435519843, 0), (2538911, 0),
    (439, 0)], [(8125593431, 0), (5530083, 0), (1808, 0)]], 2, 3⟩, 4503599627370496, 97, 16245758781266,
    ⟨[[(574335273948418, 0), (760947159368, 0), (288064542, 0), (0, 529907)], [(24687097164, 0), (115641498, 0),
    (348949, 0), (1042, 0)], [(0, 4421043), (0, 39675), (0, 207), (0, 1)]], 2, 3⟩, 1099511627776, 562149867,
    29789827624958545870405315854319041361498469863650660580402861908939944385278587255492214, lc0⟩) (.leaf ⟨450, 51,
    8, 791, 16, 169, ⟨[[(131730289100544, 0)], [(0, 1861112546010858)]], 2, 3⟩, ⟨[[(907668036077568, 0),
    (343185871508804, 0), (0, 38507273687), (6402347, 0)], [(63217440741485, 0), (20995115325, 0), (3532627, 0),
    (693, 0)], [(9450043653, 0), (7039580, 0), (2659, 0), (1, 0)]], 2, 3⟩, 4503599627370496, 107, 20173246662286,
    ⟨[[(573860016838817, 0), (768062765696, 0), (257366987, 0), (0, 708485)], [(25996168647, 0), (129779453, 0),
    (425360, 0), (1340, 0)], [(0, 5391072), (0, 52728), (0, 287), (0, 1)]], 2, 3⟩, 1099511627776, 632191987,
    17492034084376964387029572604602813045198872021022459962595560630946744352366458687006265, lc0⟩))) (.sy (.sx
    (.leaf ⟨550, 51, 8, 881, 16, 183, ⟨[[(161003686678528, 0)], [(0, 1861112546010858)]], 2, 3⟩, ⟨[[(0,
    1880693144582144), (339115316426323, 0), (0, 36056518167), (5491923, 0)], [(71091113172062, 0), (21556833165, 0),
    (3195647, 0), (509, 0)], [(10896640174, 0), (7360867, 0), (2427, 0), (1, 0)]], 2, 3⟩, 4503599627370496, 97,
    20549078263187, ⟨[[(594194602563145, 0), (732350718974, 0), (215527357, 0), (0, 577006)], [(27929810008, 0),
    (128524894, 0), (393371, 0), (1114, 0)], [(0, 5599962), (0, 49285), (0, 250), (0, 1)]], 2, 3⟩, 1099511627776,
    709158740, 32333326385550616693276378209399124311084405182045117835696597782433723301203052644620017, lc0⟩)
    (.leaf ⟨450, 51, 8, 860, 16, 178, ⟨[[(131730289100544, 0)], [(0, 1861112546010858)]], 2, 3⟩,
    ⟨[[(1736555851340288, 0), (335387570725131, 0), (0, 34157507681), (5501760, 0)], [(74812110441613, 0),
    (25001638008, 0), (4555937, 0), (868, 0)], [(12927332821, 0), (9690969, 0), (3754, 0), (1, 0)]], 2, 3⟩,
    4503599627370496, 107, 27116216472267, ⟨[[(593613562529893, 0), (740264019069, 0), (176296810, 0), (0, 779677)],
    [(29608423967, 0), (146534387, 0), (488495, 0), (1471, 0)], [(0, 6943386), (0, 66267), (0, 349), (0, 1)]], 2, 3⟩,
    1099511627776, 827063918,
    21801580773340331011649761750554428778673920458417097950913680138435403028338899937126156, lc0⟩)) (.sx (.leaf
    ⟨550, 51, 8, 946, 16, 191, ⟨[[(161003686678528, 0)], [(0, 1861112546010858)]], 2, 3⟩, ⟨[[(0, 1744218145915904),
    (329565766974216, 0), (0, 32193784040), (4669004, 0)], [(82505609081233, 0), (25036130685, 0), (3923075, 0),
    (589, 0)], [(14398711352, 0), (9688032, 0), (3227, 0), (1, 0)]], 2, 3⟩, 4503599627370496, 97, 27184468952139,
    ⟨[[(612908279732266, 0), (711009147052, 0), (153003993, 0), (0, 620854)], [(31463974104, 0), (144495828, 0),
    (448533, 0), (1240, 0)], [(0, 7027764), (0, 61253), (0, 304), (0, 1)]], 2, 3⟩, 1099511627776, 881616685,
    27297495053700147333104317619782467640659075253619079371083820649022959678230279340759571, lc0⟩) (.leaf ⟨450, 51,
    8, 920, 16, 185, ⟨[[(131730289100544, 0)], [(0, 1861112546010858)]], 2, 3⟩, ⟨[[(1788335309580288, 0),
    (325697480816150, 0), (0, 30044346749), (4715932, 0)], [(87469462121613, 0), (29652759591, 0), (5778305, 0),
    (1094, 0)], [(17490429704, 0), (13257964, 0), (5278, 0), (2, 0)]], 2, 3⟩, 4503599627370496, 107, 38287024652186,
    ⟨[[(612358904359999, 0), (719263207249, 0), (102427440, 0), (0, 854252)], [(33634415090, 0), (167587701, 0),
    (568431, 0), (1671, 0)], [(0, 8857042), (0, 83365), (0, 430), (0, 2)]], 2, 3⟩, 1099511627776, 1096407369,
    34449434565538691749254727440819285068930602255636835559527907966950101657362454995581761, lc0⟩)))
theorem c7 : checkC job ⟨6, 8, 5, 6, 9, 13⟩ 1 40 B1.zlims t7 531 121 160 1367 175 1896 = true := by decide +kernel

def t8 : CTree :=
  .sx (.sy (.leaf ⟨550, 51, 8, 1011, 16, 199, ⟨[[(161003686678528, 0)], [(0, 1861112546010858)]], 2, 3⟩,
    ⟨[[(163911829103104, 0), (321563199450723, 0), (0, 28917017730), (3975952, 0)], [(95618724314473, 0),
    (29179458399, 0), (4766123, 0), (680, 0)], [(18982533920, 0), (12763454, 0), (4308, 0), (1, 0)]], 2, 3⟩,
    4503599627370496, 97, 37284858134378, ⟨[[(630307632878565, 0), (688466244611, 0), (96156028, 0), (0, 620399)],
    [(35268679126, 0), (161979446, 0), (509457, 0), (1479, 0)], [(0, 8715668), (0, 74868), (0, 354), (0, 1)]], 2, 3⟩,
    1099511627776, 1053417994,
    21947614668774589375393513155390232825413555224823836372576265227550923000200258514586848, lc0⟩) (.leaf ⟨550, 51,
    8, 1066, 16, 205, ⟨[[(161003686678528, 0)], [(0, 1861112546010858)]], 2, 3⟩, ⟨[[(2209886671692800, 0),
    (311814847019138, 0), (0, 25896865293), (3339215, 0)], [(109654652922783, 0), (33761943074, 0), (5681502, 0),
    (770, 0)], [(24749311036, 0), (16684068, 0), (5724, 0), (1, 0)]], 2, 3⟩, 4503599627370496, 97, 51859722866799,
    ⟨[[(646739157379840, 0), (671726465545, 0), (48636216, 0), (0, 553728)], [(39434345561, 0), (183567087, 0),
    (602577, 0), (2078, 0)], [(0, 10710401), (0, 90486), (0, 387)]], 2, 3⟩, 1099511627776, 1336093864,
    22261181549762176156641422221331976605007938649828720644411070523274721560101953128496781, lc0⟩)) (.sy (.sx
    (.leaf ⟨475, 26, 8, 1092, 16, 214, ⟨[[(139048638494976, 0)], [(0, 930556273005429)]], 2, 3⟩, ⟨[[(0,
    2035081018126336), (351994630634764, 0), (0, 29989655612), (4453470, 0)], [(55485883948148, 0), (18570685642, 0),
    (3612646, 0), (643, 0)], [(6170635140, 0), (4583550, 0), (1790, 0), (1, 0)]], 2, 3⟩, 4503599627370496, 121,
    8225807372875, ⟨[[(630624891073111, 0), (628921467325, 0), (39734514, 0), (0, 603201)], [(37469909982, 0),
    (166752855, 0), (508434, 0), (1380, 0)], [(0, 10569933), (0, 86197), (0, 369), (0, 1)]], 2, 3⟩, 1099511627776,
    235202970, 27801993236605478117376722747823828261934438500688921882741646239445500966712568428697581, lc0⟩)
    (.leaf ⟨425, 26, 8, 1074, 16, 210, ⟨[[(124411939706112, 0)], [(0, 930556273005429)]], 2, 3⟩, ⟨[[(691797936619520,
    0), (350108153320957, 0), (0, 28456813723), (4557222, 0)], [(57591324271782, 0), (20646542918, 0), (4542981, 0),
    (938, 0)], [(6964489241, 0), (5567808, 0), (2411, 0), (1, 0)]], 2, 3⟩, 4503599627370496, 34, 9758351392940,
    ⟨[[(630248416710664, 0), (632228649137, 0), (8642212, 0), (0, 721561)], [(39019135514, 0), (182133278, 0),
    (582297, 0), (1622, 0)], [(0, 11963813), (0, 103531), (0, 490), (0, 2)]], 2, 3⟩, 1099511627776, 277776192,
    35309526765785449545204064221219110403920750583309905717881479529757486406020125819206099, lc0⟩)) (.sx (.leaf
    ⟨475, 26, 8, 1160, 16, 222, ⟨[[(139048638494976, 0)], [(0, 930556273005429)]], 2, 3⟩, ⟨[[(0, 326321735986176),
    (344972410269166, 0), (0, 26686855755), (3830957, 0)], [(64791953501391, 0), (22149916282, 0), (4520553, 0),
    (812, 0)], [(8317911443, 0), (6275060, 0), (2526, 0), (1, 0)]], 2, 3⟩, 4503599627370496, 121, 11008431911852,
    ⟨[[(647117731291972, 0), (607041176704, 0), (0, 8323574), (0, 555938)], [(42214673771, 0), (189525677, 0),
    (594705, 0), (1841, 0)], [(0, 13095269), (0, 103171), (0, 389)]], 2, 3⟩, 1099511627776, 301948246,
    27931636834136791117069241080309973558638866179793427621873805195285151643975038905879474, lc0⟩) (.leaf ⟨425, 26,
    8, 1137, 16, 217, ⟨[[(124411939706112, 0)], [(0, 930556273005429)]], 2, 3⟩, ⟨[[(1430897411008512, 0),
    (342832072135319, 0), (0, 24852964634), (3988935, 0)], [(67597646991307, 0), (25009986458, 0), (5858252, 0),
    (1268, 0)], [(9554821297, 0), (7847185, 0), (3570, 0), (1, 0)]], 2, 3⟩, 4503599627370496, 34, 14081006003490,
    ⟨[[(646882817758695, 0), (610778758959, 0), (0, 47478961), (0, 695455)], [(44249095351, 0), (209599324, 0),
    (689548, 0), (2147, 0)], [(0, 15056649), (0, 128237), (0, 570), (0, 1)]], 2, 3⟩, 1099511627776, 340981779,
    35238878468104315961545608048025079420680746291353691747782530127178843313368389030704327, lc0⟩)))
theorem c8 : checkC job ⟨6, 8, 5, 6, 9, 13⟩ 1 40 B1.zlims t8 531 121 160 3259 175 3792 = true := by decide +kernel

def t9 : CTree :=
  .sx (.sy (.leaf ⟨550, 51, 8, 1111, 16, 209, ⟨[[(161003686678528, 0)], [(0, 1861112546010858)]], 2, 3⟩,
    ⟨[[(1434860716572672, 0), (300584665092700, 0), (0, 23183602554), (2739985, 0)], [(124585459326932, 0),
    (38772245519, 0), (6652576, 0), (853, 0)], [(31966662656, 0), (21676202, 0), (7581, 0), (2, 0)]], 2, 3⟩,
    4503599627370496, 97, 72370582889666, ⟨[[(662704238025809, 0), (660293031349, 0), (14308990, 0), (0, 327171)],
    [(44163115825, 0), (212277867, 0), (770218, 0), (3498, 0)], [(0, 13078404), (0, 106827), (0, 355), (1, 0)]], 2,
    3⟩, 1099511627776, 1807896636,
    24545805374499039036968790119762589107307822852102413238075305036515068738556933024986310, lc0⟩) (.sx (.leaf
    ⟨575, 26, 8, 1338, 16, 247, ⟨[[(168322036072960, 0)], [(0, 930556273005429)]], 2, 3⟩, ⟨[[(444717232198656, 0),
    (334145321641003, 0), (0, 24879288354), (2469039, 0)], [(79360151678612, 0), (23989580364, 0), (3833288, 0),
    (378, 0)], [(11017392343, 0), (7222064, 0), (2432, 0), (1, 0)]], 2, 3⟩, 4503599627370496, 45, 13380305870894,
    ⟨[[(677892538468328, 0), (564238973913, 0), (24296075, 0), (206576, 0)], [(48276633939, 0), (206985805, 0),
    (759761, 0), (3996, 0)], [(0, 14959190), (0, 103484), (0, 221), (2, 0)]], 2, 3⟩, 1099511627776, 663172781,
    29256624153289128423629805168075297320676570151353268559933057570051880947834697065550065, lc0⟩) (.leaf ⟨525, 26,
    8, 1310, 16, 241, ⟨[[(153685337284096, 0)], [(0, 930556273005429)]], 2, 3⟩, ⟨[[(0, 436256084098048),
    (332142983045587, 0), (0, 23211666560), (2538904, 0)], [(83104166845708, 0), (27295746415, 0), (5136397, 0),
    (737, 0)], [(12779372274, 0), (9148997, 0), (3486, 0), (1, 0)]], 2, 3⟩, 4503599627370496, 110, 17123353885438,
    ⟨[[(677994678323729, 0), (567288230106, 0), (0, 14053603), (99656, 0)], [(50846460867, 0), (230110873, 0),
    (870174, 0), (4489, 0)], [(0, 16661838), (0, 105666), (0, 49), (4, 0)]], 2, 3⟩, 1099511627776, 751485287,
    42780573814372968788139647765380373520529505057635608171741248997109421994477051033140079, lc0⟩))) (.sx (.sy
    (.leaf ⟨475, 26, 8, 1223, 16, 229, ⟨[[(139048638494976, 0)], [(0, 930556273005429)]], 2, 3⟩,
    ⟨[[(1999833520351232, 0), (337944809056612, 0), (0, 23749645258), (3262282, 0)], [(75440972274285, 0),
    (26443206680, 0), (5643434, 0), (1041, 0)], [(11202031331, 0), (8625897, 0), (3611, 0), (1, 0)]], 2, 3⟩,
    4503599627370496, 121, 15728249903728, ⟨[[(662652969238205, 0), (587053470325, 0), (0, 45052364), (0, 404644)],
    [(47494778909, 0), (217429695, 0), (731367, 0), (2824, 0)], [(0, 15991769), (0, 118931), (0, 330), (1, 0)]], 2,
    3⟩, 1099511627776, 525559657,
    23002508760695292758764493472824796428901240268825812715926627934232532858074702800919137, lc0⟩) (.sy (.leaf
    ⟨475, 26, 8, 2209, 16, 407, ⟨[[(139048638494976, 0)], [(0, 930556273005429)]], 2, 3⟩, ⟨[[(0, 886282104455168),
    (289803592343513, 0), (0, 9493194581), (621725, 0)], [(147143617477064, 0), (26334727163, 0), (2906827, 0), (278,
    0)], [(24416462904, 0), (9588860, 0), (2086, 0)]], 2, 3⟩, 4503599627370496, 121, 21034138121127,
    ⟨[[(674315667027068, 0), (329070658616, 0), (0, 19967767), (0, 29701)], [(52136728740, 0), (140930271, 0),
    (299460, 0), (807, 0)], [(0, 18474590), (0, 72909), (0, 56), (1, 0)]], 2, 3⟩, 1099511627776, 371210823,
    39130967046963240889499662778041490342444464265121366775285767667699099070267795987409860, lc0⟩) (.sx (.leaf
    ⟨548, 16, 9, 2623, 16, 479, ⟨[[(2130871126815744, 0)], [(0, 523437903565554)]], 2, 3⟩, ⟨[[(1385271887167488, 0),
    (331529028882912, 0), (0, 10663566539), (634300, 0)], [(90282223081902, 0), (15991491347, 0), (1726459, 0), (158,
    0)], [(7832259312, 0), (3039130, 0), (654, 0)]], 2, 3⟩, 4503599627370496, 230, 3416741929205,
    ⟨[[(681463550571097, 0), (280494158542, 0), (0, 11742061), (15722, 0)], [(48502628191, 0), (114833374, 0),
    (227742, 0), (601, 0)], [(0, 15240691), (0, 46917), (10, 0), (1, 0)]], 2, 3⟩, 1099511627776, 83355934,
    40840982496866773105970120774506250943599608669154497793319768752029765335554706493325182, lc0⟩) (.leaf ⟨520, 16,
    9, 2584, 16, 471, ⟨[[(1559688030325760, 0)], [(0, 523437903565554)]], 2, 3⟩, ⟨[[(1659655108696064, 0),
    (329982086770851, 0), (0, 10033706802), (668704, 0)], [(92704411376857, 0), (17294358602, 0), (2050864, 0), (220,
    0)], [(8563564605, 0), (3521293, 0), (828, 0)]], 2, 3⟩, 4503599627370496, 115, 4053936383948,
    ⟨[[(681448417670426, 0), (281769395663, 0), (0, 18700178), (5969, 0)], [(49966395842, 0), (121937819, 0),
    (244560, 0), (636, 0)], [(0, 16594071), (0, 54462), (0, 8), (1, 0)]], 2, 3⟩, 1099511627776, 98165550,
    46846850290260138643871345723499971626007744430352871612435627190717250657694040214613114, lc0⟩)))) (.sy (.leaf
    ⟨425, 26, 8, 1190, 16, 222, ⟨[[(124411939706112, 0)], [(0, 930556273005429)]], 2, 3⟩, ⟨[[(568664863830016, 0),
    (334356772309819, 0), (0, 21462572250), (3489281, 0)], [(78904561418899, 0), (30309693407, 0), (7585491, 0),
    (1775, 0)], [(13095903783, 0), (11155508, 0), (5434, 0), (2, 0)]], 2, 3⟩, 4503599627370496, 34, 22537467816067,
    ⟨[[(662839169328490, 0), (593217416316, 0), (0, 95580872), (0, 570470)], [(50257003299, 0), (245280585, 0),
    (866012, 0), (3319, 0)], [(0, 18826126), (0, 156451), (0, 600)]], 2, 3⟩, 1099511627776, 634436710,
    25138533994907461306901963065966109200491601850349072020772616215224158482963484725737137, lc0⟩) (.sy (.leaf
    ⟨425, 26, 8, 2124, 16, 390, ⟨[[(124411939706112, 0)], [(0, 930556273005429)]], 2, 3⟩, ⟨[[(2008923484559360, 0),
    (284404895463207, 0), (0, 8284084301), (686423, 0)], [(153571954965725, 0), (30474250899, 0), (4035785, 0), (513,
    0)], [(28885415199, 0), (12760407, 0), (3319, 0), (1, 0)]], 2, 3⟩, 4503599627370496, 34, 33806585526041,
    ⟨[[(674099337529722, 0), (335285900151, 0), (0, 39868660), (0, 66555)], [(55268360528, 0), (160778570, 0),
    (357298, 0), (947, 0)], [(0, 22020339), (0, 101666), (0, 175)]], 2, 3⟩, 1099511627776, 525534035,
    41475782295086078591593798895931817674887948426654147147567676054202079435085352383590484, lc0⟩) (.sx (.leaf
    ⟨492, 16, 9, 2540, 16, 462, ⟨[[(988504933835776, 0)], [(0, 523437903565554)]], 2, 3⟩, ⟨[[(0, 65869409808384),
    (327996623904873, 0), (0, 9302953418), (718810, 0)], [(95236778719347, 0), (18792805210, 0), (2464088, 0), (310,
    0)], [(9417176485, 0), (4134670, 0), (1073, 0)]], 2, 3⟩, 4503599627370496, 82, 4941758825169,
    ⟨[[(681560526432629, 0), (283445216620, 0), (0, 26706454), (0, 4643)], [(51626170538, 0), (130491877, 0),
    (266595, 0), (688, 0)], [(0, 18290786), (0, 65863), (0, 46), (1, 0)]], 2, 3⟩, 1099511627776, 115627753,
    49464675171298385162669339677061717959156517256580575898617682565171234908976205637153597, lc0⟩) (.leaf ⟨464, 16,
    9, 2490, 16, 452, ⟨[[(417321837345792, 0)], [(0, 523437903565554)]], 2, 3⟩, ⟨[[(625609476298752, 0),
    (325599471433445, 0), (0, 8450227597), (791868, 0)], [(97919356971098, 0), (20547445241, 0), (3001585, 0), (438,
    0)], [(10432947051, 0), (4928494, 0), (1412, 0)]], 2, 3⟩, 4503599627370496, 197, 6250446621295,
    ⟨[[(681522791287344, 0), (285567693960, 0), (0, 36079341), (0, 18216)], [(53386789724, 0), (140386917, 0),
    (294030, 0), (755, 0)], [(0, 20329626), (0, 82032), (0, 113)]], 2, 3⟩, 1099511627776, 134854289,
    49874670272403216277067365581236350400710117938356108748329445631560536197968095348054543, lc0⟩)))))
theorem c9 : checkC job ⟨6, 8, 5, 6, 9, 13⟩ 1 40 B1.zlims t9 531 121 160 3609 175 3792 = true := by decide +kernel

end PyX.Kron.T1ps
