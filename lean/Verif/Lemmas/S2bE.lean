import Verif.Lemmas.S2bJob

/-!
# Temperature from pressure and entropy in subregion 2b, part E of the certificate
-/

namespace PyX.Kron.S2b

set_option Elab.async false

def t57 : CTree :=
  .sx (.sy (.leaf ⟨425, 16, 41, 438, 16, 171, ⟨[[(412316860416, 0)], [(352187318272, 0)]], 3, 4⟩, ⟨[[(417895315362,
    0), (2448121964034, 0), (15813440905, 0), (258973839, 0), (4348902, 0)], [(187407806497, 0), (2539084610, 0),
    (54363272, 0), (1212829, 0), (28121, 0)], [(18921561, 0), (2796038, 0), (104426, 0), (3404, 0), (111, 0)],
    [(51244, 0), (3233, 0), (178, 0), (8, 0)]], 3, 4⟩, 1099511627776, 0, 585301662, ⟨[[(42134783827778, 0), (0,
    42130439449), (161928977, 0), (0, 82803), (0, 72)], [(22356927237, 0), (0, 38328671), (0, 27556), (0, 662), (0,
    9)], [(0, 18957877), (55375, 0), (293, 0), (6, 0)], [(23991, 0), (0, 132), (0, 2)]], 3, 4⟩, 68719476736,
    16830928, 3840746588049157577719386087538072894710221788112235567013442683837580894669203533766160248247, ⟨0, 3,
    258500164422439, [83206726501, 31327834, 15727]⟩⟩) (.sx (.sy (.leaf ⟨835, 16, 82, 865, 16, 333, ⟨[[(412316860416,
    0)], [(352187318272, 0)]], 3, 4⟩, ⟨[[(374588702195, 0), (2468722674732, 0), (8870784131, 0), (76966668, 0),
    (721632, 0)], [(193321061865, 0), (1427201946, 0), (16433202, 0), (200860, 0), (2792, 0)], [(14157719, 0),
    (882420, 0), (17787, 0), (333, 0), (7, 0)], [(16067, 0), (581, 0), (18, 0)]], 3, 4⟩, 1099511627776, 0, 76625356,
    ⟨[[(41713268937678, 0), (0, 20459132157), (42383970, 0), (0, 10130), (16, 0)], [(11200732259, 0), (0, 10187804),
    (0, 6435), (0, 70)], [(0, 4783179), (8153, 0), (31, 0)], [(3005, 0), (0, 11)]], 3, 4⟩, 68719476736, 1692990,
    3310484309464796073038734039799623569157411124709678689417801811680313566231468561538418032713, ⟨0, 3,
    499470668262678, [82508187628, 15818288, 4044]⟩⟩) (.out ⟨825, 16, 81, 829, 16, 314, ⟨[[(206158430208, 0)],
    [(347892350976, 0)]], 1, 1⟩, ⟨[[(0, 45107952355), (2436727076465, 0)], [(190967941966, 0), (1554814274, 0)]], 1,
    1⟩, 1099511627776, 0, 264498053626, ⟨[], 0, 0⟩, 0, 0, 0, ⟨0, 3, 470972341845288, [77800513259]⟩⟩ 0 1 703)) (.out
    ⟨856, 16, 81, 564, 16, 211, ⟨[[(0, 481036337152)], [(347892350976, 0)]], 1, 1⟩, ⟨[[(0, 368875436085),
    (3397563117130, 0)], [(127701093928, 0), (2211333346, 0)]], 1, 1⟩, 1099511627776, 0, 447561764893, ⟨[], 0, 0⟩, 0,
    0, 0, ⟨0, 3, 321410124892506, [50423869380]⟩⟩ 0 1 961))) (.sy (.out ⟨445, 16, 40, 423, 16, 159, ⟨[[],
    [(343597383680, 0)]], 1, 1⟩, ⟨[[(20763186607, 0), (2529956558565, 0)], [(179043777109, 0), (2958962514, 0)]], 1,
    1⟩, 1099511627776, 0, 552276832247, ⟨[], 0, 0⟩, 0, 0, 0, ⟨0, 3, 247530915205395, [72151860807]⟩⟩ 0 1 862) (.sx
    (.out ⟨886, 16, 81, 548, 16, 201, ⟨[[(0, 68719476736)], [(347892350976, 0)]], 1, 1⟩, ⟨[[(0, 333479420436),
    (3453651049245, 0)], [(124635677962, 0), (2429387666, 0)]], 1, 1⟩, 1099511627776, 0, 511104669645, ⟨[], 0, 0⟩, 0,
    0, 0, ⟨0, 3, 310708722683056, [46387228679]⟩⟩ 0 1 1380) (.sy (.out ⟨916, 16, 81, 802, 16, 291, ⟨[[(343597383680,
    0)], [(347892350976, 0)]], 1, 1⟩, ⟨[[(0, 305298138939), (2595898187214, 0)], [(180120349341, 0), (1866233514,
    0)]], 1, 1⟩, 1099511627776, 0, 306042147280, ⟨[], 0, 0⟩, 0, 0, 0, ⟨0, 4, 456171104511950, [64931409814]⟩⟩ 0 1
    1613) (.out ⟨916, 16, 81, 760, 16, 271, ⟨[[(343597383680, 0)], [(347892350976, 0)]], 1, 1⟩, ⟨[[(289261012391, 0),
    (2588853873128, 0)], [(179288655466, 0), (2136895755, 0)]], 1, 1⟩, 1099511627776, 0, 355863967627, ⟨[], 0, 0⟩, 0,
    0, 0, ⟨0, 4, 424819138566111, [60468769965]⟩⟩ 0 1 1993))))
theorem c57 : checkC job ⟨6, 8, 7, 8, 9, 13⟩ 3 100 lims t57 688 48 64 99 3 256 = true := by decide +kernel

def t58 : CTree :=
  .sx (.sy (.out ⟨475, 16, 40, 403, 16, 146, ⟨[[], [(343597383680, 0)]], 1, 1⟩, ⟨[[(96062701548, 0), (2620200241606,
    0)], [(171879961105, 0), (3529498605, 0)]], 1, 1⟩, 1099511627776, 0, 664482819164, ⟨[], 0, 0⟩, 0, 0, 0, ⟨0, 4,
    233447575706761, [62068274037]⟩⟩ 0 1 1646) (.sy (.sx (.out ⟨947, 16, 81, 773, 16, 275, ⟨[[(0, 343597383680)],
    [(347892350976, 0)]], 1, 1⟩, ⟨[[(0, 283984870155), (2636733105320, 0)], [(175906025691, 0), (2075050708, 0)]], 1,
    1⟩, 1099511627776, 0, 342138203277, ⟨[], 0, 0⟩, 0, 0, 0, ⟨0, 4, 436884686134754, [59392486236]⟩⟩ 0 1 2044) (.sy
    (.out ⟨977, 16, 81, 1007, 16, 353, ⟨[[(68719476736, 0)], [(347892350976, 0)]], 1, 1⟩, ⟨[[(83937063941, 0),
    (1794503409046, 0)], [(230445374902, 0), (1504540348, 0)]], 1, 1⟩, 1099511627776, 0, 281718176337, ⟨[], 0, 0⟩, 0,
    0, 0, ⟨0, 4, 568004989331528, [73868250757]⟩⟩ 0 1 2372) (.out ⟨977, 16, 81, 977, 16, 339, ⟨[[(68719476736, 0)],
    [(347892350976, 0)]], 1, 1⟩, ⟨[[(0, 284746784614), (1798887543381, 0)], [(230550556963, 0), (1645166068, 0)]], 1,
    1⟩, 1099511627776, 0, 308689514701, ⟨[], 0, 0⟩, 0, 0, 0, ⟨0, 4, 545477879273054, [70938631747]⟩⟩ 0 1 2602)))
    (.out ⟨475, 16, 40, 466, 16, 161, ⟨[[], [(343597383680, 0)]], 1, 1⟩, ⟨[[(88491477405, 0), (1751360815236, 0)],
    [(228131021100, 0), (3475685371, 0)]], 1, 1⟩, 1099511627776, 0, 770627014641, ⟨[], 0, 0⟩, 0, 0, 0, ⟨0, 4,
    257431915676634, [68445151507]⟩⟩ 0 1 2700))) (.sy (.sx (.out ⟨1007, 16, 81, 517, 16, 182, ⟨[[(481036337152, 0)],
    [(347892350976, 0)]], 1, 1⟩, ⟨[[(0, 186158180021), (3621235326251, 0)], [(112326447431, 0), (2765657232, 0)]], 1,
    1⟩, 1099511627776, 0, 656265572804, ⟨[], 0, 0⟩, 0, 0, 0, ⟨0, 4, 296452914771210, [36936754254]⟩⟩ 0 1 2278) (.out
    ⟨1038, 16, 81, 492, 16, 170, ⟨[[(0, 206158430208)], [(347892350976, 0)]], 1, 1⟩, ⟨[[(103512163300, 0),
    (3653032486009, 0)], [(109193619672, 0), (3078383900, 0)]], 1, 1⟩, 1099511627776, 0, 779715883040, ⟨[], 0, 0⟩, 0,
    0, 0, ⟨0, 4, 280169749540292, [33491567848]⟩⟩ 0 1 2698)) (.sx (.sy (.out ⟨1007, 16, 81, 705, 16, 241,
    ⟨[[(481036337152, 0)], [(347892350976, 0)]], 1, 1⟩, ⟨[[(313021291133, 0), (2735859501661, 0)], [(168705960450,
    0), (2717804082, 0)]], 1, 1⟩, 1099511627776, 0, 475521386406, ⟨[], 0, 0⟩, 0, 0, 0, ⟨0, 4, 392555782746493,
    [48910757007]⟩⟩ 0 1 2942) (.sy (.sy (.out ⟨1007, 16, 81, 1089, 16, 367, ⟨[[(481036337152, 0)], [(347892350976,
    0)]], 1, 1⟩, ⟨[[(0, 299545282674), (1117302298404, 0)], [(274214952543, 0), (1291009924, 0)]], 1, 1⟩,
    1099511627776, 0, 369610715402, ⟨[], 0, 0⟩, 0, 0, 0, ⟨0, 4, 597792416049638, [74482356106]⟩⟩ 0 1 3272) (.out
    ⟨1007, 16, 81, 1062, 16, 356, ⟨[[(481036337152, 0)], [(347892350976, 0)]], 1, 1⟩, ⟨[[(114432921863, 0),
    (1119057194892, 0)], [(273902585458, 0), (1387477105, 0)]], 1, 1⟩, 1099511627776, 0, 397916643204, ⟨[], 0, 0⟩, 0,
    0, 0, ⟨0, 4, 579874932189840, [72249914915]⟩⟩ 0 1 3397)) (.out ⟨1007, 16, 81, 837, 16, 278, ⟨[[(481036337152,
    0)], [(347892350976, 0)]], 1, 1⟩, ⟨[[(0, 286644963872), (1843814472852, 0)], [(224507214137, 0), (2571963125,
    0)]], 1, 1⟩, 1099511627776, 0, 499060674038, ⟨[], 0, 0⟩, 0, 0, 0, ⟨0, 4, 452823683002178, [56419877377]⟩⟩ 0 1
    3614))) (.sy (.out ⟨1038, 16, 81, 658, 16, 220, ⟨[[(0, 206158430208)], [(347892350976, 0)]], 1, 1⟩, ⟨[[(0,
    344359545200), (2768799791308, 0)], [(163945739878, 0), (3231557791, 0)]], 1, 1⟩, 1099511627776, 0, 600889910448,
    ⟨[], 0, 0⟩, 0, 0, 0, ⟨0, 4, 362572617052143, [43342028980]⟩⟩ 0 1 3458) (.sy (.out ⟨1038, 16, 81, 816, 16, 268,
    ⟨[[(0, 206158430208)], [(347892350976, 0)]], 1, 1⟩, ⟨[[(0, 286405805170), (1883024581964, 0)], [(220757505551,
    0), (2791097249, 0)]], 1, 1⟩, 1099511627776, 0, 539829194014, ⟨[], 0, 0⟩, 0, 0, 0, ⟨0, 4, 441679369863519,
    [52798471667]⟩⟩ 0 1 3881) (.sx (.sy (.out ⟨2060, 16, 162, 1607, 16, 526, ⟨[[(481036337152, 0)], [(347892350976,
    0)]], 1, 1⟩, ⟨[[(0, 255924736976), (1902138859720, 0)], [(224079809739, 0), (1521722293, 0)]], 1, 1⟩,
    1099511627776, 0, 264472748360, ⟨[], 0, 0⟩, 0, 0, 0, ⟨0, 4, 864381978224976, [52195342695]⟩⟩ 0 1 3962) (.out
    ⟨2060, 16, 162, 1547, 16, 503, ⟨[[(481036337152, 0)], [(347892350976, 0)]], 1, 1⟩, ⟨[[(0, 358055732133),
    (1908909375826, 0)], [(223674411258, 0), (1684249615, 0)]], 1, 1⟩, 1099511627776, 0, 294762051129, ⟨[], 0, 0⟩, 0,
    0, 0, ⟨0, 4, 826585808074454, [49913036836]⟩⟩ 0 1 4122)) (.sy (.out ⟨2091, 16, 162, 1522, 16, 492, ⟨[[(0,
    206158430208)], [(347892350976, 0)]], 1, 1⟩, ⟨[[(0, 298332771930), (1931463390355, 0)], [(221996885897, 0),
    (1767457256, 0)]], 1, 1⟩, 1099511627776, 0, 308194261993, ⟨[], 0, 0⟩, 0, 0, 0, ⟨0, 4, 813162031708674,
    [48112228075]⟩⟩ 0 1 4263) (.skip)))))))
theorem c58 : checkC job ⟨6, 8, 7, 8, 9, 13⟩ 3 100 lims t58 784 48 64 99 3 256 = true := by decide +kernel

def t59 : CTree :=
  .sx (.sy (.sy (.out ⟨535, 16, 40, 610, 16, 208, ⟨[[], [(343597383680, 0)]], 1, 1⟩, ⟨[[(229517591263, 0),
    (1179397595528, 0)], [(267774409145, 0), (2048341166, 0)]], 1, 1⟩, 1099511627776, 0, 588364808262, ⟨[], 0, 0⟩, 0,
    0, 0, ⟨0, 4, 348570889413087, [78509095825]⟩⟩ 0 1 3000) (.out ⟨535, 16, 40, 584, 16, 197, ⟨[[], [(343597383680,
    0)]], 1, 1⟩, ⟨[[(207185081290, 0), (1175340379390, 0)], [(266152216937, 0), (2254972780, 0)]], 1, 1⟩,
    1099511627776, 0, 655792597372, ⟨[], 0, 0⟩, 0, 0, 0, ⟨0, 4, 330136851992203, [74357172488]⟩⟩ 0 1 3250)) (.sx (.sy
    (.out ⟨1068, 16, 81, 950, 16, 320, ⟨[[(206158430208, 0)], [(347892350976, 0)]], 1, 1⟩, ⟨[[(0, 168937357040),
    (1923979497198, 0)], [(221275780266, 0), (1925157672, 0)]], 1, 1⟩, 1099511627776, 0, 343907958794, ⟨[], 0, 0⟩, 0,
    0, 0, ⟨0, 4, 533343598818464, [61250260687]⟩⟩ 0 1 3284) (.out ⟨1068, 16, 81, 907, 16, 302, ⟨[[(206158430208, 0)],
    [(347892350976, 0)]], 1, 1⟩, ⟨[[(0, 417447298428), (1927401098135, 0)], [(220769958528, 0), (2185210199, 0)]], 1,
    1⟩, 1099511627776, 0, 398079128566, ⟨[], 0, 0⟩, 0, 0, 0, ⟨0, 4, 503343021384926, [57804933524]⟩⟩ 0 1 3555)) (.out
    ⟨1099, 16, 81, 631, 16, 207, ⟨[[(0, 481036337152)], [(347892350976, 0)]], 1, 1⟩, ⟨[[(179634157171, 0),
    (2863183717330, 0)], [(157898625378, 0), (3636350018, 0)]], 1, 1⟩, 1099511627776, 0, 709189674270, ⟨[], 0, 0⟩, 0,
    0, 0, ⟨0, 4, 348757205306148, [38525743606]⟩⟩ 0 1 3908))) (.sy (.sx (.sy (.out ⟨1129, 16, 81, 934, 16, 309,
    ⟨[[(0, 68719476736)], [(347892350976, 0)]], 1, 1⟩, ⟨[[(0, 432068610620), (2010144774106, 0)], [(215966047635, 0),
    (2123777889, 0)]], 1, 1⟩, 1099511627776, 0, 372170512290, ⟨[], 0, 0⟩, 0, 0, 0, ⟨0, 4, 526054540882558,
    [55962104071]⟩⟩ 0 1 3707) (.out ⟨1129, 16, 81, 881, 16, 288, ⟨[[(0, 68719476736)], [(347892350976, 0)]], 1, 1⟩,
    ⟨[[(0, 297066359729), (2006146688519, 0)], [(214468229285, 0), (2444076322, 0)]], 1, 1⟩, 1099511627776, 0,
    440161600231, ⟨[], 0, 0⟩, 0, 0, 0, ⟨0, 4, 490303261405102, [52158854280]⟩⟩ 0 1 3993)) (.sx (.out ⟨2303, 16, 162,
    809, 16, 262, ⟨[[(481036337152, 0)], [(347892350976, 0)]], 1, 1⟩, ⟨[[(48793368943, 0), (3843731812257, 0)],
    [(100017043615, 0), (2503743178, 0)]], 1, 1⟩, 1099511627776, 0, 679678582842, ⟨[], 0, 0⟩, 0, 0, 0, ⟨0, 4,
    449422163851219, [23255748017]⟩⟩ 0 1 4218) (.out ⟨2334, 16, 162, 768, 16, 246, ⟨[[(0, 206158430208)],
    [(347892350976, 0)]], 1, 1⟩, ⟨[[(23629415260, 0), (3855273772378, 0)], [(98284262819, 0), (2801228469, 0)]], 1,
    1⟩, 1099511627776, 0, 794639512285, ⟨[], 0, 0⟩, 0, 0, 0, ⟨0, 4, 424059047424933, [21551355960]⟩⟩ 0 1 4487))) (.sx
    (.sy (.out ⟨1129, 16, 81, 824, 16, 266, ⟨[[(0, 68719476736)], [(347892350976, 0)]], 1, 1⟩, ⟨[[(0, 29155901470),
    (2010521815429, 0)], [(213439517590, 0), (2907783124, 0)]], 1, 1⟩, 1099511627776, 0, 541799416579, ⟨[], 0, 0⟩, 0,
    0, 0, ⟨0, 4, 452849540047768, [48174497356]⟩⟩ 0 1 4297) (.out ⟨1129, 16, 81, 754, 16, 240, ⟨[[(0, 68719476736)],
    [(347892350976, 0)]], 1, 1⟩, ⟨[[(0, 188011498875), (2005846920648, 0)], [(210872579707, 0), (3546591334, 0)]], 1,
    1⟩, 1099511627776, 0, 685978686027, ⟨[], 0, 0⟩, 0, 0, 0, ⟨0, 4, 408586051170918, [43465711900]⟩⟩ 0 1 4642)) (.sy
    (.sx (.out ⟨2303, 16, 162, 1110, 16, 352, ⟨[[(481036337152, 0)], [(347892350976, 0)]], 1, 1⟩, ⟨[[(0,
    431712715743), (2982543778850, 0)], [(153165265493, 0), (2599620960, 0)]], 1, 1⟩, 1099511627776, 0, 464611041448,
    ⟨[], 0, 0⟩, 0, 0, 0, ⟨0, 4, 603803823189423, [31244363748]⟩⟩ 0 1 4734) (.out ⟨2334, 16, 162, 1034, 16, 324,
    ⟨[[(0, 206158430208)], [(347892350976, 0)]], 1, 1⟩, ⟨[[(62951624913, 0), (3002677446884, 0)], [(150630147375, 0),
    (3001367912, 0)]], 1, 1⟩, 1099511627776, 0, 551031483303, ⟨[], 0, 0⟩, 0, 0, 0, ⟨0, 4, 558516794169424,
    [28384712728]⟩⟩ 0 1 5032)) (.sy (.out ⟨1159, 16, 81, 844, 16, 263, ⟨[[(343597383680, 0)], [(347892350976, 0)]],
    1, 1⟩, ⟨[[(146505706756, 0), (1287012685306, 0)], [(258655314203, 0), (2850999857, 0)]], 1, 1⟩, 1099511627776, 0,
    756523370571, ⟨[], 0, 0⟩, 0, 0, 0, ⟨0, 4, 452254374202976, [46383197548]⟩⟩ 0 1 5171) (.skip)))))
theorem c59 : checkC job ⟨6, 8, 7, 8, 9, 13⟩ 3 100 lims t59 880 48 64 195 3 512 = true := by decide +kernel

def t60 : CTree :=
  .sx (.sy (.sx (.sy (.sx (.out ⟨2364, 16, 162, 1185, 16, 378, ⟨[[(206158430208, 0)], [(347892350976, 0)]], 1, 1⟩,
    ⟨[[(200709399844, 0), (3029677931088, 0)], [(151933381009, 0), (2243148056, 0)]], 1, 1⟩, 1099511627776, 0,
    393469592343, ⟨[], 0, 0⟩, 0, 0, 0, ⟨0, 4, 654761503922439, [32690031396]⟩⟩ 0 1 4589) (.out ⟨2395, 16, 162, 1116,
    16, 352, ⟨[[(0, 481036337152)], [(347892350976, 0)]], 1, 1⟩, ⟨[[(381727526679, 0), (3042650419461, 0)],
    [(149360012386, 0), (2545556554, 0)]], 1, 1⟩, 1099511627776, 0, 459147615436, ⟨[], 0, 0⟩, 0, 0, 0, ⟨0, 4,
    612628769305118, [30055360477]⟩⟩ 0 1 4868)) (.sx (.out ⟨2364, 16, 162, 1075, 16, 338, ⟨[[(206158430208, 0)],
    [(347892350976, 0)]], 1, 1⟩, ⟨[[(390089743355, 0), (3021837374629, 0)], [(149979386860, 0), (2763003915, 0)]], 1,
    1⟩, 1099511627776, 0, 503020929841, ⟨[], 0, 0⟩, 0, 0, 0, ⟨0, 4, 585474572290435, [29230768815]⟩⟩ 0 1 4946) (.sy
    (.out ⟨2395, 16, 162, 1444, 16, 450, ⟨[[(0, 481036337152)], [(347892350976, 0)]], 1, 1⟩, ⟨[[(0, 212223904247),
    (2134086628116, 0)], [(207637956615, 0), (2113029065, 0)]], 1, 1⟩, 1099511627776, 0, 352729599667, ⟨[], 0, 0⟩, 0,
    0, 0, ⟨0, 4, 783190188032112, [38423046064]⟩⟩ 0 1 5169) (.out ⟨2395, 16, 162, 1359, 16, 420, ⟨[[(0,
    481036337152)], [(347892350976, 0)]], 1, 1⟩, ⟨[[(0, 202434690156), (2140929388602, 0)], [(206814477874, 0),
    (2385003719, 0)]], 1, 1⟩, 1099511627776, 0, 402346040329, ⟨[], 0, 0⟩, 0, 0, 0, ⟨0, 4, 730977508829971,
    [35861509660]⟩⟩ 0 1 5380)))) (.sy (.sy (.out ⟨1220, 16, 81, 907, 16, 282, ⟨[[(68719476736, 0)], [(347892350976,
    0)]], 1, 1⟩, ⟨[[(59900140738, 0), (1344934047941, 0)], [(256116150624, 0), (2592684793, 0)]], 1, 1⟩,
    1099511627776, 0, 650084150377, ⟨[], 0, 0⟩, 0, 0, 0, ⟨0, 4, 494233905777474, [47257689463]⟩⟩ 0 1 5228) (.out
    ⟨1220, 16, 81, 853, 16, 263, ⟨[[(68719476736, 0)], [(347892350976, 0)]], 1, 1⟩, ⟨[[(34767282747, 0),
    (1347541086653, 0)], [(254820900074, 0), (2923843777, 0)]], 1, 1⟩, 1099511627776, 0, 741961450922, ⟨[], 0, 0⟩, 0,
    0, 0, ⟨0, 4, 460934458225091, [44073660741]⟩⟩ 0 1 5440)) (.sx (.sy (.out ⟨2425, 16, 162, 1336, 16, 411, ⟨[[(0,
    68719476736)], [(347892350976, 0)]], 1, 1⟩, ⟨[[(0, 133620280222), (2158511642854, 0)], [(205014699242, 0),
    (2460225441, 0)]], 1, 1⟩, 1099511627776, 0, 414270618903, ⟨[], 0, 0⟩, 0, 0, 0, ⟨0, 4, 718661449305814,
    [34653469840]⟩⟩ 0 1 5497) (.skip)) (.skip)))) (.sx (.sy (.sy (.out ⟨1190, 16, 81, 817, 16, 252, ⟨[[(0,
    343597383680)], [(347892350976, 0)]], 1, 1⟩, ⟨[[(0, 122830691978), (1315456189529, 0)], [(255328689142, 0),
    (3073471462, 0)]], 1, 1⟩, 1099511627776, 0, 802264593414, ⟨[], 0, 0⟩, 0, 0, 0, ⟨0, 4, 437550404603846,
    [43308495495]⟩⟩ 0 1 5430) (.skip)) (.skip)) (.skip))) (.sy (.sx (.sy (.sx (.sy (.out ⟨2486, 16, 162, 1299, 16,
    396, ⟨[[(0, 343597383680)], [(347892350976, 0)]], 1, 1⟩, ⟨[[(0, 354385700299), (2203541769384, 0)],
    [(202442786045, 0), (2615561336, 0)]], 1, 1⟩, 1099511627776, 0, 438850179230, ⟨[], 0, 0⟩, 0, 0, 0, ⟨0, 4,
    698764584382050, [32572726464]⟩⟩ 0 1 5730) (.skip)) (.skip)) (.skip)) (.skip)) (.skip))
theorem c60 : checkC job ⟨6, 8, 7, 8, 9, 13⟩ 3 100 lims t60 976 48 64 195 3 512 = true := by decide +kernel

def t61 : CTree :=
  .sx (.sx (.sy (.sx (.sy (.out ⟨1068, 16, 81, 857, 16, 282, ⟨[[(206158430208, 0)], [(347892350976, 0)]], 1, 1⟩,
    ⟨[[(0, 284255762239), (1929974889905, 0)], [(219798987619, 0), (2542681487, 0)]], 1, 1⟩, 1099511627776, 0,
    475738412889, ⟨[], 0, 0⟩, 0, 0, 0, ⟨0, 4, 470009046458772, [53976792231]⟩⟩ 0 1 3835) (.out ⟨1068, 16, 81, 797,
    16, 259, ⟨[[(206158430208, 0)], [(347892350976, 0)]], 1, 1⟩, ⟨[[(0, 62730868597), (1928302024114, 0)],
    [(217834677706, 0), (3036210709, 0)]], 1, 1⟩, 1099511627776, 0, 586591252614, ⟨[], 0, 0⟩, 0, 0, 0, ⟨0, 4,
    431674975293695, [49574429744]⟩⟩ 0 1 4135)) (.sy (.sy (.out ⟨1099, 16, 81, 979, 16, 316, ⟨[[(0, 481036337152)],
    [(347892350976, 0)]], 1, 1⟩, ⟨[[(233145738889, 0), (1215832519457, 0)], [(265567482322, 0), (1931792959, 0)]], 1,
    1⟩, 1099511627776, 0, 520006838776, ⟨[], 0, 0⟩, 0, 0, 0, ⟨0, 4, 532402303752380, [58812246278]⟩⟩ 0 1 4299) (.out
    ⟨1099, 16, 81, 939, 16, 301, ⟨[[(0, 481036337152)], [(347892350976, 0)]], 1, 1⟩, ⟨[[(233142369114, 0),
    (1219069266425, 0)], [(264879906690, 0), (2144512379, 0)]], 1, 1⟩, 1099511627776, 0, 582489331301, ⟨[], 0, 0⟩, 0,
    0, 0, ⟨0, 4, 507130042498312, [56020525727]⟩⟩ 0 1 4468)) (.sx (.out ⟨2182, 16, 162, 1078, 16, 344, ⟨[[(0,
    68719476736)], [(347892350976, 0)]], 1, 1⟩, ⟨[[(295874382906, 0), (2903227162964, 0)], [(158188040405, 0),
    (2797037443, 0)]], 1, 1⟩, 1099511627776, 0, 498460802685, ⟨[], 0, 0⟩, 0, 0, 0, ⟨0, 4, 578035293132820,
    [32234548446]⟩⟩ 0 1 4579) (.skip)))) (.sx (.sy (.out ⟨1068, 16, 81, 730, 16, 234, ⟨[[(206158430208, 0)],
    [(347892350976, 0)]], 1, 1⟩, ⟨[[(20985385672, 0), (1933832499847, 0)], [(216016116423, 0), (3735455930, 0)]], 1,
    1⟩, 1099511627776, 0, 746730260909, ⟨[], 0, 0⟩, 0, 0, 0, ⟨0, 4, 390007506636002, [44789253127]⟩⟩ 0 1 4469)
    (.skip)) (.skip))) (.sy (.sx (.sy (.sx (.out ⟨2243, 16, 162, 1033, 16, 326, ⟨[[(0, 343597383680)],
    [(347892350976, 0)]], 1, 1⟩, ⟨[[(0, 116875264785), (2939077819861, 0)], [(154399936876, 0), (3021155050, 0)]], 1,
    1⟩, 1099511627776, 0, 548643037376, ⟨[], 0, 0⟩, 0, 0, 0, ⟨0, 4, 553574283518367, [29720375505]⟩⟩ 0 1 4854)
    (.skip)) (.skip)) (.skip)) (.skip))) (.skip)
theorem c61 : checkC job ⟨6, 8, 7, 8, 9, 13⟩ 3 100 lims t61 464 48 32 201 3 512 = true := by decide +kernel

def t62 : CTree :=
  .sx (.sx (.sy (.out ⟨415, 16, 40, 504, 16, 186, ⟨[[], [(343597383680, 0)]], 1, 1⟩, ⟨[[(387557816453, 0),
    (1573820413471, 0)], [(241437517664, 0), (2337493666, 0)]], 1, 1⟩, 1099511627776, 0, 556078981455, ⟨[], 0, 0⟩, 0,
    0, 0, ⟨0, 3, 281175617441951, [90505562158]⟩⟩ 0 1 1249) (.out ⟨415, 16, 40, 480, 16, 174, ⟨[[], [(343597383680,
    0)]], 1, 1⟩, ⟨[[(114065230366, 0), (1569761476497, 0)], [(240343319003, 0), (2672776575, 0)]], 1, 1⟩,
    1099511627776, 0, 637435434288, ⟨[], 0, 0⟩, 0, 0, 0, ⟨0, 3, 263035255026341, [84666493632]⟩⟩ 0 1 1633)) (.sx (.sy
    (.out ⟨886, 16, 81, 747, 16, 267, ⟨[[(0, 68719476736)], [(347892350976, 0)]], 1, 1⟩, ⟨[[(268147200140, 0),
    (2534825384935, 0)], [(182431149497, 0), (2191393235, 0)]], 1, 1⟩, 1099511627776, 0, 369469481001, ⟨[], 0, 0⟩, 0,
    0, 0, ⟨0, 3, 412732482370029, [61618856006]⟩⟩ 0 1 1941) (.out ⟨886, 16, 81, 699, 16, 245, ⟨[[(0, 68719476736)],
    [(347892350976, 0)]], 1, 1⟩, ⟨[[(0, 116514355204), (2529982419449, 0)], [(181169850123, 0), (2636289887, 0)]], 1,
    1⟩, 1099511627776, 0, 464926945967, ⟨[], 0, 0⟩, 0, 0, 0, ⟨0, 3, 378724562474371, [56541646897]⟩⟩ 0 1 2375)) (.sy
    (.out ⟨916, 16, 81, 712, 16, 249, ⟨[[(343597383680, 0)], [(347892350976, 0)]], 1, 1⟩, ⟨[[(58950286967, 0),
    (2582327439524, 0)], [(178093075106, 0), (2538861184, 0)]], 1, 1⟩, 1099511627776, 0, 440008518912, ⟨[], 0, 0⟩, 0,
    0, 0, ⟨0, 4, 390331976025689, [55559866130]⟩⟩ 0 1 2425) (.out ⟨916, 16, 81, 654, 16, 224, ⟨[[(343597383680, 0)],
    [(347892350976, 0)]], 1, 1⟩, ⟨[[(0, 115389390724), (2580180652069, 0)], [(176421844368, 0), (3222668424, 0)]], 1,
    1⟩, 1099511627776, 0, 600247313080, ⟨[], 0, 0⟩, 0, 0, 0, ⟨0, 4, 351142018593391, [49981566318]⟩⟩ 0 1 2898))))
    (.sx (.sx (.sy (.sy (.out ⟨947, 16, 81, 913, 16, 314, ⟨[[(0, 343597383680)], [(347892350976, 0)]], 1, 1⟩,
    ⟨[[(271642882961, 0), (1754055749492, 0)], [(232123684638, 0), (1905591604, 0)]], 1, 1⟩, 1099511627776, 0,
    370460880485, ⟨[], 0, 0⟩, 0, 0, 0, ⟨0, 4, 498842877986591, [67815420648]⟩⟩ 0 1 2804) (.out ⟨947, 16, 81, 873, 16,
    297, ⟨[[(0, 343597383680)], [(347892350976, 0)]], 1, 1⟩, ⟨[[(127774249333, 0), (1757431025224, 0)],
    [(231422463913, 0), (2174832718, 0)]], 1, 1⟩, 1099511627776, 0, 428930621618, ⟨[], 0, 0⟩, 0, 0, 0, ⟨0, 4,
    471835461025534, [64143885135]⟩⟩ 0 1 3053)) (.sx (.out ⟨1878, 16, 162, 832, 16, 280, ⟨[[(206158430208, 0)],
    [(347892350976, 0)]], 1, 1⟩, ⟨[[(266376831409, 0), (3556176613441, 0)], [(117209991736, 0), (2627038933, 0)]], 1,
    1⟩, 1099511627776, 0, 627018997570, ⟨[], 0, 0⟩, 0, 0, 0, ⟨0, 4, 443370855489553, [30480672182]⟩⟩ 0 1 3305) (.sy
    (.out ⟨1909, 16, 162, 1224, 16, 409, ⟨[[(0, 481036337152)], [(347892350976, 0)]], 1, 1⟩, ⟨[[(0, 544968012630),
    (2684795763440, 0)], [(173355439902, 0), (2059506988, 0)]], 1, 1⟩, 1099511627776, 0, 342946909860, ⟨[], 0, 0⟩, 0,
    0, 0, ⟨0, 4, 651878209022860, [43814955629]⟩⟩ 0 1 3471) (.skip)))) (.sy (.sy (.out ⟨977, 16, 81, 854, 16, 287,
    ⟨[[(68719476736, 0)], [(347892350976, 0)]], 1, 1⟩, ⟨[[(0, 137137501511), (1797520782607, 0)], [(227511466684, 0),
    (2360640481, 0)]], 1, 1⟩, 1099511627776, 0, 460919372623, ⟨[], 0, 0⟩, 0, 0, 0, ⟨0, 4, 461805756198721,
    [60057189709]⟩⟩ 0 1 3337) (.out ⟨977, 16, 81, 804, 16, 267, ⟨[[(68719476736, 0)], [(347892350976, 0)]], 1, 1⟩,
    ⟨[[(0, 174708503408), (1804188531902, 0)], [(226522188814, 0), (2799854101, 0)]], 1, 1⟩, 1099511627776, 0,
    560183761181, ⟨[], 0, 0⟩, 0, 0, 0, ⟨0, 4, 429624170400901, [55872019695]⟩⟩ 0 1 3617)) (.sy (.out ⟨977, 16, 81,
    744, 16, 244, ⟨[[(68719476736, 0)], [(347892350976, 0)]], 1, 1⟩, ⟨[[(11467644539, 0), (1809794984227, 0)],
    [(224701762451, 0), (3399260080, 0)]], 1, 1⟩, 1099511627776, 0, 698965002854, ⟨[], 0, 0⟩, 0, 0, 0, ⟨0, 4,
    392615346733408, [51059074178]⟩⟩ 0 1 3915) (.skip)))) (.sy (.sx (.sy (.out ⟨1007, 16, 81, 780, 16, 256,
    ⟨[[(481036337152, 0)], [(347892350976, 0)]], 1, 1⟩, ⟨[[(194859081125, 0), (1847808188961, 0)], [(222950820465,
    0), (3085946390, 0)]], 1, 1⟩, 1099511627776, 0, 616088291049, ⟨[], 0, 0⟩, 0, 0, 0, ⟨0, 4, 416988715282582,
    [51954994995]⟩⟩ 0 1 3897) (.skip)) (.skip)) (.skip)))
theorem c62 : checkC job ⟨6, 8, 7, 8, 9, 13⟩ 3 100 lims t62 368 48 32 207 3 512 = true := by decide +kernel

def t63 : CTree :=
  .sx (.sx (.sx (.sy (.out ⟨825, 16, 81, 725, 16, 261, ⟨[[(206158430208, 0)], [(347892350976, 0)]], 1, 1⟩,
    ⟨[[(147332379486, 0), (2427117952523, 0)], [(189334883516, 0), (2289212553, 0)]], 1, 1⟩, 1099511627776, 0,
    397893762699, ⟨[], 0, 0⟩, 0, 0, 0, ⟨0, 3, 391477010259937, [64668579492]⟩⟩ 0 1 1784) (.out ⟨825, 16, 81, 677, 16,
    239, ⟨[[(206158430208, 0)], [(347892350976, 0)]], 1, 1⟩, ⟨[[(0, 370862463200), (2425807955471, 0)],
    [(187918825896, 0), (2823744476, 0)]], 1, 1⟩, 1099511627776, 0, 516444775928, ⟨[], 0, 0⟩, 0, 0, 0, ⟨0, 3,
    358478948092432, [59217588117]⟩⟩ 0 1 2215)) (.sy (.out ⟨856, 16, 81, 688, 16, 242, ⟨[[(0, 481036337152)],
    [(347892350976, 0)]], 1, 1⟩, ⟨[[(57012835967, 0), (2481384609487, 0)], [(184699060299, 0), (2736574180, 0)]], 1,
    1⟩, 1099511627776, 0, 491460469517, ⟨[], 0, 0⟩, 0, 0, 0, ⟨0, 3, 368631517649225, [57832115592]⟩⟩ 0 1 2296) (.out
    ⟨856, 16, 81, 624, 16, 215, ⟨[[(0, 481036337152)], [(347892350976, 0)]], 1, 1⟩, ⟨[[(0, 10800440752),
    (2471330593018, 0)], [(181731082217, 0), (3582831379, 0)]], 1, 1⟩, 1099511627776, 0, 694190432359, ⟨[], 0, 0⟩, 0,
    0, 0, ⟨0, 3, 327503207828857, [51379772117]⟩⟩ 0 1 2762))) (.sx (.sy (.out ⟨886, 16, 81, 638, 16, 219, ⟨[[(0,
    68719476736)], [(347892350976, 0)]], 1, 1⟩, ⟨[[(0, 294579637475), (2523645239042, 0)], [(178858962071, 0),
    (3401116766, 0)]], 1, 1⟩, 1099511627776, 0, 646634862651, ⟨[], 0, 0⟩, 0, 0, 0, ⟨0, 3, 338533384415867,
    [50541308859]⟩⟩ 0 1 2848) (.sy (.out ⟨886, 16, 81, 770, 16, 260, ⟨[[(0, 68719476736)], [(347892350976, 0)]], 1,
    1⟩, ⟨[[(67106834251, 0), (1674572376721, 0)], [(234089668828, 0), (2899322077, 0)]], 1, 1⟩, 1099511627776, 0,
    617222529574, ⟨[], 0, 0⟩, 0, 0, 0, ⟨0, 3, 401911780585047, [60003380380]⟩⟩ 0 1 3227) (.skip))) (.sy (.sx (.out
    ⟨1817, 16, 162, 813, 16, 274, ⟨[[(481036337152, 0)], [(347892350976, 0)]], 1, 1⟩, ⟨[[(30414565799, 0),
    (3511493100779, 0)], [(119642745391, 0), (2844576388, 0)]], 1, 1⟩, 1099511627776, 0, 680732527492, ⟨[], 0, 0⟩, 0,
    0, 0, ⟨0, 4, 428048503635221, [30824534918]⟩⟩ 0 1 3271) (.skip)) (.skip)))) (.skip)
theorem c63 : checkC job ⟨6, 8, 7, 8, 9, 13⟩ 3 100 lims t63 368 48 32 213 3 512 = true := by decide +kernel

def t64 : CTree :=
  .skip
theorem c64 : checkC job ⟨6, 8, 7, 8, 9, 13⟩ 3 100 lims t64 464 48 32 105 3 256 = true := by decide +kernel

def t65 : CTree :=
  .sx (.sx (.sx (.leaf ⟨343, 16, 82, 224, 16, 115, ⟨[[(412316860416, 0)], [(352187318272, 0)]], 3, 4⟩, ⟨[[(0,
    119562426077), (3860403050318, 0), (20622137648, 0), (976739161, 0), (30281613, 0)], [(100252838814, 0),
    (1740947742, 0), (67536564, 0), (2827884, 0), (155426, 0)], [(0, 25305266), (851853, 0), (67087, 0), (5050, 0),
    (377, 0)], [(22129, 0), (468, 0), (63, 0), (6, 0), (1, 0)]], 3, 4⟩, 1099511627776, 0, 1171282360,
    ⟨[[(39235302709092, 0), (0, 92311177328), (358270438, 0), (327277, 0), (1454, 0)], [(26321595326, 0), (0,
    73374055), (0, 25109), (0, 2069), (0, 71)], [(0, 28658735), (116552, 0), (686, 0), (34, 0), (1, 0)], [(36572, 0),
    (0, 426), (0, 12)]], 3, 4⟩, 68719476736, 157282811,
    1260249420200879207073002426459096815348755427009989248418732684855600714071753810504317945197, ⟨0, 2,
    106422331203595, [69320782443, 32332454, 20107]⟩⟩) (.leaf ⟨374, 16, 82, 226, 16, 112, ⟨[[(137438953472, 0)],
    [(352187318272, 0)]], 3, 4⟩, ⟨[[(423707576838, 0), (3930544081662, 0), (27059154300, 0), (1266847962, 0),
    (47893072, 0)], [(93460828551, 0), (1868556900, 0), (80189699, 0), (3886195, 0), (237385, 0)], [(0, 19054426),
    (978866, 0), (85734, 0), (6967, 0), (536, 0)], [(17540, 0), (584, 0), (81, 0), (8, 0), (1, 0)]], 3, 4⟩,
    1099511627776, 0, 1657572092, ⟨[[(39287333818248, 0), (0, 91037418488), (384808283, 0), (335823, 0), (1991, 0)],
    [(24118157500, 0), (0, 69147912), (0, 42135), (0, 2608), (0, 81)], [(0, 24197471), (99481, 0), (656, 0), (33, 0),
    (1, 0)], [(37404, 0), (0, 256), (0, 8)]], 3, 4⟩, 68719476736, 159480232,
    1001730507898260118427395817163873190014862139354316853686647294289722182283098398454346789350, ⟨0, 2,
    109853325086173, [61963448654, 26525449, 15140]⟩⟩)) (.sy (.leaf ⟨210, 16, 41, 264, 16, 127, ⟨[[(137438953472,
    0)], [(352187318272, 0)]], 3, 4⟩, ⟨[[(0, 236937905211), (2331475216612, 0), (9289693249, 0), (218091200, 0),
    (4308948, 0)], [(194850669284, 0), (2152323124, 0), (49050661, 0), (1247072, 0), (37730, 0)], [(0, 63566299),
    (2181988, 0), (99159, 0), (4011, 0), (148, 0)], [(116847, 0), (2458, 0), (167, 0), (8, 0)]], 3, 4⟩,
    1099511627776, 0, 2781354648, ⟨[[(39725742002463, 0), (0, 78273792186), (302679163, 0), (187113, 0), (673, 0)],
    [(43381641487, 0), (0, 108478968), (0, 60159), (0, 2740), (0, 74)], [(0, 76747452), (283667, 0), (1466, 0), (63,
    0), (1, 0)], [(211713, 0), (0, 1084), (0, 25), (0, 1)]], 3, 4⟩, 68719476736, 243320264,
    523307085177877434962813897284513449548330120898964387705652265773748915690950170968326677175, ⟨0, 2,
    134106820039054, [125100856375, 95351262, 96902]⟩⟩) (.leaf ⟨210, 16, 41, 257, 16, 118, ⟨[[(137438953472, 0)],
    [(352187318272, 0)]], 3, 4⟩, ⟨[[(264322247905, 0), (2296108534260, 0), (13476454217, 0), (360606308, 0),
    (10394617, 0)], [(194988260518, 0), (2711479201, 0), (77349061, 0), (2627941, 0), (101289, 0)], [(0, 42552012),
    (3694326, 0), (203487, 0), (9849, 0), (456, 0)], [(129990, 0), (5322, 0), (396, 0), (24, 0), (2, 0)]], 3, 4⟩,
    1099511627776, 0, 3025087492, ⟨[[(38787829519370, 0), (0, 75926314521), (360509877, 0), (363629, 0), (5195, 0)],
    [(41997370675, 0), (0, 120579481), (0, 298224), (0, 10483), (0, 213)], [(0, 72779069), (389759, 0), (6148, 0),
    (187, 0), (3, 0)], [(192017, 0), (0, 2410), (0, 84), (0, 2)]], 3, 4⟩, 68719476736, 437034262,
    1383883539698981352233917307898983620353084100350606913792993899644715348490092624777902459811, ⟨0, 2,
    124603187122901, [116235441356, 88594086, 90035]⟩⟩))) (.sx (.sy (.leaf ⟨241, 16, 41, 276, 16, 125, ⟨[[(0,
    137438953472)], [(352187318272, 0)]], 3, 4⟩, ⟨[[(0, 68960995078), (2520300716752, 0), (14840443868, 0),
    (376762770, 0), (9462911, 0)], [(182682177525, 0), (2607791792, 0), (72297405, 0), (2242096, 0), (75598, 0)],
    [(0, 33365449), (3006704, 0), (156737, 0), (6854, 0), (272, 0)], [(91083, 0), (3606, 0), (252, 0), (13, 0), (1,
    0)]], 3, 4⟩, 1099511627776, 0, 1836604964, ⟨[[(39748282317015, 0), (0, 72519019584), (318300352, 0), (156621, 0),
    (1423, 0)], [(37613000244, 0), (0, 96478096), (0, 110719), (0, 4027), (0, 88)], [(0, 57035619), (247976, 0),
    (2261, 0), (70, 0), (1, 0)], [(128506, 0), (0, 1108), (0, 29), (0, 1)]], 3, 4⟩, 68719476736, 183008456,
    848173256653451124533425020911858295312744018830123047852068967242690878906492361511771676811, ⟨0, 3,
    143026624006158, [107411943193, 71417515, 63313]⟩⟩) (.leaf ⟨241, 16, 41, 260, 16, 112, ⟨[[(0, 137438953472)],
    [(352187318272, 0)]], 3, 4⟩, ⟨[[(84302402370, 0), (2463774353063, 0), (22010887559, 0), (694749135, 0),
    (25265093, 0)], [(180580674117, 0), (3411018255, 0), (123590459, 0), (5246504, 0), (262883, 0)], [(0, 6905228),
    (5372209, 0), (350702, 0), (22430, 0), (1718, 0)], [(113117, 0), (8390, 0), (844, 0), (92, 0), (11, 0)]], 3, 4⟩,
    1099511627776, 0, 3302887322, ⟨[[(38784588843975, 0), (0, 70726902598), (408921383, 0), (498950, 0), (9786, 0)],
    [(36207113954, 0), (0, 115280807), (0, 527320), (0, 16168), (0, 295)], [(0, 52809041), (413811, 0), (8817, 0),
    (232, 0), (4, 0)], [(104253, 0), (0, 2840), (0, 98), (0, 2)]], 3, 4⟩, 68719476736, 482083217,
    1934268957421967823253283545179485474921992831775159539036135071194439169726830995646150946986, ⟨0, 3,
    128151855109518, [96241101101, 63990094, 56729]⟩⟩)) (.sy (.leaf ⟨272, 16, 41, 278, 16, 119, ⟨[[(0,
    412316860416)], [(352187318272, 0)]], 3, 4⟩, ⟨[[(0, 353856586931), (2667394330321, 0), (22350893346, 0),
    (637322072, 0), (19199759, 0)], [(170113030407, 0), (3140798210, 0), (105348659, 0), (3852734, 0), (154828, 0)],
    [(0, 8186483), (4075547, 0), (239865, 0), (12405, 0), (738, 0)], [(79117, 0), (5165, 0), (427, 0), (35, 0), (4,
    0)]], 3, 4⟩, 1099511627776, 0, 1783965955, ⟨[[(39738462285864, 0), (0, 68382129927), (354007864, 0), (158797, 0),
    (3235, 0)], [(33055709125, 0), (0, 90773496), (0, 195689), (0, 6413), (0, 123)], [(0, 43650186), (236940, 0),
    (3244, 0), (88, 0), (1, 0)], [(82165, 0), (0, 1223), (0, 35), (0, 1)]], 3, 4⟩, 68719476736, 206373280,
    1379620275476788747200529807324627003804026150418098773961509114074871355690447160645932477007, ⟨0, 3,
    145400039923161, [90679999740, 53466981, 42034]⟩⟩) (.sy (.leaf ⟨272, 16, 41, 355, 16, 146, ⟨[[(0, 412316860416)],
    [(352187318272, 0)]], 3, 4⟩, ⟨[[(0, 379221193863), (1788925381728, 0), (10495937051, 0), (187533664, 0),
    (4209722, 0)], [(229201217753, 0), (2701452158, 0), (57785484, 0), (1530450, 0), (53914, 0)], [(20382941, 0),
    (4579546, 0), (185448, 0), (8626, 0), (463, 0)], [(143356, 0), (8520, 0), (639, 0), (48, 0), (3, 0)]], 3, 4⟩,
    1099511627776, 0, 2953329972, ⟨[[(39008272131200, 0), (0, 49115455980), (241285219, 0), (229850, 0), (3974, 0)],
    [(31988583695, 0), (0, 80317146), (0, 353437), (0, 7628), (0, 98)], [(0, 40388693), (288475, 0), (5002, 0), (92,
    0), (1, 0)], [(62377, 0), (0, 1963), (0, 49), (0, 1)]], 3, 4⟩, 68719476736, 142858091,
    1906207071915868394236129917356851482601176173039809421165807697231254398655281253880218259693, ⟨0, 3,
    178389964947744, [111254453463, 65598145, 51571]⟩⟩) (.sx (.leaf ⟨528, 16, 82, 515, 16, 209, ⟨[[(0,
    137438953472)], [(352187318272, 0)]], 3, 4⟩, ⟨[[(0, 537110179533), (2658711859162, 0), (18506644368, 0),
    (396521821, 0), (11425788, 0)], [(175753436159, 0), (2337201727, 0), (59767311, 0), (2080197, 0), (91773, 0)],
    [(14885185, 0), (2437178, 0), (129241, 0), (7755, 0), (454, 0)], [(36386, 0), (3179, 0), (307, 0), (25, 0), (2,
    0)]], 3, 4⟩, 1099511627776, 0, 640430631, ⟨[[(38524646764434, 0), (0, 32206152668), (121715786, 0), (137076, 0),
    (1483, 0)], [(16114681383, 0), (0, 31521646), (0, 144632), (0, 1993), (0, 17)], [(0, 10024951), (71602, 0), (991,
    0), (12, 0)], [(6065, 0), (0, 274), (0, 5)]], 3, 4⟩, 68719476736, 22205505,
    1483081875281312574302840167604095116446859592238008868555393945167027367768121671103986268069, ⟨0, 3,
    251489048856255, [81950098484, 24863501, 10058]⟩⟩) (.leaf ⟨559, 16, 82, 495, 16, 195, ⟨[[(0, 412316860416)],
    [(352187318272, 0)]], 3, 4⟩, ⟨[[(0, 539127175914), (2714090183311, 0), (24056045101, 0), (649842351, 0),
    (24510222, 0)], [(167679263084, 0), (2723388061, 0), (89950245, 0), (4248303, 0), (225925, 0)], [(25254607, 0),
    (3537752, 0), (256043, 0), (18594, 0), (1153, 0)], [(46890, 0), (6302, 0), (720, 0), (61, 0), (4, 0)]], 3, 4⟩,
    1099511627776, 0, 1316794630, ⟨[[(38528986243311, 0), (0, 31481649795), (142322275, 0), (213178, 0), (2414, 0)],
    [(15051081134, 0), (0, 34212775), (0, 206351), (0, 2843), (0, 24)], [(0, 8444412), (83299, 0), (1275, 0), (15,
    0)], [(3097, 0), (0, 317), (0, 6)]], 3, 4⟩, 68719476736, 32663160,
    3121142487525040213962274637695574241733109402036647691892604040261412953780579826878564129914, ⟨0, 3,
    241777275043606, [72251776834, 20714386, 7918]⟩⟩)))))
theorem c65 : checkC job ⟨6, 8, 7, 8, 9, 13⟩ 3 100 lims t65 176 48 32 57 3 128 = true := by decide +kernel

def t66 : CTree :=
  .sx (.sx (.sy (.leaf ⟨302, 16, 41, 385, 16, 159, ⟨[[(412316860416, 0)], [(352187318272, 0)]], 3, 4⟩,
    ⟨[[(501712633228, 0), (1946445557331, 0), (10170451613, 0), (156804920, 0), (2662313, 0)], [(220405981321, 0),
    (2431135092, 0), (46014638, 0), (951673, 0), (23854, 0)], [(9193200, 0), (3288006, 0), (108515, 0), (3540, 0),
    (148, 0)], [(97913, 0), (4452, 0), (236, 0), (14, 0), (1, 0)]], 3, 4⟩, 1099511627776, 0, 1420956509,
    ⟨[[(40009591152520, 0), (0, 47748816605), (197172745, 0), (43757, 0), (1109, 0)], [(29829706907, 0), (0,
    61209473), (0, 115275), (0, 2668), (0, 36)], [(0, 35192906), (149449, 0), (1625, 0), (31, 0)], [(58487, 0), (0,
    743), (0, 16)]], 3, 4⟩, 68719476736, 71426586,
    898414481522292444168191741547500611514504665571690938593836278283119206305286272722228198036, ⟨0, 3,
    205292864482019, [108839247659, 57647907, 40712]⟩⟩) (.leaf ⟨302, 16, 41, 367, 16, 147, ⟨[[(412316860416, 0)],
    [(352187318272, 0)]], 3, 4⟩, ⟨[[(0, 522218303880), (1930621944274, 0), (12708347852, 0), (234841165, 0),
    (5693567, 0)], [(219015381321, 0), (2879091424, 0), (65641792, 0), (1892090, 0), (75413, 0)], [(31305762, 0),
    (4778718, 0), (211997, 0), (11087, 0), (646, 0)], [(127252, 0), (9169, 0), (761, 0), (60, 0), (4, 0)]], 3, 4⟩,
    1099511627776, 0, 2823866063, ⟨[[(39466856643156, 0), (0, 46514937863), (234034183, 0), (160633, 0), (3373, 0)],
    [(29075831980, 0), (0, 70726419), (0, 289145), (0, 6129), (0, 77)], [(0, 33111905), (221075, 0), (3616, 0), (65,
    0), (1, 0)], [(46878, 0), (0, 1346), (0, 32), (0, 1)]], 3, 4⟩, 68719476736, 125763731,
    2027962642032004121756352915593249053907254537434836820993699576834844771750165599827927960521, ⟨0, 3,
    189799063389036, [100624964816, 53297121, 37639]⟩⟩)) (.sy (.leaf ⟨333, 16, 41, 377, 16, 148, ⟨[[(137438953472,
    0)], [(352187318272, 0)]], 3, 4⟩, ⟨[[(0, 165053382207), (2061625841111, 0), (14777561953, 0), (278895535, 0),
    (7019172, 0)], [(209454744811, 0), (2997538118, 0), (71652105, 0), (2158913, 0), (90745, 0)], [(37225615, 0),
    (4822968, 0), (224906, 0), (12252, 0), (737, 0)], [(112943, 0), (9104, 0), (775, 0), (62, 0), (4, 0)]], 3, 4⟩,
    1099511627776, 0, 2563016480, ⟨[[(39988769725952, 0), (0, 44821737991), (225787986, 0), (81553, 0), (2618, 0)],
    [(26699578872, 0), (0, 62246397), (0, 220773), (0, 4670), (0, 58)], [(0, 27766071), (164127, 0), (2455, 0), (44,
    0)], [(37785, 0), (0, 856), (0, 20)]], 3, 4⟩, 68719476736, 94850952,
    1915415535675170949152277665946407978617605971418800174531577901471572712178168719440357835030, ⟨0, 3,
    200352558647489, [91957843305, 44210502, 28340]⟩⟩) (.sx (.leaf ⟨651, 16, 82, 521, 16, 201, ⟨[[(0, 137438953472)],
    [(352187318272, 0)]], 3, 4⟩, ⟨[[(46758942544, 0), (2962970410360, 0), (25874330151, 0), (629916011, 0),
    (22763556, 0)], [(154311585411, 0), (2570158641, 0), (78128359, 0), (3418365, 0), (185269, 0)], [(21728069, 0),
    (2702067, 0), (178704, 0), (12827, 0), (836, 0)], [(30906, 0), (3785, 0), (418, 0), (37, 0), (3, 0)]], 3, 4⟩,
    1099511627776, 0, 894332196, ⟨[[(39503316228937, 0), (0, 30418404408), (125177577, 0), (87254, 0), (1315, 0)],
    [(13339903971, 0), (0, 25443805), (0, 104916), (0, 1469), (0, 12)], [(0, 6811934), (42661, 0), (560, 0), (7, 0)],
    [(3757, 0), (0, 129), (0, 2)]], 3, 4⟩, 68719476736, 17142654,
    3318430959307176619877320037101860063618779856845839590484367698305283379256205295145121494963, ⟨0, 3,
    269067979743600, [63919409597, 15728201, 5160]⟩⟩) (.out ⟨673, 16, 81, 500, 16, 188, ⟨[[(343597383680, 0)],
    [(347892350976, 0)]], 1, 1⟩, ⟨[[(154807788078, 0), (3029132154649, 0)], [(149135111660, 0), (3012894467, 0)]], 1,
    1⟩, 1099511627776, 0, 637434048877, ⟨[], 0, 0⟩, 0, 0, 0, ⟨0, 3, 257273511821482, [57088236394]⟩⟩ 0 1 856)))) (.sx
    (.sy (.sx (.leaf ⟨712, 16, 82, 523, 16, 198, ⟨[[(412316860416, 0)], [(352187318272, 0)]], 3, 4⟩, ⟨[[(0,
    215680459187), (3085869027440, 0), (28745954592, 0), (709000434, 0), (26238790, 0)], [(145001178949, 0),
    (2594264379, 0), (81424812, 0), (3624455, 0), (201700, 0)], [(22108925, 0), (2612372, 0), (174824, 0), (12696,
    0), (852, 0)], [(27064, 0), (3418, 0), (377, 0), (34, 0), (2, 0)]], 3, 4⟩, 1099511627776, 0, 905368266,
    ⟨[[(39988521895129, 0), (0, 29882802057), (125207102, 0), (57091, 0), (1184, 0)], [(12333821994, 0), (0,
    23107002), (0, 88567), (0, 1251), (0, 11)], [(0, 5804043), (33384, 0), (422, 0), (5, 0)], [(3198, 0), (0, 87),
    (0, 1)]], 3, 4⟩, 68719476736, 16013429,
    2428668943991768280778431752575699506434024171736677813826306577734470295399327355738525865394, ⟨0, 3,
    276603850796393, [57529527675, 12933797, 3877]⟩⟩) (.out ⟨734, 16, 81, 503, 16, 186, ⟨[[(68719476736, 0)],
    [(347892350976, 0)]], 1, 1⟩, ⟨[[(228778356204, 0), (3158744184866, 0)], [(140988707410, 0), (3017961530, 0)]], 1,
    1⟩, 1099511627776, 0, 649112505100, ⟨[], 0, 0⟩, 0, 0, 0, ⟨0, 3, 264919246124895, [51806632132]⟩⟩ 0 1 1207)) (.sx
    (.sy (.out ⟨704, 16, 81, 688, 16, 254, ⟨[[(0, 343597383680)], [(347892350976, 0)]], 1, 1⟩, ⟨[[(0, 396356008477),
    (2181097254357, 0)], [(203664488963, 0), (2340996708, 0)]], 1, 1⟩, 1099511627776, 0, 438636187619, ⟨[], 0, 0⟩, 0,
    0, 0, ⟨0, 3, 354835242940827, [73800505199]⟩⟩ 0 1 1241) (.out ⟨704, 16, 81, 642, 16, 233, ⟨[[(0, 343597383680)],
    [(347892350976, 0)]], 1, 1⟩, ⟨[[(190678535081, 0), (2183723054643, 0)], [(201913618688, 0), (2966241064, 0)]], 1,
    1⟩, 1099511627776, 0, 580568069278, ⟨[], 0, 0⟩, 0, 0, 0, ⟨0, 3, 325498470886665, [67698888628]⟩⟩ 0 1 1608)) (.sy
    (.sy (.out ⟨734, 16, 81, 841, 16, 304, ⟨[[(68719476736, 0)], [(347892350976, 0)]], 1, 1⟩, ⟨[[(0, 86638779760),
    (1427220774407, 0)], [(252467918572, 0), (1769909573, 0)]], 1, 1⟩, 1099511627776, 0, 424778907181, ⟨[], 0, 0⟩, 0,
    0, 0, ⟨0, 3, 432986294741764, [84673205205]⟩⟩ 0 1 1695) (.out ⟨734, 16, 81, 810, 16, 290, ⟨[[(68719476736, 0)],
    [(347892350976, 0)]], 1, 1⟩, ⟨[[(0, 204880056363), (1433515645974, 0)], [(251954761301, 0), (2035567275, 0)]], 1,
    1⟩, 1099511627776, 0, 488482891701, ⟨[], 0, 0⟩, 0, 0, 0, ⟨0, 3, 413046136431288, [80773781281]⟩⟩ 0 1 1904))
    (.skip)))) (.sy (.sy (.out ⟨385, 16, 40, 434, 16, 156, ⟨[[], [(343597383680, 0)]], 1, 1⟩, ⟨[[(0, 31112632488),
    (1477040964815, 0)], [(244851184812, 0), (3274160903, 0)]], 1, 1⟩, 1099511627776, 0, 869700096163, ⟨[], 0, 0⟩, 0,
    0, 0, ⟨0, 3, 228260738532139, [81822791428]⟩⟩ 0 1 1817) (.sx (.out ⟨764, 16, 81, 655, 16, 234, ⟨[[(481036337152,
    0)], [(347892350976, 0)]], 1, 1⟩, ⟨[[(40414982173, 0), (2302024793755, 0)], [(194053943454, 0), (2941208728,
    0)]], 1, 1⟩, 1099511627776, 0, 557086988949, ⟨[], 0, 0⟩, 0, 0, 0, ⟨0, 3, 339416418056082, [62586307350]⟩⟩ 0 1
    1952) (.sx (.out ⟨1574, 16, 162, 868, 16, 304, ⟨[[(481036337152, 0)], [(347892350976, 0)]], 1, 1⟩, ⟨[[(0,
    47034417350), (3307892959151, 0)], [(133499817898, 0), (2544325966, 0)]], 1, 1⟩, 1099511627776, 0, 548622234772,
    ⟨[], 0, 0⟩, 0, 0, 0, ⟨0, 3, 446719934263675, [39477860948]⟩⟩ 0 1 2392) (.skip)))) (.skip)))
theorem c66 : checkC job ⟨6, 8, 7, 8, 9, 13⟩ 3 100 lims t66 272 48 32 111 3 256 = true := by decide +kernel

def t67 : CTree :=
  .sx (.sx (.sy (.sx (.leaf ⟨589, 16, 82, 517, 16, 204, ⟨[[(412316860416, 0)], [(352187318272, 0)]], 3, 4⟩, ⟨[[(0,
    304596655635), (2810069143771, 0), (22289742774, 0), (515478850, 0), (17089301, 0)], [(163861431725, 0),
    (2472989625, 0), (69999834, 0), (2818161, 0), (142232, 0)], [(19426025, 0), (2621893, 0), (160664, 0), (10897,
    0), (682, 0)], [(33730, 0), (3687, 0), (392, 0), (34, 0), (2, 0)]], 3, 4⟩, 1099511627776, 0, 787749680,
    ⟨[[(38999341233569, 0), (0, 31221370407), (125003317, 0), (117491, 0), (1453, 0)], [(14578257621, 0), (0,
    28421738), (0, 126286), (0, 1754), (0, 15)], [(0, 8150582), (56090, 0), (763, 0), (9, 0)], [(4505, 0), (0, 193),
    (0, 3)]], 3, 4⟩, 68719476736, 20025334,
    2276963403664690805902197685369187990581008137329588615543634141096158541068612704821194119659, ⟨0, 3,
    259999852152906, [71642832093, 19468161, 7054]⟩⟩) (.sy (.leaf ⟨620, 16, 82, 705, 16, 273, ⟨[[(137438953472, 0)],
    [(352187318272, 0)]], 3, 4⟩, ⟨[[(403075505115, 0), (1999686063901, 0), (9115151063, 0), (120999676, 0), (2350374,
    0)], [(219762791194, 0), (1872365526, 0), (30781091, 0), (736124, 0), (20451, 0)], [(34110393, 0), (2219340, 0),
    (80441, 0), (2999, 0), (97, 0)], [(52862, 0), (3588, 0), (207, 0), (9, 0)]], 3, 4⟩, 1099511627776, 0, 603629177,
    ⟨[[(39140824444028, 0), (0, 22148302758), (69530567, 0), (50715, 0), (479, 0)], [(13827206099, 0), (0, 20591788),
    (0, 73592), (0, 738), (0, 4)], [(0, 7243906), (40010, 0), (409, 0), (4, 0)], [(3475, 0), (0, 133), (0, 2)]], 3,
    4⟩, 68719476736, 7102326,
    2874930575710035865358526018355588469765057662105556660248270071513174088486231004870548509045, ⟨0, 3,
    356912908863506, [91120835908, 23533274, 8104]⟩⟩) (.out ⟨613, 16, 81, 669, 16, 255, ⟨[[(0, 481036337152)],
    [(347892350976, 0)]], 1, 1⟩, ⟨[[(390984819332, 0), (1984483791183, 0)], [(216979047694, 0), (2188380134, 0)]], 1,
    1⟩, 1099511627776, 0, 441122656332, ⟨[], 0, 0⟩, 0, 0, 0, ⟨0, 3, 333380189597780, [85112868705]⟩⟩ 0 1 573))) (.sx
    (.sy (.sx (.leaf ⟨1170, 16, 165, 1006, 16, 391, ⟨[[(515396075520, 0)], [(354334801920, 0)]], 3, 4⟩, ⟨[[(0,
    51690154375), (2848696118961, 0), (13990821558, 0), (208689775, 0), (4340113, 0)], [(167825213656, 0),
    (1493861397, 0), (27582390, 0), (725031, 0), (20362, 0)], [(15142474, 0), (1053003, 0), (42321, 0), (1617, 0),
    (51, 0)], [(13231, 0), (1015, 0), (60, 0), (3, 0)]], 3, 4⟩, 1099511627776, 0, 115677510, ⟨[[(38652764143322, 0),
    (0, 15126689350), (35316805, 0), (26709, 0), (152, 0)], [(7187106474, 0), (0, 8262322), (0, 25629), (0, 173), (0,
    1)], [(0, 1905521), (9788, 0), (74, 0)], [(290, 0), (0, 18)]], 3, 4⟩, 68719476736, 1950564,
    2585419088306043016059845926042408605586626916147442840389266828114311085669519031530084091261, ⟨0, 3,
    495015798091889, [69565084760, 9576691, 1758]⟩⟩) (.out ⟨1180, 16, 162, 974, 16, 373, ⟨[[(0, 481036337152)],
    [(347892350976, 0)]], 1, 1⟩, ⟨[[(0, 270999882772), (2864571211921, 0)], [(163252407173, 0), (1648733934, 0)]], 1,
    1⟩, 1099511627776, 0, 295952947388, ⟨[], 0, 0⟩, 0, 0, 0, ⟨0, 3, 478515415733475, [64653691884]⟩⟩ 0 1 476)) (.out
    ⟨582, 16, 81, 627, 16, 238, ⟨[[(206158430208, 0)], [(347892350976, 0)]], 1, 1⟩, ⟨[[(0, 165635554606),
    (1911515897371, 0)], [(219590507070, 0), (2571122071, 0)]], 1, 1⟩, 1099511627776, 0, 542857399978, ⟨[], 0, 0⟩, 0,
    0, 0, ⟨0, 3, 303333160845057, [83583304108]⟩⟩ 0 1 658)) (.sy (.out ⟨613, 16, 81, 630, 16, 236, ⟨[[(0,
    481036337152)], [(347892350976, 0)]], 1, 1⟩, ⟨[[(0, 129509220961), (1983562902596, 0)], [(214846626601, 0),
    (2719463581, 0)]], 1, 1⟩, 1099511627776, 0, 561224672842, ⟨[], 0, 0⟩, 0, 0, 0, ⟨0, 3, 308540097039514,
    [78771125547]⟩⟩ 0 1 934) (.skip)))) (.sy (.sx (.sy (.out ⟨643, 16, 81, 674, 16, 254, ⟨[[(0, 68719476736)],
    [(347892350976, 0)]], 1, 1⟩, ⟨[[(481106667284, 0), (2050361025148, 0)], [(212132507922, 0), (2258067333, 0)]], 1,
    1⟩, 1099511627776, 0, 442864946253, ⟨[], 0, 0⟩, 0, 0, 0, ⟨0, 3, 340016253009325, [80773781281]⟩⟩ 0 1 808) (.out
    ⟨643, 16, 81, 635, 16, 235, ⟨[[(0, 68719476736)], [(347892350976, 0)]], 1, 1⟩, ⟨[[(0, 272481920704),
    (2058012566279, 0)], [(210843628897, 0), (2845782931, 0)]], 1, 1⟩, 1099511627776, 0, 576079954705, ⟨[], 0, 0⟩, 0,
    0, 0, ⟨0, 3, 314581966366895, [74731648036]⟩⟩ 0 1 1190)) (.sy (.out ⟨673, 16, 81, 636, 16, 233, ⟨[[(343597383680,
    0)], [(347892350976, 0)]], 1, 1⟩, ⟨[[(124228988696, 0), (2116083365839, 0)], [(205670122878, 0), (2917142062,
    0)]], 1, 1⟩, 1099511627776, 0, 580397266692, ⟨[], 0, 0⟩, 0, 0, 0, ⟨0, 3, 318854937523433, [70752973829]⟩⟩ 0 1
    1406) (.skip))) (.skip))) (.skip)
theorem c67 : checkC job ⟨6, 8, 7, 8, 9, 13⟩ 3 100 lims t67 272 48 32 117 3 256 = true := by decide +kernel

def t68 : CTree :=
  .sy (.sx (.sy (.sx (.sx (.sx (.sy (.sy (.out ⟨825, 16, 81, 822, 16, 286, ⟨[[(206158430208, 0)], [(347892350976,
    0)]], 1, 1⟩, ⟨[[(117464322723, 0), (1579757501630, 0)], [(242434954591, 0), (2263129686, 0)]], 1, 1⟩,
    1099511627776, 0, 495186305454, ⟨[], 0, 0⟩, 0, 0, 0, ⟨0, 3, 428974808177555, [70862887872]⟩⟩ 0 1 2541) (.skip))
    (.skip)) (.skip)) (.skip)) (.skip)) (.skip)) (.skip)) (.skip)
theorem c68 : checkC job ⟨6, 8, 7, 8, 9, 13⟩ 3 100 lims t68 208 48 16 57 3 128 = true := by decide +kernel

def t69 : CTree :=
  .sx (.sx (.sx (.leaf ⟨343, 16, 82, 345, 16, 165, ⟨[[(412316860416, 0)], [(352187318272, 0)]], 3, 4⟩, ⟨[[(0,
    454202880332), (2956581139174, 0), (14319107993, 0), (388838335, 0), (11759751, 0)], [(157541910411, 0),
    (1871006150, 0), (50192630, 0), (1745638, 0), (72322, 0)], [(0, 27876547), (1422790, 0), (79923, 0), (4155, 0),
    (200, 0)], [(37891, 0), (1245, 0), (99, 0), (6, 0)]], 3, 4⟩, 1099511627776, 0, 700237888, ⟨[[(37815023642139, 0),
    (0, 55896809270), (184877935, 0), (230080, 0), (2578, 0)], [(25091363774, 0), (0, 54133011), (0, 150075), (0,
    3752), (0, 53)], [(0, 26334715), (128626, 0), (2015, 0), (41, 0)], [(24396, 0), (0, 846), (0, 20)]], 3, 4⟩,
    68719476736, 114181496,
    1382356336867545734349802417539687835031040413973550583101310086336601772948868179786018924875, ⟨0, 2,
    152692909987767, [99460253070, 46390043, 28850]⟩⟩) (.leaf ⟨374, 16, 82, 349, 16, 161, ⟨[[(137438953472, 0)],
    [(352187318272, 0)]], 3, 4⟩, ⟨[[(501199898835, 0), (3074118748829, 0), (19485148054, 0), (586174713, 0),
    (20403109, 0)], [(149479692343, 0), (2129189809, 0), (66932940, 0), (2673364, 0), (119954, 0)], [(0, 17186913),
    (1792399, 0), (110931, 0), (6232, 0), (339, 0)], [(33011, 0), (1609, 0), (136, 0), (10, 0), (1, 0)]], 3, 4⟩,
    1099511627776, 0, 744229024, ⟨[[(37869742831623, 0), (0, 54094477642), (198429861, 0), (268183, 0), (3228, 0)],
    [(22925137971, 0), (0, 52096711), (0, 186083), (0, 4322), (0, 58)], [(0, 22112143), (117009, 0), (2008, 0), (40,
    0)], [(29283, 0), (0, 589), (0, 15)]], 3, 4⟩, 68719476736, 88962942,
    1440364865439919970045632068199241382940816564303080860644922106697191943948379051686097880098, ⟨0, 2,
    157914154811373, [89072457440, 38130333, 21764]⟩⟩)) (.sx (.leaf ⟨405, 16, 82, 349, 16, 155, ⟨[[(0,
    137438953472)], [(352187318272, 0)]], 3, 4⟩, ⟨[[(0, 127544242277), (3173718452626, 0), (26058199289, 0),
    (876772711, 0), (34573828, 0)], [(141591891079, 0), (2428461268, 0), (89135788, 0), (4063121, 0), (207139, 0)],
    [(0, 7662924), (2244796, 0), (154262, 0), (10053, 0), (695, 0)], [(30269, 0), (2105, 0), (211, 0), (21, 0), (2,
    0)]], 3, 4⟩, 1099511627776, 0, 1061215534, ⟨[[(37844676022962, 0), (0, 52195942310), (219678955, 0), (355724, 0),
    (4635, 0)], [(20989262135, 0), (0, 52466128), (0, 262643), (0, 5646), (0, 72)], [(0, 18136658), (126715, 0),
    (2444, 0), (46, 0), (1, 0)], [(21303, 0), (0, 580), (0, 16)]], 3, 4⟩, 68719476736, 107270815,
    1532598842442726625410132414216031979782465601683845164348606318674744035324525985697451999232, ⟨0, 2,
    159940594151089, [79240101890, 31344977, 16532]⟩⟩) (.leaf ⟨436, 16, 82, 343, 16, 147, ⟨[[(0, 412316860416)],
    [(352187318272, 0)]], 3, 4⟩, ⟨[[(0, 479597616282), (3252579775572, 0), (34387981312, 0), (1312284492, 0),
    (60207268, 0)], [(133683927646, 0), (2774908018, 0), (119660426, 0), (6473857, 0), (409699, 0)], [(1057004, 0),
    (2835850, 0), (229908, 0), (19462, 0), (1776, 0)], [(29556, 0), (3062, 0), (420, 0), (56, 0), (7, 0)]], 3, 4⟩,
    1099511627776, 0, 2097090323, ⟨[[(37832920679283, 0), (0, 50795961922), (250486977, 0), (501163, 0), (6992, 0)],
    [(19309998334, 0), (0, 54628574), (0, 369057), (0, 7623), (0, 95)], [(0, 14867977), (144852, 0), (3069, 0), (56,
    0), (1, 0)], [(13330, 0), (0, 646), (0, 18)]], 3, 4⟩, 68719476736, 137809020,
    1816333196932383633193704092127120225297049661663022406603190439103894994092965884806226382981, ⟨0, 2,
    158639184660135, [69845563814, 25678516, 12588]⟩⟩))) (.sx (.sx (.leaf ⟨466, 16, 82, 330, 16, 137,
    ⟨[[(412316860416, 0)], [(352187318272, 0)]], 3, 4⟩, ⟨[[(186141953895, 0), (3306876928051, 0), (45171221710, 0),
    (2031722971, 0), (115485597, 0)], [(125570395220, 0), (3190520190, 0), (167720324, 0), (11675375, 0), (959212,
    0)], [(9445101, 0), (3773892, 0), (400373, 0), (45572, 0), (4974, 0)], [(32116, 0), (5423, 0), (1012, 0), (157,
    0), (19, 0)]], 3, 4⟩, 1099511627776, 0, 5163187784, ⟨[[(37849330375028, 0), (0, 50229530994), (295303479, 0),
    (737497, 0), (10996, 0)], [(17892823068, 0), (0, 58596394), (0, 512091), (0, 10558), (0, 132)], [(0, 12285763),
    (167601, 0), (3870, 0), (70, 0), (1, 0)], [(7229, 0), (0, 737), (0, 20)]], 3, 4⟩, 68719476736, 196856223,
    2661163137565770833652933115050196881614820711559539681383451293470246626849638240091546549215, ⟨0, 3,
    153885747733799, [60802241953, 20879891, 9560]⟩⟩) (.sy (.leaf ⟨497, 16, 82, 496, 16, 202, ⟨[[(137438953472, 0)],
    [(352187318272, 0)]], 3, 4⟩, ⟨[[(0, 25699271501), (2563762644509, 0), (19288905806, 0), (460300188, 0),
    (14465614, 0)], [(181000549825, 0), (2513840478, 0), (71366471, 0), (2776839, 0), (127187, 0)], [(18770949, 0),
    (3063232, 0), (182797, 0), (11581, 0), (670, 0)], [(47280, 0), (4830, 0), (495, 0), (40, 0), (2, 0)]], 3, 4⟩,
    1099511627776, 0, 964019899, ⟨[[(38072145232427, 0), (0, 32705662737), (135097952, 0), (218505, 0), (2256, 0)],
    [(16818523409, 0), (0, 37365468), (0, 221476), (0, 3034), (0, 25)], [(0, 10703257), (102129, 0), (1565, 0), (19,
    0)], [(5087, 0), (0, 428), (0, 8)]], 3, 4⟩, 68719476736, 33469100,
    1501294480968799247943596385100696967952100141711433446938987371841081960044046068952490878250, ⟨0, 3,
    235231794014551, [84104658860, 27095573, 11639]⟩⟩) (.sx (.leaf ⟨985, 16, 165, 629, 16, 251, ⟨[[(0,
    171798691840)], [(354334801920, 0)]], 3, 4⟩, ⟨[[(236324444460, 0), (3446927799299, 0), (35597185967, 0),
    (1136238888, 0), (44955324, 0)], [(122625386486, 0), (2177565184, 0), (86612844, 0), (4492916, 0), (232542, 0)],
    [(12513258, 0), (1925484, 0), (156319, 0), (11284, 0), (660, 0)], [(14273, 0), (2243, 0), (257, 0), (21, 0), (1,
    0)]], 3, 4⟩, 1099511627776, 0, 842650992, ⟨[[(37629285894095, 0), (0, 23772684094), (94552823, 0), (188343, 0),
    (1433, 0)], [(8225988255, 0), (0, 18062683), (0, 118131), (0, 1195), (0, 7)], [(0, 2335971), (30860, 0), (399,
    0), (4, 0)], [(0, 178), (0, 68), (0, 1)]], 3, 4⟩, 68719476736, 11016007,
    1732066265765036746351691351361548064162923992214279863894601458566443762170834808726496569092, ⟨0, 3,
    289765225760382, [53073871994, 8683552, 1894]⟩⟩) (.leaf ⟨1016, 16, 165, 604, 16, 237, ⟨[[(0, 240518168576)],
    [(354334801920, 0)]], 3, 4⟩, ⟨[[(373247294988, 0), (3470930641563, 0), (43068851766, 0), (1598236747, 0),
    (70464743, 0)], [(118468307533, 0), (2474264757, 0), (118158159, 0), (6939538, 0), (378302, 0)], [(16372875, 0),
    (2599852, 0), (239097, 0), (18078, 0), (1068, 0)], [(18592, 0), (3417, 0), (406, 0), (33, 0), (2, 0)]], 3, 4⟩,
    1099511627776, 0, 1363136174, ⟨[[(37633095487632, 0), (0, 23613835540), (108926582, 0), (254657, 0), (2004, 0)],
    [(7894301108, 0), (0, 19861273), (0, 148519), (0, 1535), (0, 10)], [(0, 2028667), (35074, 0), (477, 0), (4, 0)],
    [(0, 553), (0, 77), (0, 1)]], 3, 4⟩, 68719476736, 14842627,
    3647885890637588491431552730263616369936004020828696492819789966666391607479609477462143986325, ⟨0, 3,
    278339907455448, [48587274527, 7707372, 1630]⟩⟩)))) (.sy (.sx (.leaf ⟨528, 16, 82, 471, 16, 186, ⟨[[(0,
    137438953472)], [(352187318272, 0)]], 3, 4⟩, ⟨[[(468737597168, 0), (2613798431719, 0), (26146863558, 0),
    (810684072, 0), (32933355, 0)], [(171349922652, 0), (3021568424, 0), (116035012, 0), (6084188, 0), (327677, 0)],
    [(32620287, 0), (4823844, 0), (391917, 0), (29136, 0), (1765, 0)], [(66593, 0), (10396, 0), (1218, 0), (101, 0),
    (6, 0)]], 3, 4⟩, 1099511627776, 0, 2106688473, ⟨[[(38091120370835, 0), (0, 32177368737), (163775998, 0), (348736,
    0), (3799, 0)], [(15629925984, 0), (0, 41647025), (0, 318918), (0, 4438), (0, 38)], [(0, 8766032), (121525, 0),
    (2041, 0), (25, 0)], [(1031, 0), (0, 500), (0, 9)]], 3, 4⟩, 68719476736, 51563926,
    3415185962020530021845055188443903954521349565847127713725436735993178836816842679674156233101, ⟨0, 3,
    223813220513222, [72931666594, 22127326, 8951]⟩⟩) (.sy (.sx (.leaf ⟨1109, 16, 165, 961, 16, 373, ⟨[[(0,
    446676598784)], [(354334801920, 0)]], 3, 4⟩, ⟨[[(0, 478842827835), (2766055885126, 0), (15745868888, 0),
    (274813117, 0), (6151169, 0)], [(172234667809, 0), (1706820589, 0), (37597825, 0), (1096730, 0), (31032, 0)],
    [(20163440, 0), (1518473, 0), (68458, 0), (2660, 0), (82, 0)], [(19938, 0), (1768, 0), (107, 0), (5, 0)]], 3, 4⟩,
    1099511627776, 0, 195545142, ⟨[[(38187224059521, 0), (0, 15177915082), (41053336, 0), (46323, 0), (249, 0)],
    [(7408473522, 0), (0, 10263039), (0, 41455), (0, 279), (0, 1)], [(0, 1914566), (14869, 0), (124, 0), (1, 0)],
    [(0, 51), (0, 30)]], 3, 4⟩, 68719476736, 2197785,
    3082881257900441058019872111605189019111290261240903892014443967069883029546836989559925087464, ⟨0, 3,
    459136584537803, [70066559111, 10184093, 1974]⟩⟩) (.out ⟨1119, 16, 162, 923, 16, 353, ⟨[[(0, 206158430208)],
    [(347892350976, 0)]], 1, 1⟩, ⟨[[(514365924914, 0), (2787713755517, 0)], [(167243784261, 0), (1945096026, 0)]], 1,
    1⟩, 1099511627776, 0, 359094471402, ⟨[], 0, 0⟩, 0, 0, 0, ⟨0, 3, 440796520898324, [64509377358]⟩⟩ 0 1 503))
    (.skip))) (.skip)))
theorem c69 : checkC job ⟨6, 8, 7, 8, 9, 13⟩ 3 100 lims t69 176 48 32 123 3 256 = true := by decide +kernel

def t70 : CTree :=
  .sx (.sx (.sx (.leaf ⟨343, 16, 82, 331, 16, 151, ⟨[[(412316860416, 0)], [(352187318272, 0)]], 3, 4⟩, ⟨[[(0,
    407328618083), (2914206258265, 0), (23097131210, 0), (853777738, 0), (36423749, 0)], [(156559958415, 0),
    (2517223034, 0), (97730880, 0), (4874241, 0), (253432, 0)], [(0, 13918287), (2828271, 0), (210845, 0), (14186,
    0), (903, 0)], [(46607, 0), (3306, 0), (340, 0), (31, 0), (3, 0)]], 3, 4⟩, 1099511627776, 0, 1377897568,
    ⟨[[(36934980552978, 0), (0, 54059305890), (241632555, 0), (661999, 0), (8669, 0)], [(24123999124, 0), (0,
    69330947), (0, 536796), (0, 11414), (0, 144)], [(0, 23396442), (262388, 0), (5999, 0), (109, 0), (1, 0)], [(2936,
    0), (0, 2022), (0, 51), (0, 1)]], 3, 4⟩, 68719476736, 241891118,
    1443580906321395326732769740828993301987079348794676698448283625115215861857275939436902876169, ⟨0, 2,
    139737147928198, [91021201294, 42453919, 26402]⟩⟩) (.leaf ⟨374, 16, 82, 326, 16, 143, ⟨[[(137438953472, 0)],
    [(352187318272, 0)]], 3, 4⟩, ⟨[[(0, 18653716836), (3016438418193, 0), (32937980924, 0), (1409005912, 0),
    (68554711, 0)], [(146956701819, 0), (2998715000, 0), (142212561, 0), (8349192, 0), (514720, 0)], [(0, 379755),
    (3816835, 0), (334621, 0), (28000, 0), (2304, 0)], [(45681, 0), (5053, 0), (685, 0), (84, 0), (9, 0)]], 3, 4⟩,
    1099511627776, 0, 2543885697, ⟨[[(36960684635257, 0), (0, 52440521530), (281121202, 0), (927546, 0), (12590, 0)],
    [(21892591136, 0), (0, 72801517), (0, 715760), (0, 14768), (0, 184)], [(0, 19058207), (271626, 0), (6710, 0),
    (123, 0), (1, 0)], [(11754, 0), (0, 1665), (0, 46), (0, 1)]], 3, 4⟩, 68719476736, 254911482,
    2159536611416165177256531641729007295701877337844822494681448971007119512807656880005289683541, ⟨0, 2,
    140259156136810, [79114046049, 33867314, 19331]⟩⟩)) (.sx (.sy (.leaf ⟨405, 16, 82, 472, 16, 202, ⟨[[(0,
    137438953472)], [(352187318272, 0)]], 3, 4⟩, ⟨[[(377745377272, 0), (2266449490775, 0), (14356241811, 0),
    (325161361, 0), (8589608, 0)], [(201749563778, 0), (2336566616, 0), (60352388, 0), (1955718, 0), (69126, 0)],
    [(8991910, 0), (3037212, 0), (148752, 0), (7302, 0), (348, 0)], [(61721, 0), (4384, 0), (356, 0), (25, 0), (1,
    0)]], 3, 4⟩, 1099511627776, 0, 911436082, ⟨[[(37195952406623, 0), (0, 35427471492), (141222705, 0), (316804, 0),
    (3047, 0)], [(20236908491, 0), (0, 48403815), (0, 338650), (0, 4774), (0, 41)], [(0, 15919933), (169126, 0),
    (2879, 0), (36, 0)], [(10226, 0), (0, 891), (0, 17)]], 3, 4⟩, 68719476736, 58772426,
    1265265370961638269798804988030105901104043995482755502033358430869121543402929165947433856605, ⟨0, 2,
    208438709796903, [103267745689, 40849583, 21545]⟩⟩) (.leaf ⟨405, 16, 82, 437, 16, 182, ⟨[[(0, 137438953472)],
    [(352187318272, 0)]], 3, 4⟩, ⟨[[(233402236996, 0), (2237335781722, 0), (20495354919, 0), (591752059, 0),
    (19128452, 0)], [(196845854086, 0), (3020405510, 0), (106169228, 0), (4494420, 0), (190858, 0)], [(31304185, 0),
    (5441249, 0), (361508, 0), (21903, 0), (1137, 0)], [(97916, 0), (11822, 0), (1181, 0), (87, 0), (5, 0)]], 3, 4⟩,
    1099511627776, 0, 2327834365, ⟨[[(36759359447152, 0), (0, 35026139079), (193644983, 0), (703963, 0), (7045, 0)],
    [(19537367130, 0), (0, 66645126), (0, 704588), (0, 10004), (0, 87)], [(0, 13140798), (294355, 0), (5679, 0), (73,
    0), (1, 0)], [(0, 4815), (0, 1620), (0, 33)]], 3, 4⟩, 68719476736, 126848861,
    2351931532794201261386749447413559163073192750271129789593550973524865283389721356280078701931, ⟨0, 2,
    187801213777408, [93043216413, 36805070, 19412]⟩⟩)) (.sy (.leaf ⟨436, 16, 82, 456, 16, 188, ⟨[[(0,
    412316860416)], [(352187318272, 0)]], 3, 4⟩, ⟨[[(132290519845, 0), (2348616133292, 0), (20419598572, 0),
    (568268188, 0), (18783469, 0)], [(191102416914, 0), (2866644325, 0), (96232578, 0), (4112588, 0), (183542, 0)],
    [(27368491, 0), (4634383, 0), (309209, 0), (19529, 0), (1062, 0)], [(78540, 0), (9450, 0), (976, 0), (75, 0), (4,
    0)]], 3, 4⟩, 1099511627776, 0, 1853591680, ⟨[[(37192004552749, 0), (0, 34128138444), (171563280, 0), (495816, 0),
    (4958, 0)], [(18479276379, 0), (0, 54665894), (0, 491533), (0, 6850), (0, 59)], [(0, 12179092), (207778, 0),
    (3751, 0), (47, 0)], [(504, 0), (0, 1030), (0, 20)]], 3, 4⟩, 68719476736, 81447049,
    1709901984560945216574726440796167395373500256958177347233035685167452981400876912202119632816, ⟨0, 2,
    202885487864663, [89326299299, 32840551, 16098]⟩⟩) (.skip)))) (.sx (.sy (.sx (.sy (.leaf ⟨466, 16, 82, 584, 16,
    234, ⟨[[(412316860416, 0)], [(352187318272, 0)]], 3, 4⟩, ⟨[[(442871603584, 0), (1608149160585, 0), (8947385079,
    0), (150366641, 0), (2980817, 0)], [(240454300526, 0), (2244903380, 0), (47737017, 0), (1259154, 0), (31988, 0)],
    [(56519882, 0), (4453185, 0), (185219, 0), (6599, 0), (188, 0)], [(137753, 0), (11268, 0), (640, 0), (25, 0), (1,
    0)]], 3, 4⟩, 1099511627776, 0, 2413547308, ⟨[[(37294287576681, 0), (0, 25053281834), (114205451, 0), (290716, 0),
    (2283, 0)], [(17101189706, 0), (0, 44673804), (0, 350196), (0, 3724), (0, 24)], [(0, 9603081), (173149, 0),
    (2455, 0), (23, 0)], [(0, 5093), (0, 816), (0, 12)]], 3, 4⟩, 68719476736, 37191454,
    2055579537983299946571852560841805706614558434829165175560703488992858523056498461544291822036, ⟨0, 3,
    262841350143861, [103852004504, 35663463, 16329]⟩⟩) (.skip)) (.skip)) (.skip)) (.skip))
theorem c70 : checkC job ⟨6, 8, 7, 8, 9, 13⟩ 3 100 lims t70 176 48 32 129 3 256 = true := by decide +kernel

def t71 : CTree :=
  .sy (.sx (.sx (.sx (.sy (.leaf ⟨343, 16, 82, 434, 16, 191, ⟨[[(412316860416, 0)], [(352187318272, 0)]], 3, 4⟩,
    ⟨[[(0, 56150037496), (2018389967769, 0), (12971733174, 0), (315942100, 0), (8195647, 0)], [(215594879416, 0),
    (2415870840, 0), (66715050, 0), (2161156, 0), (68300, 0)], [(6175680, 0), (3847960, 0), (187985, 0), (8242, 0),
    (334, 0)], [(92133, 0), (6259, 0), (451, 0), (27, 0), (1, 0)]], 3, 4⟩, 1099511627776, 0, 1369980881,
    ⟨[[(36317147212828, 0), (0, 37824293682), (171897418, 0), (607465, 0), (5945, 0)], [(23181992774, 0), (0,
    69975007), (0, 688017), (0, 10038), (0, 89)], [(0, 19116894), (367860, 0), (6999, 0), (90, 0), (1, 0)], [(0,
    30584), (0, 2894), (0, 55), (0, 1)]], 3, 4⟩, 68719476736, 211026935,
    2071592368261581601532276658349576939685288662176935914133519341779105237057131139563677963942, ⟨0, 2,
    176753610955536, [115132777796, 53699990, 33396]⟩⟩) (.sx (.leaf ⟨675, 16, 165, 602, 16, 261, ⟨[[(515396075520,
    0)], [(354334801920, 0)]], 3, 4⟩, ⟨[[(0, 228150631764), (2919194445681, 0), (24858854110, 0), (693833668, 0),
    (19475238, 0)], [(158158992829, 0), (2184251164, 0), (73132151, 0), (2668429, 0), (91180, 0)], [(9510114, 0),
    (2166456, 0), (122060, 0), (5942, 0), (255, 0)], [(23745, 0), (2201, 0), (179, 0), (11, 0), (1, 0)]], 3, 4⟩,
    1099511627776, 0, 386610829, ⟨[[(35905039990940, 0), (0, 25506456253), (103290313, 0), (346191, 0), (2370, 0)],
    [(11394644143, 0), (0, 32069162), (0, 281373), (0, 2807), (0, 17)], [(0, 3667752), (102337, 0), (1412, 0), (12,
    0)], [(0, 10493), (0, 421), (0, 6)]], 3, 4⟩, 68719476736, 27930477,
    2527294831433162466329005114197384884299550001085341366562571001340530134698673671109169557800, ⟨0, 2,
    237713639499188, [80465484406, 19195011, 6105]⟩⟩) (.skip))) (.sy (.sy (.leaf ⟨374, 16, 82, 546, 16, 232,
    ⟨[[(137438953472, 0)], [(352187318272, 0)]], 3, 4⟩, ⟨[[(413472063034, 0), (1355359441998, 0), (5780997769, 0),
    (80169746, 0), (1192526, 0)], [(260835689391, 0), (1852814210, 0), (30810894, 0), (595029, 0), (11348, 0)],
    [(33660343, 0), (3343596, 0), (100403, 0), (2736, 0), (66, 0)], [(131790, 0), (6785, 0), (308, 0), (11, 0)]], 3,
    4⟩, 1099511627776, 0, 1849155849, ⟨[[(36440307170069, 0), (0, 28437370718), (121747640, 0), (378187, 0), (2958,
    0)], [(21025698476, 0), (0, 57801588), (0, 502985), (0, 5696), (0, 40)], [(0, 15286407), (284224, 0), (4419, 0),
    (45, 0)], [(0, 11895), (0, 1803), (0, 29)]], 3, 4⟩, 68719476736, 89756986,
    1454739582848095212703694858926508682480744602962502785571815556660768439844705908979695208669, ⟨0, 2,
    227553316249929, [128352857926, 54945573, 31362]⟩⟩) (.skip)) (.skip))) (.skip)) (.skip)) (.skip)
theorem c71 : checkC job ⟨6, 8, 7, 8, 9, 13⟩ 3 100 lims t71 176 48 32 69 3 128 = true := by decide +kernel

def t72 : CTree :=
  .skip
theorem c72 : checkC job ⟨6, 8, 7, 8, 9, 13⟩ 3 100 lims t72 272 48 32 33 3 64 = true := by decide +kernel

def t73 : CTree :=
  .skip
theorem c73 : checkC job ⟨6, 8, 7, 8, 9, 13⟩ 3 100 lims t73 208 48 16 33 3 64 = true := by decide +kernel

def t74 : CTree :=
  .skip
theorem c74 : checkC job ⟨6, 8, 7, 8, 9, 13⟩ 3 100 lims t74 176 48 8 15 3 32 = true := by decide +kernel

def t75 : CTree :=
  .skip
theorem c75 : checkC job ⟨6, 8, 7, 8, 9, 13⟩ 3 100 lims t75 160 48 4 15 3 32 = true := by decide +kernel

def t76 : CTree :=
  .skip
theorem c76 : checkC job ⟨6, 8, 7, 8, 9, 13⟩ 3 100 lims t76 56 48 2 21 3 32 = true := by decide +kernel

def t77 : CTree :=
  .skip
theorem c77 : checkC job ⟨6, 8, 7, 8, 9, 13⟩ 3 100 lims t77 152 48 2 9 3 16 = true := by decide +kernel

end PyX.Kron.S2b
