import Verif.Lemmas.T1psJob

/-!
# Temperature from pressure and entropy in region 1, part B of the certificate
-/

namespace PyX.Kron.T1ps

set_option Elab.async false

def t10 : CTree :=
  .sx (.sy (.sy (.sy (.sy (.leaf ⟨350, 51, 8, 467, 16, 226, ⟨[[(102456891522560, 0)], [(0, 1861112546010858)]], 2,
    3⟩, ⟨[[(0, 730669870601728), (386841258830893, 0), (0, 27893954937), (1846113, 0)], [(6610477100906, 0),
    (14255510432, 0), (0, 5400922), (2975, 0)], [(0, 3088588855), (3564511, 0), (0, 2021), (1, 0)]], 2, 3⟩,
    4503599627370496, 183, 1938850406206, ⟨[[(305337312822540, 0), (332938330746, 0), (171784523, 0), (62987, 0)],
    [(1131513351, 0), (29760540, 0), (0, 31338), (91, 0)], [(1419293, 0), (0, 10840), (14, 0)]], 2, 3⟩,
    1099511627776, 821917, 33777427004951898537460666497147782578951281977785712787020474505521703563683125326109615,
    lc0⟩) (.leaf ⟨350, 51, 8, 518, 16, 236, ⟨[[(102456891522560, 0)], [(0, 1861112546010858)]], 2, 3⟩,
    ⟨[[(512069607284224, 0), (384252800015048, 0), (0, 27196351269), (1786595, 0)], [(11534261784689, 0),
    (11846605937, 0), (0, 3316980), (1532, 0)], [(0, 2136702175), (2604367, 0), (0, 1190), (1, 0)]], 2, 3⟩,
    4503599627370496, 183, 1082519194624, ⟨[[(315155971743351, 0), (328541019943, 0), (162542491, 0), (54693, 0)],
    [(1971870583, 0), (26976815, 0), (0, 21467), (80, 0)], [(1116299, 0), (0, 9599), (13, 0)]], 2, 3⟩, 1099511627776,
    1094817, 34671151399118713483076840844051186355440494108529678449739821174702204313637101139295760, lc0⟩)) (.leaf
    ⟨350, 51, 8, 300, 16, 126, ⟨[[(102456891522560, 0)], [(0, 1861112546010858)]], 2, 3⟩, ⟨[[(0, 1454959508496128),
    (381364789701232, 0), (0, 52210092694), (7263679, 0)], [(9085186829241, 0), (9939409708, 0), (0, 3739936), (2659,
    0)], [(0, 548459886), (1845702, 0), (0, 1221), (1, 0)]], 2, 3⟩, 4503599627370496, 183, 6330194107727,
    ⟨[[(329898412004253, 0), (642683667501, 0), (595206636, 0), (350232, 0)], [(3121602317, 0), (47853803, 0), (0,
    38880), (513, 0)], [(718801, 0), (0, 15959), (42, 0)]], 2, 3⟩, 1099511627776, 10770939,
    35559263072869953286374821793033110380799754858756154501873928492480795375300793414262060, lc0⟩)) (.sy (.leaf
    ⟨350, 51, 8, 357, 16, 137, ⟨[[(102456891522560, 0)], [(0, 1861112546010858)]], 2, 3⟩, ⟨[[(0, 1829037288097792),
    (377725288381133, 0), (0, 48915879209), (6988703, 0)], [(13260675674734, 0), (8742573922, 0), (0, 2126477),
    (1158, 0)], [(0, 18856865), (1377165, 0), (0, 592)]], 2, 3⟩, 4503599627370496, 183, 4980068556304,
    ⟨[[(348595125886178, 0), (622868189101, 0), (528035713, 0), (257926, 0)], [(4457970138, 0), (43113325, 0), (3583,
    0), (390, 0)], [(298587, 0), (0, 12651), (30, 0)]], 2, 3⟩, 1099511627776, 13556345,
    13127652305973128856987181945150177237272437211192747400913621415704592236745315757103956, lc0⟩) (.leaf ⟨350, 51,
    8, 418, 16, 149, ⟨[[(102456891522560, 0)], [(0, 1861112546010858)]], 2, 3⟩, ⟨[[(1698787795120896, 0),
    (376216395274991, 0), (0, 45852422892), (6394810, 0)], [(17512281948702, 0), (8259201234, 0), (0, 1360564), (652,
    0)], [(440927593, 0), (1176871, 0), (0, 315)]], 2, 3⟩, 4503599627370496, 183, 4193458264027, ⟨[[(366021323785871,
    0), (599766371818, 0), (463612025, 0), (184071, 0)], [(5647089818, 0), (40618519, 0), (29756, 0), (297, 0)], [(0,
    26194), (0, 10274), (20, 0)]], 2, 3⟩, 1099511627776, 16364551,
    15961006873857638706023683300098254387783291776062786762655119599771666877823972154193258, lc0⟩))) (.sy (.sy
    (.leaf ⟨350, 51, 8, 482, 16, 161, ⟨[[(102456891522560, 0)], [(0, 1861112546010858)]], 2, 3⟩,
    ⟨[[(1710432415968256, 0), (374221701224268, 0), (0, 42931910899), (5719336, 0)], [(21892642068430, 0),
    (8113778822, 0), (0, 893453), (429, 0)], [(888332898, 0), (1102941, 0), (0, 159)]], 2, 3⟩, 4503599627370496, 183,
    3552302645813, ⟨[[(383228852471854, 0), (579541714140, 0), (409560888, 0), (127206, 0)], [(6817432824, 0),
    (39783883, 0), (46768, 0), (233, 0)], [(0, 301023), (0, 8681), (10, 0)]], 2, 3⟩, 1099511627776, 19870407,
    14566201531432199307417528074999604114968253752370042294072675907644386989878014870434856, lc0⟩) (.leaf ⟨350, 51,
    8, 548, 16, 173, ⟨[[(102456891522560, 0)], [(0, 1861112546010858)]], 2, 3⟩, ⟨[[(1734481483055104, 0),
    (371944280283804, 0), (0, 40251402905), (5093838, 0)], [(26476103870451, 0), (8194497405, 0), (0, 563302), (310,
    0)], [(1353663535, 0), (1109078, 0), (0, 55)]], 2, 3⟩, 4503599627370496, 183, 3126039041715, ⟨[[(399772817519597,
    0), (560939587786, 0), (363110944, 0), (82473, 0)], [(7972676860, 0), (39971758, 0), (57538, 0), (191, 0)], [(0,
    538361), (0, 7782), (1, 0)]], 2, 3⟩, 1099511627776, 25077800,
    11640379044380623765962228973695611189858077771264694687199301440747038418691060741685580, lc0⟩)) (.leaf ⟨350,
    51, 8, 327, 16, 96, ⟨[[(102456891522560, 0)], [(0, 1861112546010858)]], 2, 3⟩, ⟨[[(380833437744128, 0),
    (370167506849169, 0), (0, 73730704082), (17348320, 0)], [(17015130316960, 0), (8680622368, 0), (0, 392634), (865,
    0)], [(1072331436, 0), (1237915, 0), (130, 0)]], 2, 3⟩, 4503599627370496, 183, 69113434616224,
    ⟨[[(423553073134504, 0), (1065533089360, 0), (1204758653, 0), (243672, 0)], [(9734410328, 0), (82384883, 0),
    (266169, 0), (1213, 0)], [(0, 866051), (0, 14965), (0, 47), (0, 1)]], 2, 3⟩, 1099511627776, 259147641,
    9334913427073150128162352508004829174760666643935999650562447095633249245351871575033888, lc0⟩))) (.sy (.sy (.sy
    (.leaf ⟨250, 51, 8, 243, 16, 114, ⟨[[(73183493944832, 0)], [(0, 1861112546010858)]], 2, 3⟩, ⟨[[(891785598141440,
    0), (383841809958973, 0), (0, 56564599200), (9296320, 0)], [(3872417191261, 0), (14239164614, 0), (0, 9810300),
    (10018, 0)], [(0, 1392702761), (3306678, 0), (0, 3378), (4, 0)]], 2, 3⟩, 4503599627370496, 126, 22191768419935,
    ⟨[[(310137548573208, 0), (664219028021, 0), (697335274, 0), (416935, 0)], [(1311083277, 0), (61419687, 0), (0,
    118329), (717, 0)], [(1262300, 0), (0, 20676), (55, 0)]], 2, 3⟩, 1099511627776, 7195586,
    42011673824761453877761440248659428562981096108761307856207918950290428137140947871368061, lc0⟩) (.leaf ⟨250, 51,
    8, 298, 16, 125, ⟨[[(73183493944832, 0)], [(0, 1861112546010858)]], 2, 3⟩, ⟨[[(0, 1010577565026816),
    (380835117856490, 0), (0, 52767450939), (7907005, 0)], [(8739675339951, 0), (10791147234, 0), (0, 4332835),
    (3166, 0)], [(0, 585898528), (2017483, 0), (0, 1364), (1, 0)]], 2, 3⟩, 4503599627370496, 126, 8166195609193,
    ⟨[[(329838416499154, 0), (643304737715, 0), (609487825, 0), (305393, 0)], [(2997537548, 0), (51420983, 0), (0,
    47279), (537, 0)], [(711670, 0), (0, 16088), (42, 0)]], 2, 3⟩, 1099511627776, 10361153,
    25208002739224796113452867627364339763683168166951947977793821945475874881950784416460520, lc0⟩)) (.sy (.leaf
    ⟨250, 51, 8, 355, 16, 136, ⟨[[(73183493944832, 0)], [(0, 1861112546010858)]], 2, 3⟩, ⟨[[(0, 1359404802842112),
    (377150880506484, 0), (0, 49105411953), (7241384, 0)], [(13157089554428, 0), (9370285534, 0), (0, 2411829),
    (1365, 0)], [(0, 8707047), (1492474, 0), (0, 657)]], 2, 3⟩, 4503599627370496, 126, 5554064604247,
    ⟨[[(348529927516434, 0), (623626823068, 0), (536174892, 0), (222746, 0)], [(4426357727, 0), (45983619, 0), (0,
    1660), (413, 0)], [(288379, 0), (0, 12777), (30, 0)]], 2, 3⟩, 1099511627776, 13682840,
    11551919129115767850551536857377929843346923597213398993108621400502657630879372387655546, lc0⟩) (.leaf ⟨250, 51,
    8, 417, 16, 148, ⟨[[(73183493944832, 0)], [(0, 1861112546010858)]], 2, 3⟩, ⟨[[(0, 2207125431438080),
    (375747168811350, 0), (0, 45890586684), (6521468, 0)], [(17618906820176, 0), (8793871072, 0), (0, 1509486), (757,
    0)], [(489698775, 0), (1271335, 0), (0, 341)]], 2, 3⟩, 4503599627370496, 126, 4465403659309, ⟨[[(366540404776667,
    0), (601313726959, 0), (467923094, 0), (155431, 0)], [(5730513654, 0), (43072107, 0), (28027, 0), (320, 0)], [(0,
    50166), (0, 10401), (18, 0)]], 2, 3⟩, 1099511627776, 17062415,
    12509358834479362923880500157420853881780918032504229727127110088854297850832875842740154, lc0⟩))) (.sy (.sy
    (.leaf ⟨250, 51, 8, 481, 16, 160, ⟨[[(73183493944832, 0)], [(0, 1861112546010858)]], 2, 3⟩, ⟨[[(0,
    1960869886237952), (373914753132843, 0), (0, 42889493127), (5794735, 0)], [(22205712660244, 0), (8617454779, 0),
    (0, 965655), (492, 0)], [(974995748, 0), (1195623, 0), (0, 162)]], 2, 3⟩, 4503599627370496, 126, 3750691418147,
    ⟨[[(383700245438743, 0), (580708930481, 0), (410677948, 0), (103322, 0)], [(6962144848, 0), (41984770, 0),
    (47072, 0), (258, 0)], [(0, 328655), (0, 8909), (8, 0)]], 2, 3⟩, 1099511627776, 21768705,
    11563499603292420288712151961735481501705222458057931116072292780778503854554020376420860, lc0⟩) (.leaf ⟨250, 51,
    8, 543, 16, 171, ⟨[[(73183493944832, 0)], [(0, 1861112546010858)]], 2, 3⟩, ⟨[[(2115016658194432, 0),
    (369670749254620, 0), (0, 39923748410), (5114600, 0)], [(26849734624241, 0), (8656205637, 0), (0, 580043), (353,
    0)], [(1473988814, 0), (1205893, 0), (0, 41)]], 2, 3⟩, 4503599627370496, 126, 3305198178467, ⟨[[(399723015098670,
    0), (564353686923, 0), (366021403, 0), (63436, 0)], [(8138326716, 0), (42204559, 0), (59866, 0), (220, 0)], [(0,
    566602), (0, 8198), (0, 2)]], 2, 3⟩, 1099511627776, 27182521,
    10056072211974469188998760963625115903693763146729702078931298842988172002318826661471798, lc0⟩)) (.leaf ⟨250,
    51, 8, 325, 16, 95, ⟨[[(73183493944832, 0)], [(0, 1861112546010858)]], 2, 3⟩, ⟨[[(0, 1817330866890496),
    (368464918354506, 0), (0, 73047902541), (17390928, 0)], [(17377542028330, 0), (9217772721, 0), (0, 310191), (993,
    0)], [(1171619577, 0), (1372856, 0), (199, 0)]], 2, 3⟩, 4503599627370496, 126, 69481717411498,
    ⟨[[(424075484195808, 0), (1071651909115, 0), (1202992759, 0), (96433, 0)], [(10033242503, 0), (87191650, 0),
    (289096, 0), (1461, 0)], [(0, 924765), (0, 16413), (0, 68), (0, 1)]], 2, 3⟩, 1099511627776, 296666684,
    8561652424144161263981400615187724844744558641826947434621800559993903012186642674628880, lc0⟩)))
theorem c10 : checkC job ⟨6, 8, 5, 6, 9, 13⟩ 1 40 B1.zlims t10 773 121 160 667 175 1896 = true := by decide +kernel

def t11 : CTree :=
  .sy (.sy (.leaf ⟨300, 101, 8, 384, 16, 104, ⟨[[(87820192733696, 0)], [(0, 3722225092021715)]], 2, 3⟩,
    ⟨[[(395873359920896, 0), (352472640527474, 0), (0, 62975402496), (13750784, 0)], [(44240967283439, 0),
    (19572137061, 0), (933582, 0), (1341, 0)], [(7000781989, 0), (6583847, 0), (1865, 0), (1, 0)]], 2, 3⟩,
    4503599627370496, 36, 57710169657331, ⟨[[(453111261674364, 0), (1040218119707, 0), (1012541321, 0), (0, 230320)],
    [(12359257027, 0), (94144454, 0), (334474, 0), (1337, 0)], [(0, 1373126), (0, 19398), (0, 130), (0, 1)]], 2, 3⟩,
    1099511627776, 729327998,
    6608001295793608970804580440300939742296588525357996531686733595367048331424118339601330, lc0⟩) (.leaf ⟨300, 101,
    8, 449, 16, 114, ⟨[[(87820192733696, 0)], [(0, 3722225092021715)]], 2, 3⟩, ⟨[[(1359418677120512, 0),
    (343080004185976, 0), (0, 55289100977), (11342967, 0)], [(56188394058616, 0), (22669041960, 0), (2403131, 0),
    (1211, 0)], [(10500023087, 0), (9077705, 0), (3297, 0), (1, 0)]], 2, 3⟩, 4503599627370496, 36, 55237282132615,
    ⟨[[(480414025428702, 0), (995607793542, 0), (813023960, 0), (0, 554792)], [(15014534685, 0), (104206079, 0),
    (380178, 0), (1449, 0)], [(0, 1977230), (0, 26184), (0, 199), (0, 1)]], 2, 3⟩, 1099511627776, 1084027469,
    8559004889616624731859274664657515830596227266764905393610329409236553005400129360711211, lc0⟩)) (.sy (.leaf
    ⟨300, 101, 8, 516, 16, 124, ⟨[[(87820192733696, 0)], [(0, 3722225092021715)]], 2, 3⟩, ⟨[[(855929255061504, 0),
    (335237503322990, 0), (0, 48742973266), (9531417, 0)], [(70123154338831, 0), (26962794244, 0), (3969705, 0),
    (1300, 0)], [(15379788411, 0), (12941003, 0), (5252, 0), (2, 0)]], 2, 3⟩, 4503599627370496, 36, 67228678526353,
    ⟨[[(506202712093632, 0), (952013122615, 0), (636411740, 0), (0, 816244)], [(17931174982, 0), (116484402, 0),
    (435073, 0), (1666, 0)], [(0, 2793741), (0, 35985), (0, 269), (0, 1)]], 2, 3⟩, 1099511627776, 1598460738,
    10797997632573070668444969493276937193887009053882794317299629176334139248490904289279894, lc0⟩) (.sx (.leaf
    ⟨350, 51, 8, 631, 16, 145, ⟨[[(102456891522560, 0)], [(0, 1861112546010858)]], 2, 3⟩, ⟨[[(1734495607956480, 0),
    (353830529405480, 0), (0, 46945872003), (8704322, 0)], [(45431355720370, 0), (16520192493, 0), (2675592, 0),
    (696, 0)], [(5574277685, 0), (4502705, 0), (1825, 0), (1, 0)]], 2, 3⟩, 4503599627370496, 183, 17077613117249,
    ⟨[[(530064186648464, 0), (844359314481, 0), (432493191, 0), (0, 718406)], [(20577529426, 0), (115655666, 0),
    (394716, 0), (1373, 0)], [(0, 3604571), (0, 40554), (0, 260), (0, 1)]], 2, 3⟩, 1099511627776, 442196200,
    4878102892952970515003566472751573532985210034703973890875906290584509737759627085352966, lc0⟩) (.leaf ⟨250, 51,
    8, 625, 16, 143, ⟨[[(73183493944832, 0)], [(0, 1861112546010858)]], 2, 3⟩, ⟨[[(717697448482304, 0),
    (353175061900998, 0), (0, 45539905627), (8790455, 0)], [(47689788944000, 0), (18724884505, 0), (3696691, 0),
    (1050, 0)], [(6468409027, 0), (5686769, 0), (2638, 0), (1, 0)]], 2, 3⟩, 4503599627370496, 126, 20098403581494,
    ⟨[[(530253634154625, 0), (846156297406, 0), (393748548, 0), (0, 941707)], [(21684967871, 0), (128740655, 0),
    (478849, 0), (1767, 0)], [(0, 4156819), (0, 49847), (0, 335), (0, 2)]], 2, 3⟩, 1099511627776, 517443396,
    9003895047574844737515820294214181384668477269089937917085809864257285228961031547042082, lc0⟩)))
theorem c11 : checkC job ⟨6, 8, 5, 6, 9, 13⟩ 1 40 B1.zlims t11 773 121 160 1017 175 1896 = true := by decide +kernel

def t12 : CTree :=
  .sx (.sy (.sy (.sy (.leaf ⟨150, 51, 8, 239, 16, 112, ⟨[[(43910096366848, 0)], [(0, 1861112546010858)]], 2, 3⟩,
    ⟨[[(529077957929984, 0), (380690189307500, 0), (0, 58106160696), (11729231, 0)], [(3111592371794, 0),
    (15646279615, 0), (0, 11333637), (11640, 0)], [(0, 1496405543), (3603730, 0), (0, 3694), (4, 0)]], 2, 3⟩,
    4503599627370496, 79, 31445739750001, ⟨[[(310195328317102, 0), (670005003698, 0), (735577102, 0), (363581, 0)],
    [(1076206742, 0), (66656625, 0), (0, 133347), (764, 0)], [(1256432, 0), (0, 21030), (57, 0)]], 2, 3⟩,
    1099511627776, 7476441,
    41145070322926627365803540048844681988777037583388666559381231906998559581931358694999743, lc0⟩) (.leaf ⟨150, 51,
    8, 296, 16, 124, ⟨[[(43910096366848, 0)], [(0, 1861112546010858)]], 2, 3⟩, ⟨[[(0, 668658181840384),
    (380500084169486, 0), (0, 53467886839), (8673603, 0)], [(8378190835258, 0), (11721874459, 0), (0, 4992753),
    (3729, 0)], [(0, 623739669), (2204474, 0), (0, 1520), (1, 0)]], 2, 3⟩, 4503599627370496, 79, 10327736139892,
    ⟨[[(329792836577922, 0), (643626614906, 0), (624879792, 0), (257051, 0)], [(2876447784, 0), (55039527, 0), (0,
    55804), (562, 0)], [(704427, 0), (0, 16220), (42, 0)]], 2, 3⟩, 1099511627776, 10471199,
    17583960666870094726349674531437050561110801861777756130660292631180778159074340406170372, lc0⟩)) (.sy (.leaf
    ⟨150, 51, 8, 355, 16, 136, ⟨[[(43910096366848, 0)], [(0, 1861112546010858)]], 2, 3⟩, ⟨[[(1824357553738496, 0),
    (379508527681586, 0), (0, 49728953897), (7600716, 0)], [(13156152320544, 0), (10125552741, 0), (0, 2747396),
    (1610, 0)], [(5647771, 0), (1630736, 0), (0, 731), (1, 0)]], 2, 3⟩, 4503599627370496, 79, 6287542540243,
    ⟨[[(348090167210938, 0), (618900452773, 0), (536634466, 0), (180689, 0)], [(4368931643, 0), (48546132, 0), (0,
    7501), (429, 0)], [(285882, 0), (0, 12848), (29, 0)]], 2, 3⟩, 1099511627776, 13850844,
    10776362402881153224339543548577994491060272374516228774364112393251629769962895981771790, lc0⟩) (.leaf ⟨150, 51,
    8, 415, 16, 147, ⟨[[(43910096366848, 0)], [(0, 1861112546010858)]], 2, 3⟩, ⟨[[(0, 1609625316783616),
    (375398184066889, 0), (0, 45963697729), (6674023, 0)], [(17749517399641, 0), (9372644290, 0), (0, 1669750), (876,
    0)], [(546932220, 0), (1376645, 0), (0, 366)]], 2, 3⟩, 4503599627370496, 79, 4789331533446, ⟨[[(366458476766568,
    0), (601734099722, 0), (471955307, 0), (124370, 0)], [(5778276638, 0), (45513713, 0), (25718, 0), (347, 0)], [(0,
    64184), (0, 10573), (17, 0)]], 2, 3⟩, 1099511627776, 18568026,
    7628220853635456215903487670957186791676839067823560928378987797675567843455626572439378, lc0⟩))) (.sy (.sy
    (.leaf ⟨150, 51, 8, 479, 16, 159, ⟨[[(43910096366848, 0)], [(0, 1861112546010858)]], 2, 3⟩, ⟨[[(0,
    1081425948371712), (373721894573630, 0), (0, 42863149805), (5885839, 0)], [(22560946304634, 0), (9165458492, 0),
    (0, 1038079), (565, 0)], [(1075208066, 0), (1301628, 0), (0, 162)]], 2, 3⟩, 4503599627370496, 79, 3991682808208,
    ⟨[[(383584797845514, 0), (580873636206, 0), (411396660, 0), (77045, 0)], [(7073287224, 0), (44157514, 0), (47207,
    0), (286, 0)], [(0, 348141), (0, 9169), (5, 0)]], 2, 3⟩, 1099511627776, 23388470,
    8371010174541346912359773814013708627135845608896734330086365163571470523003591977496641, lc0⟩) (.leaf ⟨150, 51,
    8, 542, 16, 170, ⟨[[(43910096366848, 0)], [(0, 1861112546010858)]], 2, 3⟩, ⟨[[(0, 1146254282964480),
    (369664090061245, 0), (0, 39831889403), (5175822, 0)], [(27438958880009, 0), (9215982266, 0), (0, 592141), (404,
    0)], [(1622314153, 0), (1327176, 0), (0, 22)]], 2, 3⟩, 4503599627370496, 79, 3550303635345, ⟨[[(400130703081036,
    0), (564929956442, 0), (364511170, 0), (38831, 0)], [(8349725679, 0), (44405210, 0), (62938, 0), (251, 0)], [(0,
    603011), (0, 8599), (0, 6)]], 2, 3⟩, 1099511627776, 29801562,
    7036608446641280707926687236185211442960161383114086417603750374231151218916532091367064, lc0⟩)) (.leaf ⟨150, 51,
    8, 326, 16, 95, ⟨[[(43910096366848, 0)], [(0, 1861112546010858)]], 2, 3⟩, ⟨[[(0, 2044525367889920),
    (370779358015444, 0), (0, 73109602934), (17650671, 0)], [(17975096532079, 0), (9924370984, 0), (0, 191922),
    (1159, 0)], [(1301231028, 0), (1553361, 0), (296, 0)]], 2, 3⟩, 4503599627370496, 79, 70733340361174,
    ⟨[[(424126725863250, 0), (1065111285075, 0), (1173144427, 0), (0, 76900)], [(10312825721, 0), (91202837, 0),
    (309356, 0), (1702, 0)], [(0, 979764), (0, 17734), (0, 87), (0, 1)]], 2, 3⟩, 1099511627776, 333003257,
    8505468513911604089220138169559704603859671240161498533583562717695480491860558420342834, lc0⟩))) (.sy (.sy (.sy
    (.sy (.leaf ⟨50, 51, 8, 455, 16, 220, ⟨[[(14636698788960, 0)], [(0, 1861112546010858)]], 2, 3⟩,
    ⟨[[(423947162496512, 0), (388681055201563, 0), (0, 32120962424), (4553389, 0)], [(1401633062412, 0),
    (19789796215, 0), (0, 8597295), (4776, 0)], [(0, 3962493485), (4735337, 0), (0, 2670), (1, 0)]], 2, 3⟩,
    4503599627370496, 70, 5042154413063, ⟨[[(305257754337651, 0), (331997532848, 0), (192596460, 0), (38129, 0)],
    [(294985397, 0), (37224713, 0), (0, 41915), (102, 0)], [(1414131, 0), (0, 11139), (15, 0)]], 2, 3⟩,
    1099511627776, 666016, 33437507881125312907854892144376016535788354209255175685392920347580072674077575098682318,
    lc0⟩) (.leaf ⟨50, 51, 8, 506, 16, 230, ⟨[[(14636698788960, 0)], [(0, 1861112546010858)]], 2, 3⟩,
    ⟨[[(2192903662484992, 0), (384352775811383, 0), (0, 29537705352), (3170414, 0)], [(7786096507411, 0),
    (15863301002, 0), (0, 5232938), (2493, 0)], [(0, 2695915328), (3452003, 0), (0, 1618), (1, 0)]], 2, 3⟩,
    4503599627370496, 70, 2455881888244, ⟨[[(315048582710243, 0), (328339300616, 0), (179222844, 0), (32771, 0)],
    [(1341739621, 0), (33527136, 0), (0, 30223), (89, 0)], [(1103443, 0), (0, 9845), (13, 0)]], 2, 3⟩, 1099511627776,
    944316, 17721981719665944184371249637354106803074588793111384868605110387246344277649846320599710, lc0⟩)) (.leaf
    ⟨50, 51, 8, 294, 16, 123, ⟨[[(14636698788960, 0)], [(0, 1861112546010858)]], 2, 3⟩, ⟨[[(0, 432488404900864),
    (380377623361969, 0), (0, 54326915182), (9576703, 0)], [(8000869328222, 0), (12738282401, 0), (0, 5724996),
    (4355, 0)], [(0, 661258870), (2407242, 0), (0, 1687), (1, 0)]], 2, 3⟩, 4503599627370496, 70, 12857188532623,
    ⟨[[(329761288889207, 0), (643643504303, 0), (641413286, 0), (204874, 0)], [(2758400933, 0), (58710658, 0), (0,
    64453), (590, 0)], [(697068, 0), (0, 16354), (42, 0)]], 2, 3⟩, 1099511627776, 11375994,
    14778547788762876131488918022871585052714551003180468632745808989780298392149557151425068, lc0⟩)) (.sy (.leaf
    ⟨50, 51, 8, 353, 16, 135, ⟨[[(14636698788960, 0)], [(0, 1861112546010858)]], 2, 3⟩, ⟨[[(2223485778058240, 0),
    (379248076849973, 0), (0, 50067265508), (7964414, 0)], [(13066667006072, 0), (10870666089, 0), (0, 3096978),
    (1875, 0)], [(25414785, 0), (1770483, 0), (0, 803), (1, 0)]], 2, 3⟩, 4503599627370496, 70, 7067836795749,
    ⟨[[(348033773150291, 0), (619130849504, 0), (545920221, 0), (139627, 0)], [(4343431250, 0), (51485606, 0), (0,
    12525), (456, 0)], [(275452, 0), (0, 12979), (28, 0)]], 2, 3⟩, 1099511627776, 15195556,
    12115481534438114974216658498339768889827978532886573832096884658194726423972110713495250, lc0⟩) (.leaf ⟨50, 51,
    8, 413, 16, 146, ⟨[[(14636698788960, 0)], [(0, 1861112546010858)]], 2, 3⟩, ⟨[[(0, 1006412247657216),
    (375179696845532, 0), (0, 46074157608), (6855903, 0)], [(17908450128563, 0), (10000955588, 0), (0, 1840715),
    (1011, 0)], [(614579007, 0), (1495283, 0), (0, 389)]], 2, 3⟩, 4503599627370496, 70, 5180512583116,
    ⟨[[(366375149005704, 0), (601949924065, 0), (476222946, 0), (89772, 0)], [(5831159935, 0), (48006210, 0), (23750,
    0), (377, 0)], [(0, 78516), (0, 10753), (15, 0)]], 2, 3⟩, 1099511627776, 20586860,
    9381924625655297666398883986668706723662457813784577510925845097518592575759204805105084, lc0⟩))) (.sy (.sy
    (.leaf ⟨50, 51, 8, 477, 16, 158, ⟨[[(14636698788960, 0)], [(0, 1861112546010858)]], 2, 3⟩, ⟨[[(0,
    144571473117952), (373653747189032, 0), (0, 42852561956), (5994821, 0)], [(22965322689335, 0), (9764816000, 0),
    (0, 1108446), (647, 0)], [(1192271857, 0), (1425038, 0), (0, 156)]], 2, 3⟩, 4503599627370496, 70, 4288703834598,
    ⟨[[(383461684279987, 0), (580847628651, 0), (412030849, 0), (47143, 0)], [(7190898028, 0), (46400492, 0), (47918,
    0), (318, 0)], [(0, 368176), (0, 9441), (3, 0)]], 2, 3⟩, 1099511627776, 25844112,
    5214322634224830106704566350942902808223045035885825566259528316428307333963372539118375, lc0⟩) (.leaf ⟨50, 51,
    8, 540, 16, 169, ⟨[[(14636698788960, 0)], [(0, 1861112546010858)]], 2, 3⟩, ⟨[[(208201702369280, 0),
    (369786863516540, 0), (0, 39740774071), (5249769, 0)], [(28101279660632, 0), (9836292802, 0), (0, 592332), (463,
    0)], [(1796241186, 0), (1472959, 0), (8, 0)]], 2, 3⟩, 4503599627370496, 70, 3860691299137, ⟨[[(399959980553615,
    0), (564579587750, 0), (362442052, 0), (11223, 0)], [(8527438475, 0), (46588199, 0), (66187, 0), (286, 0)], [(0,
    632166), (0, 9014), (0, 9)]], 2, 3⟩, 1099511627776, 33130712,
    6152251565878921738362173388864127160665256847182327667783430015699774233748935679029777, lc0⟩)) (.leaf ⟨50, 51,
    8, 323, 16, 94, ⟨[[(14636698788960, 0)], [(0, 1861112546010858)]], 2, 3⟩, ⟨[[(415774812414464, 0),
    (369346961442654, 0), (0, 72366427354), (17765837, 0)], [(18444944438897, 0), (10615857309, 0), (0, 17303),
    (1348, 0)], [(1440604989, 0), (1760979, 0), (429, 0)]], 2, 3⟩, 4503599627370496, 70, 71426829410295,
    ⟨[[(423546247115487, 0), (1068047765621, 0), (1165339090, 0), (0, 276240)], [(10554071373, 0), (96167765, 0),
    (338131, 0), (2030, 0)], [(0, 1026552), (0, 19209), (0, 108), (0, 1)]], 2, 3⟩, 1099511627776, 389717478,
    14605389948026696484505218131719395745019407320961643696440648740883864151303938147443044, lc0⟩)))
theorem c12 : checkC job ⟨6, 8, 5, 6, 9, 13⟩ 1 40 B1.zlims t12 1015 121 160 667 175 1896 = true := by decide +kernel

def t13 : CTree :=
  .sx (.sy (.sy (.leaf ⟨150, 51, 8, 397, 16, 107, ⟨[[(43910096366848, 0)], [(0, 1861112546010858)]], 2, 3⟩,
    ⟨[[(258877016705280, 0), (366535577591707, 0), (0, 64543753193), (14438784, 0)], [(24181961705644, 0),
    (11447134578, 0), (921110, 0), (933, 0)], [(2136287766, 0), (2132324, 0), (759, 0)]], 2, 3⟩, 4503599627370496,
    79, 37618095504570, ⟨[[(453146001841663, 0), (1000360652351, 0), (903602107, 0), (0, 454077)], [(12978288520, 0),
    (99013208, 0), (367438, 0), (1623, 0)], [(0, 1536047), (0, 22523), (0, 166), (0, 1)]], 2, 3⟩, 1099511627776,
    376524671, 5997048725074079689968624237352004069235596463285058375500779194520305813941914178340874, lc0⟩) (.leaf
    ⟨150, 51, 8, 471, 16, 119, ⟨[[(43910096366848, 0)], [(0, 1861112546010858)]], 2, 3⟩, ⟨[[(2059520223752192, 0),
    (362764790632880, 0), (0, 57125516678), (12123540, 0)], [(31518122866776, 0), (13812262149, 0), (2051830, 0),
    (959, 0)], [(3330072836, 0), (3144272, 0), (1388, 0), (1, 0)]], 2, 3⟩, 4503599627370496, 79, 25083502014471,
    ⟨[[(480283739770450, 0), (941369184829, 0), (684298920, 0), (0, 746020)], [(15893720231, 0), (110013957, 0),
    (422670, 0), (1713, 0)], [(0, 2277351), (0, 31095), (0, 241), (0, 1)]], 2, 3⟩, 1099511627776, 425920046,
    8227133345959362367510873632554186339365218409316249144596566478886862602753892583567869, lc0⟩)) (.sy (.leaf
    ⟨150, 51, 8, 544, 16, 130, ⟨[[(43910096366848, 0)], [(0, 1861112546010858)]], 2, 3⟩, ⟨[[(1156420050803200, 0),
    (357089105552194, 0), (0, 50128776367), (10320301, 0)], [(40033045859910, 0), (17053672908, 0), (3395427, 0),
    (1183, 0)], [(5056613914, 0), (4769014, 0), (2351, 0), (1, 0)]], 2, 3⟩, 4503599627370496, 79, 21753558829048,
    ⟨[[(506152342024596, 0), (893667612706, 0), (504715484, 0), (0, 1009271)], [(19205253643, 0), (125486620, 0),
    (496491, 0), (1964, 0)], [(0, 3323451), (0, 43757), (0, 326), (0, 2)]], 2, 3⟩, 1099511627776, 503310073,
    12073562412020701922057794787008804121063844978890664668843351941504561517679462117476108, lc0⟩) (.leaf ⟨150, 51,
    8, 615, 16, 140, ⟨[[(43910096366848, 0)], [(0, 1861112546010858)]], 2, 3⟩, ⟨[[(0, 1619443846221824),
    (350559712390892, 0), (0, 43534511272), (8922169, 0)], [(50046163976266, 0), (21431026936, 0), (5166497, 0),
    (1644, 0)], [(7603603694, 0), (7357624, 0), (3927, 0), (2, 0)]], 2, 3⟩, 4503599627370496, 79, 25039753933342,
    ⟨[[(530692503816015, 0), (852791041619, 0), (345572519, 0), (0, 1266937)], [(23009395473, 0), (146088461, 0),
    (597611, 0), (2372, 0)], [(0, 4785118), (0, 61131), (0, 435), (0, 2)]], 2, 3⟩, 1099511627776, 627906439,
    16385603445700984985379308303593618438743484406111107163198339856056375447149401548171176, lc0⟩))) (.sy (.sy
    (.leaf ⟨50, 51, 8, 395, 16, 106, ⟨[[(14636698788960, 0)], [(0, 1861112546010858)]], 2, 3⟩, ⟨[[(0,
    1519416995000576), (365985366331154, 0), (0, 63670570505), (14554226, 0)], [(25046678930955, 0), (12455627809,
    0), (1341834, 0), (1158, 0)], [(2401075809, 0), (2516203, 0), (1040, 0), (1, 0)]], 2, 3⟩, 4503599627370496, 70,
    38646801241126, ⟨[[(453544650113359, 0), (1002578293103, 0), (878103204, 0), (0, 683500)], [(13474205368, 0),
    (106130671, 0), (420848, 0), (2009, 0)], [(0, 1663325), (0, 25555), (0, 202), (0, 2)]], 2, 3⟩, 1099511627776,
    448337383, 15631827846247630747574782754738278442026889443518973557082279215222084838087262458583155, lc0⟩)
    (.leaf ⟨50, 51, 8, 469, 16, 118, ⟨[[(14636698788960, 0)], [(0, 1861112546010858)]], 2, 3⟩, ⟨[[(990475059127552,
    0), (363226933441433, 0), (0, 56062491415), (12291943, 0)], [(32972565720118, 0), (15377546402, 0), (2829306, 0),
    (1308, 0)], [(3824490215, 0), (3871075, 0), (1947, 0), (1, 0)]], 2, 3⟩, 4503599627370496, 70, 26982146948675,
    ⟨[[(480509989323530, 0), (940462865775, 0), (644654055, 0), (0, 997737)], [(16597344274, 0), (119478120, 0),
    (494732, 0), (2140, 0)], [(0, 2507640), (0, 35946), (0, 290), (0, 2)]], 2, 3⟩, 1099511627776, 501853858,
    13513046810139258067800693336505114877122429411667699953973136957943182519926524728720046, lc0⟩)) (.sy (.leaf
    ⟨50, 51, 8, 538, 16, 128, ⟨[[(14636698788960, 0)], [(0, 1861112546010858)]], 2, 3⟩, ⟨[[(316217342988800, 0),
    (355958828813439, 0), (0, 48393677822), (10510118, 0)], [(42044564027464, 0), (19382972087, 0), (4712580, 0),
    (1768, 0)], [(5924455030, 0), (6101776, 0), (3432, 0), (2, 0)]], 2, 3⟩, 4503599627370496, 70, 25760857388566,
    ⟨[[(506319333529893, 0), (896609651412, 0), (456573468, 0), (0, 1335750)], [(20225854997, 0), (139686551, 0),
    (601948, 0), (2539, 0)], [(0, 3726966), (0, 51720), (0, 401), (0, 2)]], 2, 3⟩, 1099511627776, 611806973,
    16512715835443949163709882742061310762982580626608503725637884988996468636833353115679257, lc0⟩) (.leaf ⟨50, 51,
    8, 604, 16, 137, ⟨[[(14636698788960, 0)], [(0, 1861112546010858)]], 2, 3⟩, ⟨[[(922029048584192, 0),
    (348591080638430, 0), (0, 41114884602), (9240117, 0)], [(52967950077305, 0), (25055948703, 0), (7414087, 0),
    (2718, 0)], [(9162240869, 0), (9874008, 0), (6124, 0), (3, 0)]], 2, 3⟩, 4503599627370496, 70, 37627551193167,
    ⟨[[(530208130790394, 0), (857140235325, 0), (282831102, 0), (0, 1685621)], [(24371093205, 0), (165806489, 0),
    (743014, 0), (3185, 0)], [(0, 5412050), (0, 73186), (0, 552), (0, 3)]], 2, 3⟩, 1099511627776, 778488667,
    23609706582985126632330833271816001246912541326627884662212550670439226741761464404328922, lc0⟩)))
theorem c13 : checkC job ⟨6, 8, 5, 6, 9, 13⟩ 1 40 B1.zlims t13 1015 121 160 1017 175 1896 = true := by decide +kernel

def t14 : CTree :=
  .sy (.sy (.sx (.leaf ⟨350, 51, 8, 708, 16, 156, ⟨[[(102456891522560, 0)], [(0, 1861112546010858)]], 2, 3⟩, ⟨[[(0,
    1900374629795328), (348513730695435, 0), (0, 41701411076), (7501420, 0)], [(55484485120160, 0), (20077552557, 0),
    (3727867, 0), (882, 0)], [(7962343312, 0), (6476228, 0), (2744, 0), (1, 0)]], 2, 3⟩, 4503599627370496, 183,
    19880930604225, ⟨[[(553228160119836, 0), (804912960210, 0), (312228955, 0), (0, 839691)], [(24028379152, 0),
    (130539743, 0), (456692, 0), (1571, 0)], [(0, 4918603), (0, 53485), (0, 324), (0, 1)]], 2, 3⟩, 1099511627776,
    566089806, 7549144886200404951252009771239316193179406464593901504067529676305865972954871412586988, lc0⟩) (.leaf
    ⟨250, 51, 8, 697, 16, 153, ⟨[[(73183493944832, 0)], [(0, 1861112546010858)]], 2, 3⟩, ⟨[[(13352206428672, 0),
    (346986492346817, 0), (0, 39831863564), (7628996, 0)], [(58572278413916, 0), (23249410942, 0), (5286118, 0),
    (1440, 0)], [(9445511278, 0), (8500317, 0), (4178, 0), (2, 0)]], 2, 3⟩, 4503599627370496, 126, 25762135192798,
    ⟨[[(552885932868238, 0), (808215362885, 0), (264924513, 0), (0, 1108469)], [(25460197608, 0), (147925461, 0),
    (566227, 0), (2086, 0)], [(0, 5742740), (0, 66843), (0, 435), (0, 2)]], 2, 3⟩, 1099511627776, 657236259,
    9637843334591297064575050738321442795602598807731683651874256427022890354356297241178809, lc0⟩)) (.sx (.leaf
    ⟨350, 51, 8, 776, 16, 165, ⟨[[(102456891522560, 0)], [(0, 1861112546010858)]], 2, 3⟩, ⟨[[(0, 363042842183168),
    (340468102848814, 0), (0, 36583944417), (6466974, 0)], [(66643210370186, 0), (24363746513, 0), (5033736, 0),
    (1161, 0)], [(11218756979, 0), (9271518, 0), (4091, 0), (1, 0)]], 2, 3⟩, 4503599627370496, 183, 26550926609448,
    ⟨[[(574082894893017, 0), (774424049909, 0), (211620759, 0), (0, 955408)], [(27709443604, 0), (148850545, 0),
    (534729, 0), (1800, 0)], [(0, 6531941), (0, 69353), (0, 411), (0, 2)]], 2, 3⟩, 1099511627776, 737216552,
    18771302664942882580051881069024501774845035284560658589417099285252839809883128034697141, lc0⟩) (.leaf ⟨250, 51,
    8, 761, 16, 161, ⟨[[(73183493944832, 0)], [(0, 1861112546010858)]], 2, 3⟩, ⟨[[(0, 1096018180839424),
    (338560920149056, 0), (0, 34230726275), (6684023, 0)], [(70949109387129, 0), (28975269729, 0), (7420267, 0),
    (2069, 0)], [(13690049647, 0), (12750630, 0), (6663, 0), (3, 0)]], 2, 3⟩, 4503599627370496, 126, 39333451061173,
    ⟨[[(574210205519209, 0), (778826089507, 0), (146838134, 0), (0, 1298219)], [(29763096796, 0), (173359260, 0),
    (688946, 0), (2559, 0)], [(0, 7835571), (0, 90240), (0, 597), (0, 3)]], 2, 3⟩, 1099511627776, 890650890,
    19844240350416463497269598290201237915646381908408836586740495803435624510446389581074026, lc0⟩))) (.sx (.sy
    (.leaf ⟨350, 51, 8, 840, 16, 173, ⟨[[(102456891522560, 0)], [(0, 1861112546010858)]], 2, 3⟩,
    ⟨[[(1353445889539072, 0), (332465752972352, 0), (0, 31871776080), (5629167, 0)], [(79517275731489, 0),
    (29726506344, 0), (6731910, 0), (1576, 0)], [(15758408131, 0), (13326619, 0), (6139, 0), (2, 0)]], 2, 3⟩,
    4503599627370496, 183, 38867740548845, ⟨[[(593682033160696, 0), (746878738125, 0), (117766082, 0), (0, 1066483)],
    [(31823092156, 0), (171210174, 0), (628899, 0), (2064, 0)], [(0, 8569886), (0, 89806), (0, 536), (0, 3)]], 2, 3⟩,
    1099511627776, 996997829,
    32351063203597551634263121832016188228917660012352516068637569110156873132836155245305950, lc0⟩) (.sx (.leaf
    ⟨375, 26, 8, 989, 16, 198, ⟨[[(109775240917248, 0)], [(0, 930556273005429)]], 2, 3⟩, ⟨[[(0, 34342401821184),
    (354860050384775, 0), (0, 30817361782), (5327362, 0)], [(50548790629863, 0), (18855788707, 0), (4374818, 0),
    (1001, 0)], [(5677262732, 0), (4767456, 0), (2194, 0), (1, 0)]], 2, 3⟩, 4503599627370496, 125, 8635751888737,
    ⟨[[(612656098530043, 0), (660215316038, 0), (39175901, 0), (0, 832294)], [(35808718897, 0), (174440351, 0),
    (582789, 0), (1680, 0)], [(0, 10596936), (0, 98895), (0, 530), (0, 2)]], 2, 3⟩, 1099511627776, 266541162,
    36425821584772869338713866919014337091523194352835512876232242123151902116151132298217205, lc0⟩) (.leaf ⟨325, 26,
    8, 972, 16, 194, ⟨[[(95138542128128, 0)], [(0, 930556273005429)]], 2, 3⟩, ⟨[[(0, 1126282512306688),
    (352456329686749, 0), (0, 29016881971), (5509452, 0)], [(52418864316947, 0), (20999284646, 0), (5516191, 0),
    (1452, 0)], [(6418077976, 0), (5821635, 0), (2995, 0), (1, 0)]], 2, 3⟩, 4503599627370496, 106, 10556477513151,
    ⟨[[(612818962262281, 0), (664689393079, 0), (103286, 0), (0, 1002595)], [(37486564405, 0), (192872375, 0),
    (687588, 0), (2149, 0)], [(0, 11945452), (0, 119434), (0, 717), (0, 4)]], 2, 3⟩, 1099511627776, 315520418,
    37013248722034614439746194135320932521836432333642074324979826081131483602938841068237787, lc0⟩))) (.sy (.sx
    (.leaf ⟨275, 26, 8, 892, 16, 183, ⟨[[(80501843339264, 0)], [(0, 930556273005429)]], 2, 3⟩, ⟨[[(1768276489559040,
    0), (357903216940902, 0), (0, 32173255811), (6350706, 0)], [(45389125586746, 0), (18694079187, 0), (5038736, 0),
    (1411, 0)], [(5059728392, 0), (4749722, 0), (2539, 0), (1, 0)]], 2, 3⟩, 4503599627370496, 49, 9123303376694,
    ⟨[[(593634696557395, 0), (693798237099, 0), (49180132, 0), (0, 1078607)], [(33800619573, 0), (180221337, 0),
    (666397, 0), (2240, 0)], [(0, 9983854), (0, 104485), (0, 650), (0, 4)]], 2, 3⟩, 1099511627776, 300945275,
    26513291914471015886682852858172087202824711325087116572857167202801738651283864803619803, lc0⟩) (.leaf ⟨225, 26,
    8, 880, 16, 180, ⟨[[(65865144550272, 0)], [(0, 930556273005429)]], 2, 3⟩, ⟨[[(1036315874521088, 0),
    (356780401203432, 0), (0, 30282692371), (6656791, 0)], [(47233257696683, 0), (20917064329, 0), (6390368, 0),
    (2056, 0)], [(5748900447, 0), (5844259, 0), (3504, 0), (2, 0)]], 2, 3⟩, 4503599627370496, 54, 11918179646161,
    ⟨[[(593744518991752, 0), (695975209184, 0), (4565244, 0), (0, 1292850)], [(35352896262, 0), (198502805, 0),
    (784284, 0), (2883, 0)], [(0, 11075601), (0, 122645), (0, 834), (0, 5)]], 2, 3⟩, 1099511627776, 361717032,
    23051296055816515014978825247426620401667061972080451868908972695753344526335060169662181, lc0⟩)) (.sx (.leaf
    ⟨275, 26, 8, 955, 16, 190, ⟨[[(80501843339264, 0)], [(0, 930556273005429)]], 2, 3⟩, ⟨[[(0, 1988047200764928),
    (350528359333359, 0), (0, 26916613785), (5825478, 0)], [(54628743253768, 0), (23686702034, 0), (7117403, 0),
    (2198, 0)], [(7358768579, 0), (7288460, 0), (4263, 0), (2, 0)]], 2, 3⟩, 4503599627370496, 49, 14652687780202,
    ⟨[[(612946599275086, 0), (668254197390, 0), (0, 48762432), (0, 1221669)], [(39381915066, 0), (214933176, 0),
    (826120, 0), (2871, 0)], [(0, 13482730), (0, 145292), (0, 982), (0, 6)]], 2, 3⟩, 1099511627776, 384014938,
    36419374646235442084821322690904469180568564365976067348318151477710283034041183284908765, lc0⟩) (.leaf ⟨225, 26,
    8, 937, 16, 186, ⟨[[(65865144550272, 0)], [(0, 930556273005429)]], 2, 3⟩, ⟨[[(1961375768921088, 0),
    (349218296191606, 0), (0, 24382608608), (6368166, 0)], [(57284441700555, 0), (27156250751, 0), (9464408, 0),
    (3469, 0)], [(8590100343, 0), (9414470, 0), (6327, 0), (4, 0)]], 2, 3⟩, 4503599627370496, 54, 28714090372328,
    ⟨[[(612355522374712, 0), (670832039687, 0), (0, 106130312), (0, 1500198)], [(41291041997, 0), (239611114, 0),
    (1000847, 0), (3927, 0)], [(0, 15073533), (0, 175300), (0, 1325), (0, 9)]], 2, 3⟩, 1099511627776, 479383758,
    29687047911194754693806885711676760523292226082072615233350572499864188806654844188423210, lc0⟩))))
theorem c14 : checkC job ⟨6, 8, 5, 6, 9, 13⟩ 1 40 B1.zlims t14 773 121 160 1367 175 1896 = true := by decide +kernel

def t15 : CTree :=
  .sy (.sx (.sy (.leaf ⟨375, 26, 8, 1057, 16, 206, ⟨[[(109775240917248, 0)], [(0, 930556273005429)]], 2, 3⟩, ⟨[[(0,
    798536855520256), (348686432980573, 0), (0, 26680516186), (4747360, 0)], [(60062992539495, 0), (23226679733, 0),
    (5824482, 0), (1411, 0)], [(7961363409, 0), (6907069, 0), (3368, 0), (1, 0)]], 2, 3⟩, 4503599627370496, 125,
    12336958275424, ⟨[[(630461277225390, 0), (634755999011, 0), (0, 31617206), (0, 870173)], [(40968798792, 0),
    (201737124, 0), (683995, 0), (2018, 0)], [(0, 13696578), (0, 127958), (0, 697), (0, 3)]], 2, 3⟩, 1099511627776,
    332019526, 38753242344908750167827433945387388705067370720956274570081607288779573471281663820219590, lc0⟩)
    (.leaf ⟨375, 26, 8, 1110, 16, 211, ⟨[[(109775240917248, 0)], [(0, 930556273005429)]], 2, 3⟩, ⟨[[(0,
    2111182493451264), (339727767749882, 0), (0, 22552986035), (4267245, 0)], [(70645921736024, 0), (28564038553, 0),
    (7781012, 0), (2066, 0)], [(11119467097, 0), (10084626, 0), (5323, 0), (2, 0)]], 2, 3⟩, 4503599627370496, 125,
    20532046517276, ⟨[[(647367578077124, 0), (616180646908, 0), (0, 100137663), (0, 884746)], [(46884014987, 0),
    (237372665, 0), (837966, 0), (2758, 0)], [(0, 17669742), (0, 168065), (0, 926), (0, 4)]], 2, 3⟩, 1099511627776,
    438895738, 38395070516321459719640153994569303852219821901474345726957577171650315407977930471414559, lc0⟩)) (.sy
    (.leaf ⟨325, 26, 8, 1034, 16, 201, ⟨[[(95138542128128, 0)], [(0, 930556273005429)]], 2, 3⟩, ⟨[[(1925733224274944,
    0), (346138246104687, 0), (0, 24437439197), (5057040, 0)], [(62696244648581, 0), (26385953604, 0), (7634165, 0),
    (2216, 0)], [(9204600874, 0), (8778980, 0), (4923, 0), (2, 0)]], 2, 3⟩, 4503599627370496, 106, 17822084587123,
    ⟨[[(630075907337796, 0), (639461404212, 0), (0, 79616542), (0, 1071106)], [(43004594163, 0), (225325667, 0),
    (824073, 0), (2678, 0)], [(0, 15607501), (0, 159810), (0, 1014), (0, 5)]], 2, 3⟩, 1099511627776, 406228582,
    39200841295517499146926549642441358795019200569202806264700811788667142692867561773702428, lc0⟩) (.sx (.leaf
    ⟨380, 16, 9, 1176, 16, 223, ⟨[[(0, 1296227452124672)], [(0, 523437903565554)]], 2, 3⟩, ⟨[[(0, 1207501650686976),
    (364907821041070, 0), (0, 22133757225), (5002647, 0)], [(39630852656045, 0), (17273366304, 0), (5338803, 0),
    (1670, 0)], [(3415594416, 0), (3380369, 0), (2019, 0), (1, 0)]], 2, 3⟩, 4503599627370496, 53, 4330613883085,
    ⟨[[(647245993700714, 0), (573727126566, 0), (0, 126121785), (0, 847849)], [(43511157210, 0), (215285183, 0),
    (751098, 0), (2453, 0)], [(0, 15726385), (0, 151966), (0, 907), (0, 4)]], 2, 3⟩, 1099511627776, 144268475,
    36427175296208551671225574411450062487908003829189503078348616683912454546729226225711963, lc0⟩) (.leaf ⟨352, 16,
    9, 1157, 16, 219, ⟨[[(0, 1867410548614912)], [(0, 523437903565554)]], 2, 3⟩, ⟨[[(0, 994816206846976),
    (362673537734503, 0), (0, 20341407418), (5374016, 0)], [(40634785330452, 0), (18716548878, 0), (6334730, 0),
    (2200, 0)], [(3743518754, 0), (3949550, 0), (2555, 0), (1, 0)]], 2, 3⟩, 4503599627370496, 195, 6073729881704,
    ⟨[[(647224719371578, 0), (577287161777, 0), (0, 159487874), (0, 978504)], [(44901829303, 0), (231906098, 0),
    (855029, 0), (2982, 0)], [(0, 17104717), (0, 177010), (0, 1167), (0, 6)]], 2, 3⟩, 1099511627776, 174627509,
    35186355095899994226356030506905256599144793544223851275793741108102493655291654493953189, lc0⟩)))) (.sx (.sy
    (.leaf ⟨375, 26, 8, 1157, 16, 215, ⟨[[(109775240917248, 0)], [(0, 930556273005429)]], 2, 3⟩, ⟨[[(0,
    527480545022976), (331624649729713, 0), (0, 18641290527), (3953910, 0)], [(83243487301706, 0), (35545288754, 0),
    (10661947, 0), (3203, 0)], [(15709934755, 0), (15144367, 0), (8815, 0), (4, 0)]], 2, 3⟩, 4503599627370496, 125,
    45734332851035, ⟨[[(662984797129464, 0), (598021891961, 0), (0, 160944404), (0, 793075)], [(53525838549, 0),
    (281007114, 0), (1064502, 0), (4197, 0)], [(0, 22615150), (0, 218614), (0, 1181), (0, 4)]], 2, 3⟩, 1099511627776,
    768401781, 24912290078093831008653066521724541768806658679491696341017547282947710924691988439540533, lc0⟩) (.sx
    (.sy (.leaf ⟨436, 16, 9, 2415, 16, 442, ⟨[[(0, 153861259144448)], [(0, 523437903565554)]], 2, 3⟩, ⟨[[(0,
    117196450506752), (329117957525491, 0), (0, 8415108375), (916247, 0)], [(93525129933228, 0), (20300087265, 0),
    (3137408, 0), (489, 0)], [(9808024950, 0), (4818036, 0), (1442, 0)]], 2, 3⟩, 4503599627370496, 55, 5985877099270,
    ⟨[[(674260199755152, 0), (289729289073, 0), (0, 43265029), (0, 63549)], [(51736659786, 0), (137008565, 0),
    (274425, 0), (628, 0)], [(0, 20341767), (0, 93230), (0, 212)]], 2, 3⟩, 1099511627776, 118530416,
    38689963453790480700051479357603859022813531548327861508044873394096084660995768946939285, lc0⟩) (.leaf ⟨436, 16,
    9, 2440, 16, 442, ⟨[[(0, 153861259144448)], [(0, 523437903565554)]], 2, 3⟩, ⟨[[(1492297265723392, 0),
    (323561526604706, 0), (0, 7463374910), (899332, 0)], [(101036711902365, 0), (22690488050, 0), (3714346, 0), (615,
    0)], [(11687079039, 0), (5968274, 0), (1861, 0)]], 2, 3⟩, 4503599627370496, 55, 8353983158554,
    ⟨[[(681475494283080, 0), (287462638371, 0), (0, 47043722), (0, 34884)], [(55343975549, 0), (152033166, 0),
    (329299, 0), (848, 0)], [(0, 22806465), (0, 103979), (0, 216)]], 2, 3⟩, 1099511627776, 156309333,
    48738315453387733548732958603176061385484443675124915912054707575622715265512445119330004, lc0⟩)) (.sy (.leaf
    ⟨408, 16, 9, 2365, 16, 432, ⟨[[(0, 725044355634432)], [(0, 523437903565554)]], 2, 3⟩, ⟨[[(1705554467948544, 0),
    (326769127166765, 0), (0, 7391529629), (1033503, 0)], [(96369818769513, 0), (22373994764, 0), (3857264, 0), (672,
    0)], [(10962632210, 0), (5807784, 0), (1879, 0)]], 2, 3⟩, 4503599627370496, 170, 8064318537470,
    ⟨[[(674150301906337, 0), (291929669678, 0), (0, 54720712), (0, 83458)], [(53609727132, 0), (148846014, 0),
    (312259, 0), (729, 0)], [(0, 22697514), (0, 115755), (0, 328), (0, 1)]], 2, 3⟩, 1099511627776, 135795107,
    36588358820151582645343006553441160357072356916180877518562644811707718056160788098381926, lc0⟩) (.leaf ⟨408, 16,
    9, 2380, 16, 430, ⟨[[(0, 725044355634432)], [(0, 523437903565554)]], 2, 3⟩, ⟨[[(0, 2183909026904064),
    (320485865454902, 0), (0, 6269200028), (1047735, 0)], [(104219063618991, 0), (25223982214, 0), (4629341, 0),
    (840, 0)], [(13185150163, 0), (7272096, 0), (2409, 0), (1, 0)]], 2, 3⟩, 4503599627370496, 170, 12128756819855,
    ⟨[[(681722280005628, 0), (290267323887, 0), (0, 60776394), (0, 55195)], [(57716287718, 0), (167552163, 0),
    (382500, 0), (1007, 0)], [(0, 25947141), (0, 134514), (0, 371)]], 2, 3⟩, 1099511627776, 184343087,
    43086994714074847883054762084248110929933570161249242827276877194535922608893451494155076, lc0⟩)))) (.sy (.sx
    (.leaf ⟨380, 16, 9, 1231, 16, 228, ⟨[[(0, 1296227452124672)], [(0, 523437903565554)]], 2, 3⟩, ⟨[[(0,
    2157076159119360), (359100567774719, 0), (0, 17361547660), (4985817, 0)], [(47451985590795, 0), (22220259194, 0),
    (7751199, 0), (2752, 0)], [(5006057549, 0), (5364276, 0), (3524, 0), (2, 0)]], 2, 3⟩, 4503599627370496, 53,
    9241942751604, ⟨[[(663195129597258, 0), (552260460280, 0), (0, 189696341), (0, 793855)], [(50189727545, 0),
    (258329543, 0), (970095, 0), (3731, 0)], [(0, 20797101), (0, 209552), (0, 1286), (0, 6)]], 2, 3⟩, 1099511627776,
    228995597, 20172684051691895486119498866258608497151294508847593256465922012163542006196755450646151, lc0⟩)
    (.leaf ⟨352, 16, 9, 1206, 16, 223, ⟨[[(0, 1867410548614912)], [(0, 523437903565554)]], 2, 3⟩,
    ⟨[[(434207192880128, 0), (356814310766969, 0), (0, 14924625157), (5641873, 0)], [(48946892864256, 0),
    (24552523393, 0), (9498893, 0), (3681, 0)], [(5606311942, 0), (6455864, 0), (4525, 0), (2, 0)]], 2, 3⟩,
    4503599627370496, 195, 18469609957759, ⟨[[(662883868512462, 0), (556150694514, 0), (0, 233613596), (0, 964293)],
    [(51957769085, 0), (281428136, 0), (1125962, 0), (4581, 0)], [(0, 22967584), (0, 252736), (0, 1752), (0, 9)]], 2,
    3⟩, 1099511627776, 225423941,
    19816720657593463432091998888690455333065441737195351368338934703452188116273060976738045, lc0⟩)) (.sx (.sy
    (.leaf ⟨380, 16, 9, 2310, 16, 421, ⟨[[(0, 1296227452124672)], [(0, 523437903565554)]], 2, 3⟩,
    ⟨[[(1537962993043456, 0), (324082156468300, 0), (0, 6175678547), (1194678, 0)], [(99476968995264, 0),
    (24866021833, 0), (4780937, 0), (905, 0)], [(12358456098, 0), (7051313, 0), (2415, 0), (1, 0)]], 2, 3⟩,
    4503599627370496, 53, 11865514726690, ⟨[[(674169874039313, 0), (294472200474, 0), (0, 68864798), (0, 109107)],
    [(55783795511, 0), (163719552, 0), (365083, 0), (885, 0)], [(0, 25557375), (0, 145446), (0, 491), (0, 1)]], 2,
    3⟩, 1099511627776, 155381244,
    32155990192673209885296903484826231071046259194959762480282408886527625852653629577004032, lc0⟩) (.leaf ⟨380, 16,
    9, 2319, 16, 418, ⟨[[(0, 1296227452124672)], [(0, 523437903565554)]], 2, 3⟩, ⟨[[(0, 1217478643281920),
    (317923566631005, 0), (0, 4854774723), (1250785, 0)], [(108031455757077, 0), (28367608834, 0), (5801678, 0),
    (1114, 0)], [(15040620271, 0), (8906744, 0), (3066, 0), (1, 0)]], 2, 3⟩, 4503599627370496, 53, 19813101355381,
    ⟨[[(681674152491579, 0), (292826772895, 0), (0, 77430660), (0, 84204)], [(60238325068, 0), (185700464, 0),
    (450891, 0), (1224, 0)], [(0, 29629982), (0, 174220), (0, 592), (0, 1)]], 2, 3⟩, 1099511627776, 213364023,
    40138703391760060409491838707335402270163689530723571778583413994037963849007817033816552, lc0⟩)) (.sy (.leaf
    ⟨352, 16, 9, 2250, 16, 409, ⟨[[(0, 1867410548614912)], [(0, 523437903565554)]], 2, 3⟩, ⟨[[(0, 693480683343872),
    (321123841238262, 0), (0, 4724831132), (1409928, 0)], [(102927662770713, 0), (27877849649, 0), (5950828, 0),
    (1196, 0)], [(14047891212, 0), (8601866, 0), (3091, 0), (1, 0)]], 2, 3⟩, 4503599627370496, 195, 19582220185407,
    ⟨[[(674327214308733, 0), (297269633242, 0), (0, 86797770), (0, 143800)], [(58335196349, 0), (182669142, 0),
    (439672, 0), (1127, 0)], [(0, 29064003), (0, 184797), (0, 723), (0, 2)]], 2, 3⟩, 1099511627776, 178962984,
    25154059536031971194722247748717414650099652768516072342899208384615186670124426185514771, lc0⟩) (.leaf ⟨352, 16,
    9, 2247, 16, 404, ⟨[[(0, 1867410548614912)], [(0, 523437903565554)]], 2, 3⟩, ⟨[[(0, 542204231124992),
    (314456674839725, 0), (0, 3144605164), (1512793, 0)], [(112080926096882, 0), (32118778399, 0), (7260937, 0),
    (1458, 0)], [(17258205444, 0), (10933047, 0), (3944, 0), (1, 0)]], 2, 3⟩, 4503599627370496, 195, 36849727585694,
    ⟨[[(681646746592173, 0), (296331604882, 0), (0, 99161251), (0, 125800)], [(63156266712, 0), (209342875, 0),
    (550460, 0), (1569, 0)], [(0, 34126684), (0, 227501), (0, 914), (0, 3)]], 2, 3⟩, 1099511627776, 247742546,
    34114739651478407786606786167901547831394830583327776403114527874295765913842662866071476, lc0⟩)))))
theorem c15 : checkC job ⟨6, 8, 5, 6, 9, 13⟩ 1 40 B1.zlims t15 1425 121 320 1717 175 1896 = true := by decide +kernel

def t16 : CTree :=
  .sx (.sy (.leaf ⟨275, 26, 8, 1012, 16, 196, ⟨[[(80501843339264, 0)], [(0, 930556273005429)]], 2, 3⟩,
    ⟨[[(472943829974528, 0), (344308441080168, 0), (0, 21700219908), (5616500, 0)], [(65914823338599, 0),
    (30551445095, 0), (10374720, 0), (3650, 0)], [(10870127184, 0), (11584455, 0), (7557, 0), (4, 0)]], 2, 3⟩,
    4503599627370496, 49, 37052552999969, ⟨[[(630279186682304, 0), (642764108198, 0), (0, 144885627), (0, 1350370)],
    [(45589406796, 0), (256438807, 0), (1031307, 0), (3831, 0)], [(0, 18049254), (0, 204627), (0, 1510), (0, 10)]],
    2, 3⟩, 1099511627776, 517396546,
    39258899810182908931894836968499340556359249010605262001377430719562093961070514502735014, lc0⟩) (.sx (.leaf
    ⟨323, 16, 9, 1143, 16, 216, ⟨[[(2065005982265600, 0)], [(0, 523437903565554)]], 2, 3⟩, ⟨[[(613994431558656, 0),
    (362415431856242, 0), (0, 18389652881), (5911592, 0)], [(41973738898767, 0), (20529537499, 0), (7639249, 0),
    (2919, 0)], [(4155700185, 0), (4688087, 0), (3263, 0), (2, 0)]], 2, 3⟩, 4503599627370496, 80, 11279502586991,
    ⟨[[(646976716973212, 0), (577613523653, 0), (0, 196728639), (0, 1125039)], [(46385591345, 0), (249709337, 0),
    (975241, 0), (3651, 0)], [(0, 18637565), (0, 206001), (0, 1485), (0, 9)]], 2, 3⟩, 1099511627776, 212192149,
    32289742645595907311521778910768371746499853462886337034471804210297838938657673970963918, lc0⟩) (.leaf ⟨295, 16,
    9, 1124, 16, 212, ⟨[[(1493822885775616, 0)], [(0, 523437903565554)]], 2, 3⟩, ⟨[[(1063512205756416, 0),
    (360867913520915, 0), (0, 16029469454), (6609576, 0)], [(43300198552128, 0), (22607775258, 0), (9271915, 0),
    (3861, 0)], [(4633178115, 0), (5600036, 0), (4179, 0), (2, 0)]], 2, 3⟩, 4503599627370496, 117, 24729399490483,
    ⟨[[(646921186158208, 0), (580185688903, 0), (0, 242387633), (0, 1321478)], [(48046667456, 0), (271685924, 0),
    (1135792, 0), (4617, 0)], [(0, 20378287), (0, 241613), (0, 1896), (0, 12)]], 2, 3⟩, 1099511627776, 264952642,
    27635884659803585009380490018257464498252983360107651639981082091890904726237147893305545, lc0⟩))) (.sy (.sx
    (.leaf ⟨267, 16, 9, 1061, 16, 205, ⟨[[(922639789285376, 0)], [(0, 523437903565554)]], 2, 3⟩,
    ⟨[[(2005653494877184, 0), (366352568538449, 0), (0, 20432640594), (6731277, 0)], [(36707077162886, 0),
    (18475999331, 0), (7152934, 0), (2885, 0)], [(3340341913, 0), (3905555, 0), (2843, 0), (2, 0)]], 2, 3⟩,
    4503599627370496, 107, 13405072490765, ⟨[[(630065652083280, 0), (604134030294, 0), (0, 180162518), (0, 1344322)],
    [(42374397675, 0), (236746736, 0), (968526, 0), (3778, 0)], [(0, 15879787), (0, 182563), (0, 1400), (0, 9)]], 2,
    3⟩, 1099511627776, 257871652,
    29005567622652516095479291511717542897641490019994285441496813207647995714917011468620303, lc0⟩) (.leaf ⟨239, 16,
    9, 1048, 16, 202, ⟨[[(351456692795392, 0)], [(0, 523437903565554)]], 2, 3⟩, ⟨[[(0, 450010112733184),
    (365636646651669, 0), (0, 18249036424), (7428717, 0)], [(37859187898992, 0), (20248056009, 0), (8593369, 0),
    (3787, 0)], [(3702110178, 0), (4624020, 0), (3628, 0), (2, 0)]], 2, 3⟩, 4503599627370496, 90, 30628109214834,
    ⟨[[(630396942678747, 0), (605115288098, 0), (0, 226335310), (0, 1555583)], [(43928736142, 0), (256653897, 0),
    (1118828, 0), (4742, 0)], [(0, 17248896), (0, 210055), (0, 1726), (0, 12)]], 2, 3⟩, 1099511627776, 320190494,
    23337169373342962012184672911169425128013133045216307782140995483014361487776145705750079, lc0⟩)) (.sx (.leaf
    ⟨267, 16, 9, 1105, 16, 208, ⟨[[(922639789285376, 0)], [(0, 523437903565554)]], 2, 3⟩, ⟨[[(1661087550171136, 0),
    (359772008411448, 0), (0, 13261423889), (7558244, 0)], [(44839870020378, 0), (25136408827, 0), (11389431, 0),
    (5171, 0)], [(5216844352, 0), (6778661, 0), (5464, 0), (3, 0)]], 2, 3⟩, 4503599627370496, 107, 59343806076689,
    ⟨[[(646846001390322, 0), (582101983916, 0), (0, 296786642), (0, 1569892)], [(49875181594, 0), (297283172, 0),
    (1337821, 0), (5924, 0)], [(0, 22346350), (0, 284190), (0, 2410), (0, 17)]], 2, 3⟩, 1099511627776, 340301769,
    21393186097261430617110843185909094675066793854278489753301795661830739593386803119864528, lc0⟩) (.sy (.leaf
    ⟨239, 16, 9, 2011, 16, 380, ⟨[[(351456692795392, 0)], [(0, 523437903565554)]], 2, 3⟩, ⟨[[(0, 356935019356160),
    (336394372986380, 0), (0, 5689487098), (1954788, 0)], [(82477798786526, 0), (24150646134, 0), (5820039, 0),
    (1415, 0)], [(9809523263, 0), (6692714, 0), (2878, 0), (1, 0)]], 2, 3⟩, 4503599627370496, 90, 13804179817320,
    ⟨[[(642992625784072, 0), (315451971861, 0), (0, 94179474), (0, 277445)], [(49861902914, 0), (165219507, 0),
    (419023, 0), (1050, 0)], [(0, 22549954), (0, 160287), (0, 765), (0, 3)]], 2, 3⟩, 1099511627776, 106774011,
    12482579659424757966064012261214631770997653911090902472739103054002274401941882901984686, lc0⟩) (.leaf ⟨239, 16,
    9, 2015, 16, 376, ⟨[[(351456692795392, 0)], [(0, 523437903565554)]], 2, 3⟩, ⟨[[(2192625904746496, 0),
    (329650486983671, 0), (0, 3478452438), (2180940, 0)], [(90744106733796, 0), (28503612000, 0), (7502333, 0),
    (1961, 0)], [(12421258484, 0), (9048060, 0), (4192, 0), (2, 0)]], 2, 3⟩, 4503599627370496, 90, 28521369994920,
    ⟨[[(650950887197908, 0), (313400933842, 0), (0, 119054823), (0, 319747)], [(54354053303, 0), (190775903, 0),
    (521793, 0), (1418, 0)], [(0, 27174923), (0, 207798), (0, 1052), (0, 4)]], 2, 3⟩, 1099511627776, 141863863,
    12050051043669932068845158686462420491036974582445338027323116595223561854649023982051410, lc0⟩))))
theorem c16 : checkC job ⟨6, 8, 5, 6, 9, 13⟩ 1 40 B1.zlims t16 1667 121 320 3259 175 3792 = true := by decide +kernel

def t17 : CTree :=
  .sy (.sx (.leaf ⟨323, 16, 9, 1187, 16, 219, ⟨[[(2065005982265600, 0)], [(0, 523437903565554)]], 2, 3⟩,
    ⟨[[(542760407415808, 0), (356648588083894, 0), (0, 12113612303), (6565551, 0)], [(50935715732852, 0),
    (27537180618, 0), (11805242, 0), (4925, 0)], [(6372653055, 0), (7882793, 0), (5871, 0), (3, 0)]], 2, 3⟩,
    4503599627370496, 80, 42485334672539, ⟨[[(662823510514810, 0), (556284738986, 0), (0, 286970914), (0, 1171989)],
    [(54151144623, 0), (309485576, 0), (1330260, 0), (5794, 0)], [(0, 25709110), (0, 308377), (0, 2376), (0, 14)]],
    2, 3⟩, 1099511627776, 260564422,
    19961398317242480728401439268556252979843183928865536903985638093849175272580641923991152, lc0⟩) (.leaf ⟨295, 16,
    9, 1163, 16, 214, ⟨[[(1493822885775616, 0)], [(0, 523437903565554)]], 2, 3⟩, ⟨[[(0, 1003534854599680),
    (355505328338630, 0), (0, 8672951333), (7790888, 0)], [(53034862819028, 0), (31101055212, 0), (14783853, 0),
    (6695, 0)], [(7295841660, 0), (9732698, 0), (7860, 0), (5, 0)]], 2, 3⟩, 4503599627370496, 117, 106869801234326,
    ⟨[[(663019984364796, 0), (557994880644, 0), (0, 355129382), (0, 1458711)], [(56705558733, 0), (345434854, 0),
    (1616235, 0), (7636, 0)], [(0, 28989001), (0, 379888), (0, 3217), (0, 21)]], 2, 3⟩, 1099511627776, 354112403,
    20407692727528283656386562176801737520700134429811152127286975714862615288463821969954083, lc0⟩)) (.sx (.sy
    (.leaf ⟨323, 16, 9, 2184, 16, 396, ⟨[[(2065005982265600, 0)], [(0, 523437903565554)]], 2, 3⟩, ⟨[[(0,
    553479623999488), (317977646437861, 0), (0, 2986245203), (1695119, 0)], [(106821645212251, 0), (31544454682, 0),
    (7454228, 0), (1604, 0)], [(16113525919, 0), (10611677, 0), (4100, 0), (1, 0)]], 2, 3⟩, 4503599627370496, 80,
    36591213832517, ⟨[[(674269373109177, 0), (300190010347, 0), (0, 110141534), (0, 194864)], [(61228726944, 0),
    (206590202, 0), (544127, 0), (1495, 0)], [(0, 33298566), (0, 236767), (0, 1053), (0, 3)]], 2, 3⟩, 1099511627776,
    205146133, 20614806808074185737888821949636946834054936578115840277684708524731876704350832145650487, lc0⟩)
    (.leaf ⟨323, 16, 9, 2169, 16, 389, ⟨[[(2065005982265600, 0)], [(0, 523437903565554)]], 2, 3⟩,
    ⟨[[(2182953581561856, 0), (310938055692219, 0), (0, 1085572667), (1863025, 0)], [(116747673564479, 0),
    (36741994901, 0), (9198900, 0), (2023, 0)], [(20025420483, 0), (13731967, 0), (5533, 0), (2, 0)]], 2, 3⟩,
    4503599627370496, 80, 76353711873477, ⟨[[(681416923384446, 0), (299866267427, 0), (0, 128222976), (0, 189847)],
    [(66529794482, 0), (239835525, 0), (693162, 0), (2103, 0)], [(0, 39646931), (0, 299107), (0, 1380), (0, 5)]], 2,
    3⟩, 1099511627776, 285475881,
    36163770707257185319587715054465520596731111505610988478064367596956867858650006087732739, lc0⟩)) (.sy (.leaf
    ⟨295, 16, 9, 2112, 16, 382, ⟨[[(1493822885775616, 0)], [(0, 523437903565554)]], 2, 3⟩, ⟨[[(1897726765088768, 0),
    (314756228025472, 0), (0, 876115161), (2092672, 0)], [(111302358513701, 0), (36116331287, 0), (9537549, 0),
    (2322, 0)], [(18738549196, 0), (13512577, 0), (5979, 0), (2, 0)]], 2, 3⟩, 4503599627370496, 117, 74908249626834,
    ⟨[[(674113946195465, 0), (303555971383, 0), (0, 139876075), (0, 267778)], [(64396909895, 0), (236038944, 0),
    (686769, 0), (2040, 0)], [(0, 38145714), (0, 301842), (0, 1496), (0, 5)]], 2, 3⟩, 1099511627776, 234852157,
    17876129245650763330049059414577535661567182861384348882391128285281826049826366364833774, lc0⟩) (.sx (.leaf
    ⟨638, 16, 19, 2376, 16, 425, ⟨[[(1453484003175424, 0)], [(0, 552517787096973)]], 2, 3⟩, ⟨[[(0, 1942982325202944),
    (347533545929684, 0), (863237264, 0), (2516214, 0)], [(68066789211392, 0), (23133985700, 0), (6349018, 0), (1593,
    0)], [(6391779437, 0), (4756386, 0), (2204, 0), (1, 0)]], 2, 3⟩, 4503599627370496, 309, 7285057072219,
    ⟨[[(681702933741165, 0), (268252181594, 0), (0, 123406391), (0, 178658)], [(33026803743, 0), (113602943, 0),
    (316489, 0), (903, 0)], [(0, 10077571), (0, 73825), (0, 330), (0, 1)]], 2, 3⟩, 1099511627776, 42359004,
    41004140749434327653378438431788600756534564567798185281928891880044377782761955662124157, lc0⟩) (.leaf ⟨609, 16,
    19, 2329, 16, 416, ⟨[[(0, 1651431280547840)], [(0, 552517787096973)]], 2, 3⟩, ⟨[[(0, 328698457960448),
    (345943520696681, 0), (2488145845, 0), (2899916, 0)], [(69832045010755, 0), (25113534304, 0), (7424212, 0),
    (2088, 0)], [(7020736311, 0), (5596134, 0), (2887, 0), (1, 0)]], 2, 3⟩, 4503599627370496, 415, 10479042914502,
    ⟨[[(681632197708214, 0), (269697932403, 0), (0, 140865797), (0, 219094)], [(34030851840, 0), (122987067, 0),
    (361993, 0), (1074, 0)], [(0, 10900146), (0, 84509), (0, 399), (0, 1)]], 2, 3⟩, 1099511627776, 41882132,
    44908353366400717660201800608167705611503656854890273020907562848201003600649023494316776, lc0⟩))))
theorem c17 : checkC job ⟨6, 8, 5, 6, 9, 13⟩ 1 40 B1.zlims t17 3213 121 640 3609 175 3792 = true := by decide +kernel

def t18 : CTree :=
  .sy (.sx (.sy (.leaf ⟨267, 16, 9, 2074, 16, 383, ⟨[[(922639789285376, 0)], [(0, 523437903565554)]], 2, 3⟩, ⟨[[(0,
    1514102550196224), (326330984422126, 0), (0, 3153178101), (2038531, 0)], [(96353723571423, 0), (29795614397, 0),
    (7608998, 0), (1878, 0)], [(13711198643, 0), (9701883, 0), (4270, 0), (2, 0)]], 2, 3⟩, 4503599627370496, 107,
    32272918551042, ⟨[[(659122695882811, 0), (308024369439, 0), (0, 119330527), (0, 287921)], [(56895929091, 0),
    (197533821, 0), (532897, 0), (1438, 0)], [(0, 29693334), (0, 224616), (0, 1107), (0, 4)]], 2, 3⟩, 1099511627776,
    159300363, 13402715228232352559067368563663309013688139572699396284096013292228030590132385486099327, lc0⟩)
    (.leaf ⟨267, 16, 9, 2061, 16, 376, ⟨[[(922639789285376, 0)], [(0, 523437903565554)]], 2, 3⟩, ⟨[[(0,
    1815155775221760), (318970270749695, 0), (0, 839341859), (2315991, 0)], [(105831665932806, 0), (35239441416, 0),
    (9771301, 0), (2599, 0)], [(17381863885, 0), (13124771, 0), (6279, 0), (3, 0)]], 2, 3⟩, 4503599627370496, 107,
    70418958219309, ⟨[[(666855574690224, 0), (307009669922, 0), (0, 147478947), (0, 328956)], [(62275518554, 0),
    (231868762, 0), (684272, 0), (2024, 0)], [(0, 36178444), (0, 295167), (0, 1535), (0, 6)]], 2, 3⟩, 1099511627776,
    215326984, 15045457687260163090926535727232515291149901004472095919400247555943213604017160582823429, lc0⟩)) (.sy
    (.leaf ⟨239, 16, 9, 2008, 16, 370, ⟨[[(351456692795392, 0)], [(0, 523437903565554)]], 2, 3⟩,
    ⟨[[(2085669258322944, 0), (322823456541117, 0), (0, 988565438), (2516613, 0)], [(100108319816935, 0),
    (34020551870, 0), (9833092, 0), (2811, 0)], [(15923628564, 0), (12501271, 0), (6356, 0), (3, 0)]], 2, 3⟩,
    4503599627370496, 90, 63334267174933, ⟨[[(658878806214164, 0), (311636478445, 0), (0, 149736358), (0, 375147)],
    [(59597116684, 0), (224091131, 0), (668797, 0), (1983, 0)], [(0, 33249970), (0, 275111), (0, 1476), (0, 6)]], 2,
    3⟩, 1099511627776, 192446490,
    19077048719144526114783689692020780261172429143324607638184909828834564942269330000448479, lc0⟩) (.leaf ⟨239, 16,
    9, 1979, 16, 360, ⟨[[(351456692795392, 0)], [(0, 523437903565554)]], 2, 3⟩, ⟨[[(0, 1851070126884864),
    (314385623424224, 0), (1878943402, 0), (3003599, 0)], [(110290501160529, 0), (40958303778, 0), (13136540, 0),
    (4199, 0)], [(20642495438, 0), (17706096, 0), (10025, 0), (5, 0)]], 2, 3⟩, 4503599627370496, 90, 145758483969872,
    ⟨[[(666864927008065, 0), (311488041882, 0), (0, 190887246), (0, 456713)], [(65905952943, 0), (270598590, 0),
    (897407, 0), (2930, 0)], [(0, 41504938), (0, 375488), (0, 2142), (0, 9)]], 2, 3⟩, 1099511627776, 269746464,
    21270362141454573766290158410199936354698777419288580774424270450875047400631504928356541, lc0⟩))) (.sx (.sy
    (.leaf ⟨267, 16, 9, 2024, 16, 365, ⟨[[(922639789285376, 0)], [(0, 523437903565554)]], 2, 3⟩,
    ⟨[[(1700024328520704, 0), (309944327800770, 0), (1766698061, 0), (2699391, 0)], [(115989752258739, 0),
    (41906156517, 0), (12722094, 0), (3755, 0)], [(22203992628, 0), (18132882, 0), (9657, 0), (4, 0)]], 2, 3⟩,
    4503599627370496, 107, 159092999833530, ⟨[[(674133412542300, 0), (308371640244, 0), (0, 182491386), (0, 383698)],
    [(68263864548, 0), (276658078, 0), (905153, 0), (2950, 0)], [(0, 44233921), (0, 391613), (0, 2154), (0, 9)]], 2,
    3⟩, 1099511627776, 293293912,
    17251772543196735675185387102908002908033015363202579828860268888134564424467645593621898, lc0⟩) (.sx (.leaf
    ⟨579, 16, 19, 2277, 16, 406, ⟨[[(0, 252746936900096)], [(0, 552517787096973)]], 2, 3⟩, ⟨[[(0, 1358746484185088),
    (343901303029330, 0), (4365045868, 0), (3410454, 0)], [(71685780476575, 0), (27439655446, 0), (8842573, 0),
    (2808, 0)], [(7779843303, 0), (6709088, 0), (3841, 0), (2, 0)]], 2, 3⟩, 4503599627370496, 67, 15237689045148,
    ⟨[[(681684716794340, 0), (271194267971, 0), (0, 162938298), (0, 272735)], [(35233489113, 0), (134736842, 0),
    (421907, 0), (1307, 0)], [(0, 11894900), (0, 97902), (0, 488), (0, 2)]], 2, 3⟩, 1099511627776, 47895703,
    45139645298913784646821985965487727835846021012887911837789872730919142073092773915348562, lc0⟩) (.leaf ⟨549, 16,
    19, 2219, 16, 395, ⟨[[(1145937406747136, 0)], [(0, 552517787096973)]], 2, 3⟩, ⟨[[(0, 607580683243520),
    (341456308277341, 0), (6572668388, 0), (4104211, 0)], [(73672206457299, 0), (30234431542, 0), (10732191, 0),
    (3835, 0)], [(8710901466, 0), (8177195, 0), (5140, 0), (3, 0)]], 2, 3⟩, 4503599627370496, 116, 22459926069294,
    ⟨[[(681627737349942, 0), (273111379994, 0), (0, 189780289), (0, 343415)], [(36508255258, 0), (148375823, 0),
    (495791, 0), (1609, 0)], [(0, 12974298), (0, 113436), (0, 596), (0, 2)]], 2, 3⟩, 1099511627776, 61365927,
    44816826901319365226777879312410302082026186259223525056952853364935321827467792869860388, lc0⟩))) (.sy (.sx
    (.leaf ⟨520, 16, 19, 2207, 16, 397, ⟨[[(0, 1958977876976128)], [(0, 552517787096973)]], 2, 3⟩,
    ⟨[[(582535417165824, 0), (346108189659783, 0), (4834549891, 0), (3871911, 0)], [(67891741486116, 0),
    (26954343248, 0), (9303011, 0), (3218, 0)], [(7287402388, 0), (6663633, 0), (4055, 0), (2, 0)]], 2, 3⟩,
    4503599627370496, 223, 16603320083673, ⟨[[(674241091953530, 0), (276163915925, 0), (0, 176768157), (0, 355750)],
    [(33956953358, 0), (132500632, 0), (421866, 0), (1310, 0)], [(0, 11169107), (0, 95255), (0, 500), (0, 2)]], 2,
    3⟩, 1099511627776, 58271830,
    18395763735368764798643035322021859789746741241351983477327199285078836333692746580250950, lc0⟩) (.leaf ⟨490, 16,
    19, 2155, 16, 387, ⟨[[(0, 560293533328640)], [(0, 552517787096973)]], 2, 3⟩, ⟨[[(842906222532608, 0),
    (344158136587264, 0), (7163504003, 0), (4667962, 0)], [(69869146900353, 0), (29787258029, 0), (11295439, 0),
    (4318, 0)], [(8174606132, 0), (8090306, 0), (5321, 0), (3, 0)]], 2, 3⟩, 4503599627370496, 73, 24420628153198,
    ⟨[[(674212191702776, 0), (277679891944, 0), (0, 204482048), (0, 435446)], [(35160140021, 0), (145490658, 0),
    (493970, 0), (1611, 0)], [(0, 12115109), (0, 109192), (0, 600), (0, 2)]], 2, 3⟩, 1099511627776, 74519881,
    22332194081261222097745287013961938047380075100662006655156429290148714867823150977460260, lc0⟩)) (.sx (.leaf
    ⟨520, 16, 19, 2155, 16, 383, ⟨[[(0, 1958977876976128)], [(0, 552517787096973)]], 2, 3⟩, ⟨[[(1849249787453440, 0),
    (338680892837462, 0), (9217354574, 0), (5057430, 0)], [(75850402840238, 0), (33651619010, 0), (13255413, 0),
    (5293, 0)], [(9861924109, 0), (10097255, 0), (6904, 0), (4, 0)]], 2, 3⟩, 4503599627370496, 223, 33269639806913,
    ⟨[[(681501087658968, 0), (275628736893, 0), (0, 222132604), (0, 435265)], [(37833991427, 0), (164008247, 0),
    (586006, 0), (1997, 0)], [(0, 14116610), (0, 131133), (0, 727), (0, 3)]], 2, 3⟩, 1099511627776, 79101412,
    40457203030078939105869767608852206311806778028279436274157631690028314545961728818657204, lc0⟩) (.leaf ⟨490, 16,
    19, 2086, 16, 370, ⟨[[(0, 560293533328640)], [(0, 552517787096973)]], 2, 3⟩, ⟨[[(1436512458909696, 0),
    (335675181455094, 0), (12442029642, 0), (6383316, 0)], [(78295252457993, 0), (37886229883, 0), (16651231, 0),
    (7440, 0)], [(11289998291, 0), (12618265, 0), (9422, 0), (6, 0)]], 2, 3⟩, 4503599627370496, 73, 49633704314712,
    ⟨[[(681509992502901, 0), (277929871743, 0), (0, 264514244), (0, 563222)], [(39455341689, 0), (183978762, 0),
    (707800, 0), (2545, 0)], [(0, 15528367), (0, 153876), (0, 902), (0, 4)]], 2, 3⟩, 1099511627776, 106432564,
    32010392563919649807480892708991009202564086420638400528055475272386848797743652051690214, lc0⟩))))
theorem c18 : checkC job ⟨6, 8, 5, 6, 9, 13⟩ 1 40 B1.zlims t18 3455 121 640 3609 175 3792 = true := by decide +kernel

end PyX.Kron.T1ps
