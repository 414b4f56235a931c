import Verif.Lemmas.T3bJob

/-!
# The temperature from pressure and enthalpy in subregion 3b, part D of the certificate
-/

namespace PyX.Kron.T3b

set_option Elab.async false

def t105 : CTree :=
  .sy (.sx (.sy (.sx (.leaf ⟨958, 16, 1670, 80, 16, 2123, ⟨[[(0, 35401268725964800), (0, 3957015634567898),
    (111296469160, 0), (4149387, 0), (511, 0)], [(4664691041352914, 0), (0, 3021506227151), (204327891, 0), (16076,
    0), (2, 0)], [(4208261339029, 0), (0, 1678600779), (0, 91667), (0, 16)], [(8789407646, 0), (0, 2162379), (0,
    287)]], 3, 4⟩, ⟨[[(14856716174326784, 0), (0, 2600587620879461), (0, 35174359253), (0, 9838926), (0, 988)], [(0,
    21668204762596267), (508784590258, 0), (116258963, 0), (14678, 0), (1, 0)], [(7583038229055, 0), (302035567, 0),
    (69391, 0), (11, 0)], [(0, 5309859986), (0, 1141724), (0, 221)]], 3, 4⟩, 72057594037927936, 1486126574913,
    552299586429, ⟨[[(13612021156022, 0), (747546924, 0), (0, 601540), (3422, 0), (10, 0)], [(3480087949, 0),
    (8388511, 0), (0, 8837), (6, 0)], [(0, 5668944), (0, 1279), (9, 0)], [(9181, 0), (0, 36)]], 3, 4⟩,
    17592186044416, 1483368,
    4136589387405712414055158944615766919786707091011854211898171163543506266874952249225356668356398762018893321470323035993686831,
    lc0⟩) (.leaf ⟨925, 16, 1608, 69, 16, 2160, ⟨[[(0, 22580426919985152), (0, 3935303836914942), (115251995681, 0),
    (4615767, 0), (565, 0)], [(4878759432670987, 0), (0, 3055932572504), (187913904, 0), (13997, 0), (2, 0)],
    [(5194336057887, 0), (0, 1871823573), (0, 121292), (0, 20)], [(9708559360, 0), (0, 1966971), (0, 246)]], 3, 4⟩,
    ⟨[[(0, 4493222622047232), (0, 2623712965705653), (0, 30711432607), (0, 9364843), (0, 944)], [(0,
    21425678871457487), (537390567036, 0), (123035396, 0), (15755, 0), (2, 0)], [(7058851723979, 0), (163664335, 0),
    (42652, 0), (8, 0)], [(0, 5009023767), (0, 1114406), (0, 218)]], 3, 4⟩, 72057594037927936, 1740038404883,
    616823448428, ⟨[[(13611779379609, 0), (773108449, 0), (0, 716504), (2794, 0), (10, 0)], [(3475689033, 0),
    (8776241, 0), (0, 9031), (6, 0)], [(0, 6013746), (0, 1913), (11, 0)], [(10648, 0), (0, 40)]], 3, 4⟩,
    17592186044416, 1955322,
    4236194837742128054237126842768895190421482518380544571615263108936526527825921753390987407463794483193393598173050199045889364,
    lc0⟩)) (.sx (.leaf ⟨984, 16, 1766, 62, 16, 2111, ⟨[[(0, 13035896973959168), (0, 4062716892313554), (125167915829,
    0), (5570613, 0), (640, 0)], [(3385583059338027, 0), (0, 2964368172500), (244826893, 0), (21308, 0), (2, 0)],
    [(3532466603051, 0), (0, 1885607133), (0, 123839), (0, 19)], [(8064281498, 0), (0, 2627610), (0, 378)]], 3, 4⟩,
    ⟨[[(0, 29006171554266112), (0, 2628917110655384), (0, 51275273913), (0, 11918081), (0, 1147)], [(0,
    21260691761587346), (633741894153, 0), (139810043, 0), (17641, 0), (2, 0)], [(7709838724895, 0), (378772806, 0),
    (87857, 0), (14, 0)], [(0, 5909013812), (0, 1379382), (0, 268)]], 3, 4⟩, 72057594037927936, 1678439315807,
    578003512472, ⟨[[(13502625224493, 0), (535102572, 0), (0, 511294), (2544, 0), (10, 0)], [(3463652059, 0),
    (8269350, 0), (0, 9135), (8, 0)], [(0, 5814747), (2046, 0), (2, 0)], [(9201, 0), (0, 48)]], 3, 4⟩,
    17592186044416, 1153392,
    3066697831048122439054676077625305189875705258737681594874354876654675899756312935141801029215525360528173472368510098768622966,
    lc0⟩) (.sx (.sy (.leaf ⟨1928, 16, 3430, 116, 16, 4306, ⟨[[(0, 6290289537581056), (0, 4070044130769642),
    (63350898463, 0), (1425363, 0), (83, 0)], [(3908491071578603, 0), (0, 1529112030970), (55506056, 0), (2288, 0)],
    [(2237328947732, 0), (0, 507426100), (0, 18127), (0, 1)], [(2288754407, 0), (0, 294427), (0, 20)]], 3, 4⟩,
    ⟨[[(10558799839332352, 0), (0, 2649081477692787), (0, 21734622312), (0, 2756541), (0, 134)], [(0,
    21287312306171746), (315201508058, 0), (35131381, 0), (2238, 0)], [(3638512382045, 0), (59868985, 0), (7514, 0),
    (1, 0)], [(0, 1387679109), (0, 162855), (0, 16)]], 3, 4⟩, 72057594037927936, 232930160040, 79894324487,
    ⟨[[(13529083916716, 0), (300596700, 0), (0, 151122), (282, 0), (1, 0)], [(1710454552, 0), (2117230, 0), (0,
    1137)], [(0, 1479765), (104, 0)], [(1260, 0), (0, 3)]], 3, 4⟩, 17592186044416, 155771,
    3365211742253729276366014704554025353191111894707349568204729467896226993068064702779836711664037085529469085108596046021842503,
    lc0⟩) (.out ⟨886, 16, 3463, 3128, 16, 3008, ⟨[[(6200813673349120, 0), (0, 4043854530965198), (66257837710, 0)],
    [(3185518183256355, 0), (0, 1485745304342), (59722764, 0)], [(1996880442920, 0), (0, 531784327), (0, 20524)]], 2,
    2⟩, ⟨[[(0, 34200652864978944), (0, 2614206805416854), (0, 25519689500)], [(0, 20654965784848201), (344465586815,
    0), (37814665, 0)], [(3589732797192, 0), (66415110, 0), (8333, 0)]], 2, 2⟩, 72057594037927936, 47833357962491,
    62416268653215, ⟨[], 0, 0⟩, 0, 0, 0, lc0⟩ 2 1 17787962001408)) (.out ⟨451, 16, 1729, 1966, 16, 1893, ⟨[[(0,
    33954682577850368), (0, 4135420374611304), (134743545814, 0)], [(1873874300099316, 0), (0, 1558430030278),
    (112018015, 0)], [(1209612492954, 0), (0, 559007913), (0, 43935)]], 2, 2⟩, ⟨[[(27656355934011392, 0), (0,
    3257573057522799), (0, 54901613667)], [(0, 12867243229833056), (415717603620, 0), (92176717, 0)],
    [(2140198440103, 0), (52284350, 0), (14579, 0)]], 2, 2⟩, 72057594037927936, 121774888041223, 237206597688674,
    ⟨[], 0, 0⟩, 0, 0, 0, lc0⟩ 2 1 21841013376937)))) (.sx (.sy (.sy (.sx (.leaf ⟨1810, 16, 3117, 131, 16, 4391,
    ⟨[[(28290631753531392, 0), (0, 3938539303564872), (57767705766, 0), (1146755, 0), (72, 0)], [(5464242088036723,
    0), (0, 1562421840702), (42393539, 0), (1436, 0)], [(3109987436578, 0), (0, 488888510), (0, 16308), (0, 1)],
    [(2671334971, 0), (0, 218170), (0, 12)]], 3, 4⟩, ⟨[[(0, 35176293592983552), (0, 2643079183669805), (0,
    11967197808), (0, 2139783), (0, 109)], [(0, 21408113922909580), (261115620013, 0), (30274105, 0), (1958, 0)],
    [(3350780892475, 0), (14033432, 0), (2610, 0)], [(0, 1158377231), (0, 128742), (0, 13)]], 3, 4⟩,
    72057594037927936, 232537948274, 80762105990, ⟨[[(13637827460362, 0), (421617620, 0), (0, 201367), (317, 0), (1,
    0)], [(1719390799, 0), (2236910, 0), (0, 1108)], [(0, 1524214), (0, 394), (1, 0)], [(1417, 0), (0, 2)]], 3, 4⟩,
    17592186044416, 186492,
    3618276576350495021234599671864278259074039064336758776937979583196207491355734179295153951166595394181937695399869033852011554,
    lc0⟩) (.out ⟨850, 16, 2994, 3240, 16, 3099, ⟨[[(0, 8954455528521728), (0, 3846996465596150), (57169904787, 0)],
    [(5513442680656006, 0), (0, 1541305864628), (39343664, 0)], [(3321924994727, 0), (0, 495413403), (0, 17096)]], 2,
    2⟩, ⟨[[(35818166552657920, 0), (0, 2600686894538838), (0, 10564417453)], [(0, 20880494227508038), (258499270222,
    0), (30064076, 0)], [(3170026526983, 0), (0, 1869561), (1032, 0)]], 2, 2⟩, 72057594037927936, 45248157498286,
    43841680792230, ⟨[], 0, 0⟩, 0, 0, 0, lc0⟩ 2 1 14296559511503)) (.out ⟨774, 16, 2821, 2289, 16, 2197,
    ⟨[[(30222324489125888, 0), (0, 3540282808637361), (54787731795, 0)], [(8714303109456690, 0), (0, 2788047895863),
    (79471997, 0)], [(10949029813912, 0), (0, 1885115096), (0, 69881)]], 2, 2⟩, ⟨[[(0, 18818947487727616), (0,
    1856693564261341), (0, 10267299260)], [(0, 29601794308839918), (411268411899, 0), (46905822, 0)],
    [(9196361594980, 0), (22494445, 0), (6269, 0)]], 2, 2⟩, 72057594037927936, 205644127016770, 92240946633529, ⟨[],
    0, 0⟩, 0, 0, 0, lc0⟩ 2 1 18947224575150)) (.out ⟨420, 16, 1606, 1583, 16, 1533, ⟨[[(4766112798789632, 0), (0,
    3934554026064714), (131542092534, 0)], [(3792250163602044, 0), (0, 3032369080308), (196965749, 0)],
    [(5401227089085, 0), (0, 2277472148), (0, 189608)]], 2, 2⟩, ⟨[[(29602034350587904, 0), (0, 2616729831680505), (0,
    39719180596)], [(0, 20419649631010490), (680089476523, 0), (151503549, 0)], [(6431495862007, 0), (46619388, 0),
    (23091, 0)]], 2, 2⟩, 72057594037927936, 214424872366608, 230328326115051, ⟨[], 0, 0⟩, 0, 0, 0, lc0⟩ 2 1
    33923129205659)) (.out ⟨212, 16, 779, 1000, 16, 970, ⟨[[(0, 12559461934559232), (0, 4011209204977869),
    (260742298251, 0)], [(2486359873178019, 0), (0, 3222698448229), (331102123, 0)], [(3597903959392, 0), (0,
    2344112902), (0, 378521)]], 2, 2⟩, ⟨[[(10814617255436288, 0), (0, 3256388306768620), (0, 66749210391)], [(0,
    12696949760011544), (765284255207, 0), (349044926, 0)], [(3697488152939, 0), (0, 129904006), (0, 20623)]], 2, 2⟩,
    72057594037927936, 498226642631735, 814216313296110, ⟨[], 0, 0⟩, 0, 0, 0, lc0⟩ 2 1 40231676309189))) (.sx (.sx
    (.sy (.sx (.leaf ⟨1050, 16, 1941, 57, 16, 2601, ⟨[[(27661699204939776, 0), (0, 4291253721717308), (144661849896,
    0), (7355125, 0), (801, 0)], [(1049953993518874, 0), (0, 1461633343768), (155933253, 0), (14757, 0), (2, 0)],
    [(645225216333, 0), (0, 529877763), (0, 38469), (0, 6)], [(867000679, 0), (0, 424538), (0, 65)]], 3, 4⟩, ⟨[[(0,
    10827880610300416), (0, 3324540077873301), (0, 89709734512), (0, 18015665), (0, 1662)], [(0, 12982576376042859),
    (479125082557, 0), (102631079, 0), (12873, 0), (1, 0)], [(2506042410117, 0), (163559272, 0), (37208, 0), (5, 0)],
    [(0, 1043023744), (0, 259696), (0, 50)]], 3, 4⟩, 72057594037927936, 211054135601, 156146495616,
    ⟨[[(13393526253372, 0), (251914949, 0), (0, 225720), (873, 0), (4, 0)], [(3358618607, 0), (6133486, 0), (0,
    5648), (5, 0)], [(0, 5563267), (4927, 0), (0, 5)], [(7564, 0), (0, 45)]], 3, 4⟩, 17592186044416, 983105,
    3569582989457033591319888132056301240972734944706538345367544292035214599468783300689474503503657066645235832574038879397288750,
    lc0⟩) (.out ⟨456, 16, 1874, 1900, 16, 1837, ⟨[[(20278484897849344, 0), (0, 4203329166733668), (145921353224, 0)],
    [(1070624726824940, 0), (0, 1456303910679), (147101298, 0)], [(734035426271, 0), (0, 562548427), (0, 44932)]], 2,
    2⟩, ⟨[[(34944700452077568, 0), (0, 3267053638780070), (0, 84379273683)], [(0, 12634088493563302), (485977494320,
    0), (104307123, 0)], [(2349871175804, 0), (129570103, 0), (30558, 0)]], 2, 2⟩, 72057594037927936,
    140421316253497, 296274960605797, ⟨[], 0, 0⟩, 0, 0, 0, lc0⟩ 2 1 25464175395842)) (.out ⟨446, 16, 1954, 1482, 16,
    1447, ⟨[[(0, 24405851952144384), (0, 4195353797108071), (161869414658, 0)], [(752668122048704, 0), (0,
    2653305176762), (359417550, 0)], [(1652638821925, 0), (0, 2432144303), (0, 210955)]], 2, 2⟩, ⟨[[(0,
    23721265691983872), (0, 2661010268684226), (0, 91014088419)], [(0, 19637911218959165), (935765302759, 0),
    (195925110, 0)], [(7863235924266, 0), (577902133, 0), (132069, 0)]], 2, 2⟩, 72057594037927936, 231489938688485,
    351978928934823, ⟨[], 0, 0⟩, 0, 0, 0, lc0⟩ 2 1 41371653344386)) (.out ⟨217, 16, 921, 935, 16, 914,
    ⟨[[(31510684926306304, 0), (0, 4145903667217845), (318029199281, 0)], [(785691392024399, 0), (0, 2867549219541),
    (593493062, 0)], [(1495153557007, 0), (0, 2616732856), (0, 488503)]], 2, 2⟩, ⟨[[(0, 35329819375001600), (0,
    3262131614834812), (0, 180418254798)], [(0, 12157538466590946), (1106511619114, 0), (471071455, 0)],
    [(4353722195834, 0), (373218032, 0), (191675, 0)]], 2, 2⟩, 72057594037927936, 719049802206250, 1291339247154389,
    ⟨[], 0, 0⟩, 0, 0, 0, lc0⟩ 2 1 45907707381893)) (.out ⟨200, 16, 843, 766, 16, 758, ⟨[[(0, 18734057431846912), (0,
    3970352345321893), (323333130196, 0)], [(1878345219919004, 0), (0, 5919265281625), (954093453, 0)],
    [(8675258019861, 0), (0, 11627128310), (0, 2388168)]], 2, 2⟩, ⟨[[(27496400634175488, 0), (0, 2646753782388409),
    (0, 124552800732)], [(0, 19331763766563925), (1871910390054, 0), (805211308, 0)], [(12061692536893, 0), (0,
    54681219), (129552, 0)]], 2, 2⟩, 72057594037927936, 1186052483684288, 1226537993755918, ⟨[], 0, 0⟩, 0, 0, 0, lc0⟩
    2 1 71217830003207))
theorem c105 : checkR job con0 false ⟨7, 9, 7, 9, 13, 17⟩ 1 34400 t105 369 21 320 15749 251 16000 = true := by decide +kernel

def t106 : CTree :=
  .out ⟨84, 16, 325, 396, 16, 396, ⟨[[(0, 6676108703732736), (0, 3525675111797967), (525169982969, 0)],
    [(4236978672042449, 0), (0, 12141139468262), (1721110127, 0)], [(34422576492306, 0), (0, 40349396521), (0,
    15031160)]], 2, 2⟩, ⟨[[(31332288653168640, 0), (0, 2614003241916167), (0, 98071746679)], [(0, 19277428346067346),
    (2876722553109, 0), (2625786499, 0)], [(18466946475554, 0), (0, 7579599137), (0, 5007787)]], 2, 2⟩,
    72057594037927936, 4742546009612506, 3831299505650736, ⟨[], 0, 0⟩, 0, 0, 0, lc0⟩ 2 1 98304373944592
theorem c106 : checkR job con0 false ⟨7, 9, 7, 9, 13, 17⟩ 1 34400 t106 411 21 320 15749 251 16000 = true := by decide +kernel

def t107 : CTree :=
  .sy (.sx (.sy (.leaf ⟨439, 16, 484, 150, 16, 1620, ⟨[[(11247432061444096, 0), (0, 2051871100548285), (43111369832,
    0), (0, 429809), (5, 0)], [(26630889984756587, 0), (0, 3647393641870), (86123691, 0), (0, 555)],
    [(44208889675588, 0), (0, 3092985344), (5693, 0), (4, 0)], [(70948879138, 0), (0, 1690079), (0, 160)]], 3, 4⟩,
    ⟨[[(17156485917145088, 0), (0, 2080735727491585), (25412007218, 0), (0, 461787), (24, 0)], [(0,
    27843555874294754), (0, 131187782621), (27287233, 0), (0, 180)], [(16267845524906, 0), (0, 319808879), (0, 4324),
    (0, 6)], [(0, 2253751641), (0, 789618), (28, 0)]], 3, 4⟩, 72057594037927936, 11146706955132, 3437549134792,
    ⟨[[(15067455654082, 0), (4558422660, 0), (0, 1256035), (8941, 0), (0, 3)], [(4779901032, 0), (14258267, 0), (0,
    2267), (0, 31)], [(0, 12893656), (0, 35074), (47, 0)], [(34943, 0), (72, 0)]], 3, 4⟩, 17592186044416, 21815014,
    4049265236388420404311473217514274188895127346948209517926120465770285393282491486640895747553107756765003336215928399720385785,
    lc0⟩) (.leaf ⟨444, 16, 506, 137, 16, 1628, ⟨[[(23789655766409216, 0), (0, 2100222628706755), (44406609342, 0),
    (0, 430188), (14, 0)], [(25949769300827499, 0), (0, 3723334076598), (88838549, 0), (0, 1009)], [(44597143545109,
    0), (0, 3224652409), (11327, 0), (3, 0)], [(73248236006, 0), (0, 1913828), (0, 126)]], 3, 4⟩, ⟨[[(0,
    35943350677831680), (0, 2065711425546639), (24869253748, 0), (0, 427265), (12, 0)], [(0, 28040335508709388), (0,
    104333117178), (27478160, 0), (275, 0)], [(16184942635329, 0), (0, 330626898), (0, 14296), (0, 7)], [(0,
    2656330426), (0, 766774), (24, 0)]], 3, 4⟩, 72057594037927936, 11945325822687, 3526806853120, ⟨[[(14936648066077,
    0), (4363993504, 0), (0, 1584980), (9320, 0), (1, 0)], [(4745794125, 0), (14650679, 0), (0, 2315), (0, 30)], [(0,
    12798125), (0, 36307), (51, 0)], [(35062, 0), (75, 0)]], 3, 4⟩, 17592186044416, 21034671,
    4805473310352558673434785302421526052018845642985057282091218199830739321529227645406762623521568180963496941577845860806100748,
    lc0⟩)) (.sy (.leaf ⟨407, 16, 432, 138, 16, 1660, ⟨[[(0, 9953465909649408), (0, 1973126422966702), (41705332678,
    0), (0, 395732), (0, 5)], [(27434298742238638, 0), (0, 3494496214298), (76425903, 0), (0, 33)], [(47972554590838,
    0), (0, 2917273237), (0, 17192), (7, 0)], [(71888000562, 0), (0, 944214), (0, 215)]], 3, 4⟩, ⟨[[(0,
    19864090295805952), (0, 2138394335997513), (27208548248, 0), (0, 492061), (32, 0)], [(0, 27137804251991430), (0,
    166091979725), (27778618, 0), (0, 714)], [(16565206105761, 0), (0, 424626731), (482, 0), (0, 6)], [(651985708,
    0), (0, 733169), (48, 0)]], 3, 4⟩, 72057594037927936, 10567764106619, 3497834049652, ⟨[[(15071357431397, 0),
    (4719641554, 0), (0, 1592903), (7905, 0), (1, 0)], [(4670733944, 0), (14360046, 0), (471, 0), (0, 29)], [(0,
    13529335), (0, 39937), (39, 0)], [(39295, 0), (98, 0)]], 3, 4⟩, 17592186044416, 31300107,
    4648388816055666597337441956174460035457426163729575941125070911456045160995135667326487957209245924757214003919639648895403132,
    lc0⟩) (.sx (.leaf ⟨578, 16, 641, 172, 16, 2253, ⟨[[(4789917360807936, 0), (0, 2813260490979448), (59808040004,
    0), (0, 580855), (8, 0)], [(18359054137267733, 0), (0, 2490397605812), (56455018, 0), (0, 481)],
    [(16430204988132, 0), (0, 1072559017), (0, 912), (2, 0)], [(12816940351, 0), (0, 236996), (0, 28)]], 3, 4⟩,
    ⟨[[(17896103281717248, 0), (0, 2863786262231204), (35596222186, 0), (0, 589180), (27, 0)], [(0,
    18701002241654427), (0, 88131929566), (18454369, 0), (0, 124)], [(5548963998529, 0), (0, 138190474), (0, 3823),
    (0, 3)], [(0, 76837633), (0, 119669), (8, 0)]], 3, 4⟩, 72057594037927936, 1013558336094, 325049347527,
    ⟨[[(14935027323250, 0), (3312055830, 0), (0, 1016015), (3331, 0), (1, 0)], [(3371806124, 0), (7876717, 0), (0,
    33), (0, 8)], [(0, 6953358), (0, 15612), (13, 0)], [(14576, 0), (27, 0)]], 3, 4⟩, 17592186044416, 4918197,
    4074849218703257811478883504724699573740405722296256604357271845474047264384879817008060649025318386033905352192808231481265899,
    lc0⟩) (.leaf ⟨560, 16, 609, 163, 16, 2270, ⟨[[(0, 16588891862982656), (0, 2774005246385096), (59071420838, 0),
    (0, 567802)], [(18819617745419115, 0), (0, 2452773362348), (53411466, 0), (0, 292)], [(17194589472420, 0), (0,
    1044219883), (0, 4633), (2, 0)], [(12979205676, 0), (0, 173538), (0, 33)]], 3, 4⟩, ⟨[[(0, 21439763652827136), (0,
    2889378818820519), (36639555771, 0), (0, 603328), (34, 0)], [(0, 18372438424746856), (0, 101117433889),
    (18314161, 0), (0, 337)], [(5597211047150, 0), (0, 153962743), (0, 2761), (0, 2)], [(178534083, 0), (0, 113458),
    (10, 0)]], 3, 4⟩, 72057594037927936, 993676938988, 323555638253, ⟨[[(14937804340195, 0), (3396178006, 0), (0,
    1096593), (3109, 0), (2, 0)], [(3306579813, 0), (7858884, 0), (505, 0), (0, 8)], [(0, 7008655), (0, 16423), (12,
    0)], [(15080, 0), (31, 0)]], 3, 4⟩, 17592186044416, 5603731,
    4398577236606684826675762167948431312611657230092710357458072373732307932535140213107237492787160758236737732120561316576682143,
    lc0⟩)))) (.sx (.sy (.leaf ⟨451, 16, 531, 123, 16, 1636, ⟨[[(6557151241150464, 0), (0, 2157534315966554),
    (45947494673, 0), (0, 412529), (25, 0)], [(25293757521898490, 0), (0, 3814601222326), (91311584, 0), (0, 1481)],
    [(45105072095111, 0), (0, 3370556927), (14276, 0)], [(75829314768, 0), (0, 2119598), (0, 90)]], 3, 4⟩, ⟨[[(0,
    14641797768029184), (0, 2051091028297462), (24356437132, 0), (0, 418903), (0, 2)], [(0, 28223747757207064), (0,
    76775228815), (28450396, 0), (858, 0)], [(16093131018181, 0), (0, 352321837), (0, 25880), (0, 8)], [(0,
    3050594757), (0, 749418), (17, 0)]], 3, 4⟩, 72057594037927936, 12808961383736, 3638707565017, ⟨[[(14805476486157,
    0), (4178566896, 0), (0, 1946123), (9435, 0), (5, 0)], [(4671397803, 0), (15007521, 0), (0, 2432), (0, 29)], [(0,
    12560893), (0, 37491), (56, 0)], [(34700, 0), (78, 0)]], 3, 4⟩, 17592186044416, 19922973,
    4517888962133012370191681440778217405923991656736800151522996441480795862774014868160444116954312996610209361475745923758306322,
    lc0⟩) (.sx (.leaf ⟨624, 16, 766, 155, 16, 2249, ⟨[[(32375679045509120, 0), (0, 2990378913926667), (64105098785,
    0), (0, 479263), (55, 0)], [(16239136368401886, 0), (0, 2635843594800), (63826080, 0), (0, 1315)],
    [(14824070307226, 0), (0, 1185051474), (5241, 0), (0, 1)], [(12990815442, 0), (0, 412494), (0, 7)]], 3, 4⟩,
    ⟨[[(0, 1852129809094656), (0, 2785819851715726), (32155498746, 0), (0, 631109), (0, 34)], [(0,
    19651455159711439), (0, 27189283096), (21372218, 0), (1224, 0)], [(5508677272971, 0), (0, 124006263), (0, 13442),
    (0, 3)], [(0, 722556763), (0, 134807), (0, 1)]], 3, 4⟩, 72057594037927936, 1160471051188, 358433850789,
    ⟨[[(14674797988409, 0), (2859033733, 0), (0, 1155133), (3727, 0), (2, 0)], [(3468350982, 0), (8351438, 0), (0,
    1431), (0, 8)], [(0, 6853846), (0, 15221), (19, 0)], [(14037, 0), (23, 0)]], 3, 4⟩, 17592186044416, 4160182,
    4127818646824629075918062738336956201428138283281306372865915161203572532965942484000654802411184150077157418844985646221259253,
    lc0⟩) (.leaf ⟨603, 16, 728, 145, 16, 2268, ⟨[[(0, 12615069767524352), (0, 2949259800981141), (63480884878, 0),
    (0, 509358), (47, 0)], [(16683959278317178, 0), (0, 2601704567537), (61036901, 0), (0, 1307)], [(15702902793268,
    0), (0, 1173489206), (3942, 0)], [(13283282075, 0), (0, 356600), (0, 10)]], 3, 4⟩, ⟨[[(0, 9518012243984384), (0,
    2810736970873496), (33308470088, 0), (0, 590259), (0, 23)], [(0, 19354214655142232), (0, 38613898267), (20416727,
    0), (962, 0)], [(5480457826829, 0), (0, 141153624), (0, 13406), (0, 3)], [(0, 458394817), (0, 119853), (3, 0)]],
    3, 4⟩, 72057594037927936, 1158522348766, 357413449223, ⟨[[(14677215657830, 0), (2947533589, 0), (0, 1267318),
    (3435, 0), (3, 0)], [(3408026334, 0), (8410563, 0), (0, 836), (0, 8)], [(0, 6937791), (0, 16350), (18, 0)],
    [(14692, 0), (27, 0)]], 3, 4⟩, 17592186044416, 4641281,
    4281095815290251167630981040875235278996501018280966410000127412738405003544247360835685189684992182750806667576612562664250765,
    lc0⟩))) (.sy (.sx (.leaf ⟨580, 16, 666, 154, 16, 2270, ⟨[[(33495843109863424, 0), (0, 2861043357322700),
    (61250518465, 0), (0, 574209), (21, 0)], [(17790854511852916, 0), (0, 2529103641256), (57635419, 0), (0, 854)],
    [(16511549862072, 0), (0, 1114166517), (1216, 0), (1, 0)], [(13186546041, 0), (0, 271395), (0, 21)]], 3, 4⟩,
    ⟨[[(0, 30917749871912960), (0, 2849823561033886), (35004201815, 0), (0, 555190), (10, 0)], [(0,
    18882006387347590), (0, 70139676855), (18661075, 0), (229, 0)], [(5519635103800, 0), (0, 145115587), (0, 7971),
    (0, 3)], [(0, 136016574), (0, 112909), (8, 0)]], 3, 4⟩, 72057594037927936, 1079994491460, 334377133740,
    ⟨[[(14804796932191, 0), (3168586139, 0), (0, 1189417), (3288, 0), (2, 0)], [(3369991502, 0), (8158841, 0), (0,
    115), (0, 8)], [(0, 7004575), (0, 16488), (15, 0)], [(14993, 0), (29, 0)]], 3, 4⟩, 17592186044416, 5068228,
    4481118523618246597342145113381379159987829302081380844167080846565365271459094293006521417888581635038779293931725765780142023,
    lc0⟩) (.leaf ⟨561, 16, 632, 144, 16, 2288, ⟨[[(4934901722759168, 0), (0, 2817666978258288), (60421189461, 0), (0,
    576743), (13, 0)], [(18266498209020334, 0), (0, 2490085208327), (54675319, 0), (0, 696)], [(17299049341941, 0),
    (0, 1086839871), (0, 1699), (2, 0)], [(13371021270, 0), (0, 210328), (0, 26)]], 3, 4⟩, ⟨[[(0, 12118350309658624),
    (0, 2875656766807113), (36058190753, 0), (0, 555136), (18, 0)], [(0, 18564668152470744), (0, 83566994999),
    (18179297, 0), (0, 19)], [(5562658537292, 0), (0, 159990486), (0, 6904), (0, 3)], [(125034440, 0), (0, 104328),
    (10, 0)]], 3, 4⟩, 72057594037927936, 1062395849251, 332485588536, ⟨[[(14805199363158, 0), (3259586879, 0), (0,
    1273779), (3017, 0), (3, 0)], [(3300485830, 0), (8148375, 0), (461, 0), (0, 8)], [(0, 7053093), (0, 17434), (14,
    0)], [(15522, 0), (33, 0)]], 3, 4⟩, 17592186044416, 5786245,
    4191632283117845081487557529013697127079444257398354353370075617508902481836042091617458583366030350484737210704922438588595919,
    lc0⟩)) (.sx (.leaf ⟨583, 16, 692, 135, 16, 2286, ⟨[[(0, 26144203999395840), (0, 2909277420211961), (62784366624,
    0), (0, 536586), (38, 0)], [(17181185666189821, 0), (0, 2568474190775), (58278540, 0), (0, 1244)],
    [(16575434066589, 0), (0, 1155742478), (2362, 0)], [(13555033115, 0), (0, 299435), (0, 13)]], 3, 4⟩, ⟨[[(0,
    15707574933762048), (0, 2834938703969601), (34413611516, 0), (0, 560203), (0, 12)], [(0, 19045775360110522), (0,
    51484199631), (19468039, 0), (683, 0)], [(5482765352938, 0), (0, 156559699), (0, 12852), (0, 3)], [(0,
    192168200), (0, 106262), (7, 0)]], 3, 4⟩, 72057594037927936, 1148254222546, 354204087598, ⟨[[(14677983260208, 0),
    (3037991339, 0), (0, 1361574), (3141, 0), (3, 0)], [(3345234516, 0), (8443196, 0), (0, 257), (0, 7)], [(0,
    7004182), (0, 17441), (17, 0)], [(15299, 0), (31, 0)]], 3, 4⟩, 17592186044416, 5180365,
    3896823349599467269959896817161535333975315560248391877826205944526807713467258612002872547223327580082098430631587518293429512,
    lc0⟩) (.leaf ⟨563, 16, 657, 125, 16, 2305, ⟨[[(5410782558330880, 0), (0, 2866507555680490), (61935711396, 0), (0,
    558088), (28, 0)], [(17703814672807098, 0), (0, 2532168367547), (55445750, 0), (0, 1125)], [(17415930669105, 0),
    (0, 1130430907), (388, 0), (1, 0)], [(13784234307, 0), (0, 240756), (0, 17)]], 3, 4⟩, ⟨[[(0, 11238618175060992),
    (0, 2860967653877901), (35501836012, 0), (0, 542068), (0, 2)], [(0, 18740242161414793), (0, 65716178875),
    (18585939, 0), (396, 0)], [(5520931899758, 0), (0, 170541625), (0, 11822), (0, 3)], [(75847858, 0), (0, 94494),
    (11, 0)]], 3, 4⟩, 72057594037927936, 1131925413063, 351429323879, ⟨[[(14676133969664, 0), (3125828233, 0), (0,
    1437551), (2841, 0), (4, 0)], [(3286560425, 0), (8461157, 0), (298, 0), (0, 7)], [(0, 7079706), (0, 18543), (16,
    0)], [(15938, 0), (36, 0)]], 3, 4⟩, 17592186044416, 5865593,
    3856097224471393065049380596700423515385477814344557444545293712568928601420958206660188309397472918481275600921102455360566198,
    lc0⟩))))
theorem c107 : checkR job con0 false ⟨7, 9, 7, 9, 13, 17⟩ 1 34400 t107 453 21 320 14243 251 16000 = true := by decide +kernel

def t108 : CTree :=
  .sx (.sy (.sx (.leaf ⟨542, 16, 558, 172, 16, 2271, ⟨[[(0, 6108247342014464), (0, 2694575719379207), (56947583789,
    0), (0, 501896), (0, 17)], [(19812331099075258, 0), (0, 2377034269811), (48202595, 0), (336, 0)],
    [(17786516490572, 0), (0, 962601778), (0, 13155), (3, 0)], [(12687947141, 0), (0, 61736), (0, 46)]], 3, 4⟩,
    ⟨[[(36012290638415872, 0), (0, 2933242932912448), (38423180124, 0), (0, 712292), (50, 0)], [(0,
    17846540020087134), (0, 133374552115), (19127205, 0), (0, 751)], [(5722527822070, 0), (0, 168225998), (1882, 0),
    (0, 2)], [(490991187, 0), (0, 118373), (10, 0)]], 3, 4⟩, 72057594037927936, 900771833495, 309269862141,
    ⟨[[(15067855922428, 0), (3608599242, 0), (0, 992509), (2906, 0), (1, 0)], [(3238502775, 0), (7556324, 0), (971,
    0), (0, 8)], [(0, 7011840), (0, 16255), (9, 0)], [(15163, 0), (32, 0)]], 3, 4⟩, 17592186044416, 6001760,
    4014030860027364988472563920299967982620186055008288142018481683222135732050826072946784070312488693282495434360977173300074006,
    lc0⟩) (.leaf ⟨525, 16, 529, 163, 16, 2288, ⟨[[(8957395824394240, 0), (0, 2650794802125894), (55881842682, 0), (0,
    456428), (0, 25)], [(20263957280133336, 0), (0, 2330345600585), (44403788, 0), (614, 0)], [(18421540476713, 0),
    (0, 915720116), (0, 18509), (4, 0)], [(12725481131, 0), (10189, 0), (0, 52)]], 3, 4⟩, ⟨[[(32623007715018752, 0),
    (0, 2961151681495872), (39524256781, 0), (0, 752901), (54, 0)], [(0, 17492775012640872), (0, 149234470790),
    (19483677, 0), (0, 922)], [(5843775617944, 0), (0, 184290391), (3197, 0), (0, 2)], [(750049390, 0), (0, 115925),
    (11, 0)]], 3, 4⟩, 72057594037927936, 866009099891, 311846894758, ⟨[[(15067219414896, 0), (3688688253, 0), (0,
    1049593), (2702, 0), (1, 0)], [(3170934418, 0), (7496608, 0), (1450, 0), (0, 8)], [(0, 7063007), (0, 16909), (7,
    0)], [(15643, 0), (35, 0)]], 3, 4⟩, 17592186044416, 6858731,
    3907788461294790056800536218033520359707362956651991566396397916986234169761936684769497815287618689146607052387125982543361844,
    lc0⟩)) (.sx (.leaf ⟨542, 16, 578, 153, 16, 2288, ⟨[[(7139889902608384, 0), (0, 2732331776492859), (58183364821,
    0), (0, 546289), (0, 8)], [(19299023312139584, 0), (0, 2411943567543), (50143585, 0), (0, 64)], [(17920466924907,
    0), (0, 1008305383), (0, 8830), (3, 0)], [(13099303824, 0), (0, 107515), (0, 39)]], 3, 4⟩, ⟨[[(24310114604269568,
    0), (0, 2916852902799684), (37701222776, 0), (0, 626762), (40, 0)], [(0, 18042822417096780), (0, 115549058195),
    (18279780, 0), (0, 548)], [(5680492042317, 0), (0, 169214895), (0, 1460), (0, 2)], [(437417207, 0), (0, 108604),
    (11, 0)]], 3, 4⟩, 72057594037927936, 966663323329, 323576782380, ⟨[[(14934423548539, 0), (3479154176, 0), (0,
    1171203), (2869, 0), (2, 0)], [(3237591246, 0), (7826252, 0), (1038, 0), (0, 8)], [(0, 7058172), (0, 17242), (10,
    0)], [(15587, 0), (35, 0)]], 3, 4⟩, 17592186044416, 6225844,
    4210046091982356025811737814540782594949697937571433723232253743263195994094011549049077073863035885534633660827112146484252466,
    lc0⟩) (.leaf ⟨525, 16, 548, 144, 16, 2306, ⟨[[(4054520308080640, 0), (0, 2688251781296762), (57142538026, 0), (0,
    515228), (0, 16)], [(19791582604517797, 0), (0, 2367490522212), (46628361, 0), (200, 0)], [(18602640747277, 0),
    (0, 964958997), (0, 13527), (3, 0)], [(13174954540, 0), (0, 39259), (0, 45)]], 3, 4⟩, ⟨[[(6129813494360064, 0),
    (0, 2945000276900144), (38769885488, 0), (0, 659134), (45, 0)], [(0, 17701062029959878), (0, 131354950782),
    (18362458, 0), (0, 753)], [(5797065555010, 0), (0, 184050158), (41, 0), (0, 2)], [(700156691, 0), (0, 105140),
    (13, 0)]], 3, 4⟩, 72057594037927936, 940196235771, 322373247113, ⟨[[(14935235976378, 0), (3564960367, 0), (0,
    1221513), (2628, 0), (2, 0)], [(3167324878, 0), (7752155, 0), (1536, 0), (0, 7)], [(0, 7091602), (0, 17921), (9,
    0)], [(16020, 0), (38, 0)]], 3, 4⟩, 17592186044416, 6943215,
    3357181143335017925106701381708325071712480863620219631460206004559174344068950527068541288939790871068250647624844362171667338,
    lc0⟩))) (.sy (.sx (.leaf ⟨510, 16, 502, 155, 16, 2306, ⟨[[(0, 2088642589102080), (0, 2609908905983418),
    (54764601864, 0), (0, 401754), (0, 32)], [(20763203020726565, 0), (0, 2284221388302), (40383988, 0), (921, 0)],
    [(19044903282949, 0), (0, 863162534), (0, 24375), (4, 0)], [(12743704427, 0), (84342, 0), (0, 59)]], 3, 4⟩,
    ⟨[[(0, 28283268490893312), (0, 2991100866834283), (40666438966, 0), (0, 801106), (57, 0)], [(0,
    17131198581943171), (0, 166624508837), (19965181, 0), (0, 1082)], [(6001252901239, 0), (0, 200306876), (4600, 0),
    (0, 2)], [(1014094372, 0), (0, 114554), (11, 0)]], 3, 4⟩, 72057594037927936, 834348872142, 313635717019,
    ⟨[[(15070676273157, 0), (3769314344, 0), (0, 1084680), (2492, 0), (2, 0)], [(3095120926, 0), (7382293, 0), (1883,
    0), (0, 7)], [(0, 7070991), (0, 17349), (6, 0)], [(15961, 0), (38, 0)]], 3, 4⟩, 17592186044416, 7644384,
    3148424505078737998343777632145022488344124132867361930289362013828472561959877331974800415047331818262308666642448781827025846,
    lc0⟩) (.sy (.leaf ⟨705, 16, 671, 229, 16, 3527, ⟨[[(0, 15055000647303168), (0, 1818875961746648), (18894524205,
    0), (0, 55685), (0, 4)], [(30379307907780712, 0), (0, 1581001279773), (12527237, 0), (241, 0)], [(27800578800277,
    0), (0, 560674918), (0, 11480), (1, 0)], [(17899900996, 0), (124824, 0), (0, 24)]], 3, 4⟩, ⟨[[(30685879377319936,
    0), (0, 2301055098695429), (15998201445, 0), (0, 168126), (6, 0)], [(0, 25386213375698222), (0, 144716171192),
    (7981303, 0), (0, 237)], [(9440580905086, 0), (0, 165357931), (2508, 0)], [(1969383072, 0), (0, 88682), (4, 0)]],
    3, 4⟩, 72057594037927936, 1047111936127, 465620804799, ⟨[[(15102004549074, 0), (2552644679, 0), (0, 464871),
    (652, 0)], [(2114560126, 0), (3320589, 0), (690, 0), (0, 1)], [(0, 3481348), (0, 5675), (1, 0)], [(5594, 0), (9,
    0)]], 3, 4⟩, 17592186044416, 1412142,
    3970372983996595834583585528342600865283482057067103601823126080565219638280059279442792548736037099272103110280305979768403445,
    lc0⟩) (.out ⟨492, 16, 671, 2706, 16, 2476, ⟨[[(16398630002892800, 0), (0, 1799949775677633), (18805273603, 0)],
    [(29588831388732142, 0), (0, 1568251896497), (12859892, 0)], [(27516337164680, 0), (0, 571544857), (0, 10183)]],
    2, 2⟩, ⟨[[(0, 29442010686521344), (0, 2245854841075606), (15482896834, 0)], [(0, 25019485799947526), (0,
    134528313010), (7499089, 0)], [(9197377527214, 0), (0, 160256257), (2029, 0)]], 2, 2⟩, 72057594037927936,
    169449737795189, 20715770934392, ⟨[], 0, 0⟩, 0, 0, 0, lc0⟩ 2 1 19858271189627))) (.sx (.sy (.leaf ⟨733, 16, 741,
    211, 16, 3498, ⟨[[(0, 14741603331850240), (0, 1895933073985233), (20032480342, 0), (0, 82251), (0, 2)],
    [(29387532977667121, 0), (0, 1663166515518), (15217950, 0), (109, 0)], [(27627634504652, 0), (0, 649260235), (0,
    7238), (1, 0)], [(18845985622, 0), (31487, 0), (0, 19)]], 3, 4⟩, ⟨[[(0, 4360511381268480), (0, 2245643089125324),
    (15096453631, 0), (0, 136474), (5, 0)], [(0, 26077482539759695), (0, 115314138576), (7128021, 0), (0, 186)],
    [(8989818539617, 0), (0, 149889652), (936, 0)], [(1475370854, 0), (0, 80076), (5, 0)]], 3, 4⟩, 72057594037927936,
    1221440304945, 462436300788, ⟨[[(14969224925973, 0), (2441951076, 0), (0, 534337), (705, 0)], [(2147039929, 0),
    (3487828, 0), (607, 0), (0, 1)], [(0, 3420953), (0, 5816), (1, 0)], [(5447, 0), (9, 0)]], 3, 4⟩, 17592186044416,
    1298745,
    4895659843773359006763057556650460817353176297165429800548850208218171717736733789737945319187550079297533161485723972397439717,
    lc0⟩) (.out ⟨500, 16, 742, 2667, 16, 2455, ⟨[[(0, 35147721350225920), (0, 1878415361618112), (19932066827, 0)],
    [(28595008640193365, 0), (0, 1650039194485), (15372442, 0)], [(27336816604474, 0), (0, 656861238), (0, 6159)]],
    2, 2⟩, ⟨[[(0, 30201868973637632), (0, 2191688864746160), (14638202790, 0)], [(0, 25677865336311665), (0,
    106405959181), (6739906, 0)], [(8759299104044, 0), (0, 146650402), (316, 0)]], 2, 2⟩, 72057594037927936,
    178348222084249, 15749264188773, ⟨[], 0, 0⟩, 0, 0, 0, lc0⟩ 2 1 21337728196390)) (.out ⟨341, 16, 483, 1777, 16,
    1640, ⟨[[(0, 8456709883932672), (0, 2550673626853501), (53706816114, 0)], [(20453940562470897, 0), (0,
    2229397425309), (38138277, 0)], [(19493148003831, 0), (0, 842884929), (0, 24037)]], 2, 2⟩, ⟨[[(0,
    28319771382562816), (0, 2944569402720820), (40145465396, 0)], [(0, 16636215774625118), (0, 163747681617),
    (18565528, 0)], [(6012705153155, 0), (0, 208979241), (3371, 0)]], 2, 2⟩, 72057594037927936, 129357319503526,
    24002923694350, ⟨[], 0, 0⟩, 0, 0, 0, lc0⟩ 2 1 33281968495848)))
theorem c108 : checkR job con0 false ⟨7, 9, 7, 9, 13, 17⟩ 1 34400 t108 495 21 320 28235 251 32000 = true := by decide +kernel

def t109 : CTree :=
  .sx (.sy (.sx (.leaf ⟨543, 16, 600, 134, 16, 2306, ⟨[[(13195229682540544, 0), (0, 2776122487130150), (59537210149,
    0), (0, 571965), (4, 0)], [(18789802320085586, 0), (0, 2451645118397), (51631027, 0), (0, 492)],
    [(18075176831078, 0), (0, 1053766829), (0, 5099), (2, 0)], [(13532448871, 0), (0, 147573), (0, 31)]], 3, 4⟩,
    ⟨[[(14047679113324544, 0), (0, 2902109446702705), (37099940293, 0), (0, 565526), (25, 0)], [(0,
    18238648415905463), (0, 98311329604), (17796836, 0), (0, 267)], [(5638871872452, 0), (0, 173990755), (0, 5506),
    (0, 3)], [(388881091, 0), (0, 97412), (13, 0)]], 3, 4⟩, 72057594037927936, 1040035436010, 332542705616,
    ⟨[[(14803417750643, 0), (3349544878, 0), (0, 1341237), (2743, 0), (3, 0)], [(3228967700, 0), (8109076, 0), (1008,
    0), (0, 7)], [(0, 7084721), (0, 18304), (12, 0)], [(15990, 0), (37, 0)]], 3, 4⟩, 17592186044416, 6312740,
    3796498020841258123054072080937694107989855804962504651259642781345486184183340647815067746925466145006049059892989410467375483,
    lc0⟩) (.sy (.sx (.leaf ⟨1072, 16, 1156, 264, 16, 4642, ⟨[[(32670616757354496, 0), (0, 2764552157183966),
    (29563408311, 0), (0, 140281), (0, 1)], [(19542494290457993, 0), (0, 1219241095038), (12357387, 0), (0, 25)],
    [(9401113301831, 0), (0, 256108176), (0, 1141)], [(3416859725, 0), (0, 11279), (0, 2)]], 3, 4⟩,
    ⟨[[(32097229732548608, 0), (0, 2933821430613356), (19061001568, 0), (0, 149200), (4, 0)], [(0,
    17984248303688975), (0, 57355660184), (4446526, 0), (0, 65)], [(2872468511474, 0), (0, 45805675), (0, 403)],
    [(150270991, 0), (0, 12119), (1, 0)]], 3, 4⟩, 72057594037927936, 125214612380, 41842900810, ⟨[[(14835586973723,
    0), (1720134756, 0), (0, 332718), (321, 0)], [(1570357199, 0), (1967433, 0), (174, 0)], [(0, 1733024), (0, 2264),
    (1, 0)], [(1955, 0), (2, 0)]], 3, 4⟩, 17592186044416, 359335,
    3572491035132843343655156800225845651407554571725693595855999933580416487737014762406840634058186178407117153917861731727253291,
    lc0⟩) (.out ⟨706, 16, 1103, 3539, 16, 3263, ⟨[[(0, 22969896236687360), (0, 2687095797143266), (28701113430, 0)],
    [(19417429749544704, 0), (0, 1183918715758), (11686882, 0)], [(9387099264112, 0), (0, 245484044), (0, 1392)]], 2,
    2⟩, ⟨[[(7118466923954176, 0), (0, 2889629634053312), (18941111741, 0)], [(0, 17460038114697570), (0,
    60292909442), (4347027, 0)], [(2847468951179, 0), (0, 46562168), (0, 288)]], 2, 2⟩, 72057594037927936,
    33494916226746, 4149073724871, ⟨[], 0, 0⟩, 0, 0, 0, lc0⟩ 2 1 18151958374249)) (.out ⟨509, 16, 823, 2631, 16,
    2436, ⟨[[(0, 29048949122420736), (0, 1965257372261009), (21079936357, 0)], [(27519976143623259, 0), (0,
    1733819014287), (17456080, 0)], [(27021764145525, 0), (0, 734461881), (0, 2861)]], 2, 2⟩, ⟨[[(0,
    2840254693539840), (0, 2142283047027015), (13910214077, 0)], [(0, 26289991832567665), (0, 80664378148), (6369564,
    0)], [(8401743497134, 0), (0, 138252802), (0, 1800)]], 2, 2⟩, 72057594037927936, 186377160165445, 11063197966861,
    ⟨[], 0, 0⟩, 0, 0, 0, lc0⟩ 2 1 22861448920691))) (.sx (.sy (.sy (.out ⟨687, 16, 1169, 3440, 16, 3180, ⟨[[(0,
    32644955153539072), (0, 1334087679360883), (7184809069, 0)], [(35120001902698002, 0), (0, 1178458173907),
    (6215608, 0)], [(34571472566614, 0), (0, 514506523), (0, 370)]], 2, 2⟩, ⟨[[(15892921543557120, 0), (0,
    1389557534024410), (4413946025, 0)], [(0, 35268003241676867), (0, 42088262291), (2129342, 0)], [(10779878853706,
    0), (0, 86074749), (0, 1013)]], 2, 2⟩, 72057594037927936, 245882062224163, 7384033160055, ⟨[], 0, 0⟩, 0, 0, 0,
    lc0⟩ 2 1 13128301792090) (.out ⟨687, 16, 1185, 3433, 16, 3182, ⟨[[(0, 32585912307392512), (0, 1345047999830630),
    (7257186887, 0)], [(35002588026815659, 0), (0, 1188280208487), (6263081, 0)], [(34782744867361, 0), (0,
    521880530), (0, 287)]], 2, 2⟩, ⟨[[(0, 20681356009734144), (0, 1386009356103891), (4392315827, 0)], [(0,
    35310789113170999), (0, 39975830127), (2130830, 0)], [(10743154080473, 0), (0, 87221170), (0, 1163)]], 2, 2⟩,
    72057594037927936, 248864057084032, 7187861110191, ⟨[], 0, 0⟩, 0, 0, 0, lc0⟩ 2 1 17242130784826)) (.out ⟨520, 16,
    916, 2598, 16, 2418, ⟨[[(0, 8820473486270464), (0, 2062580893859626), (22320938773, 0)], [(26367931458545789, 0),
    (0, 1822563283728), (19162558, 0)], [(26583038137824, 0), (0, 807351304), (0, 525)]], 2, 2⟩, ⟨[[(0,
    33388090696499200), (0, 2096443754642389), (13240781299, 0)], [(0, 26854604001432305), (0, 55869927794),
    (6504202, 0)], [(8113273690658, 0), (0, 135489132), (0, 4255)]], 2, 2⟩, 72057594037927936, 193669137905347,
    6687407063855, ⟨[], 0, 0⟩, 0, 0, 0, lc0⟩ 2 1 23603153398016)) (.out ⟨343, 16, 578, 1756, 16, 1640, ⟨[[(0,
    8300626961580032), (0, 2716084524639020), (58577500753, 0)], [(18417533912957300, 0), (0, 2398629435658),
    (48433873, 0)], [(18588217796080, 0), (0, 1036505395), (0, 4977)]], 2, 2⟩, ⟨[[(18443602346885120, 0), (0,
    2856546747534517), (36842509708, 0)], [(0, 17737818515965955), (0, 95845140365), (16804465, 0)], [(5585412853638,
    0), (0, 191088533), (0, 8336)]], 2, 2⟩, 72057594037927936, 139062410440345, 14672931823039, ⟨[], 0, 0⟩, 0, 0, 0,
    lc0⟩ 2 1 36373042962132))) (.sy (.out ⟨239, 16, 363, 1325, 16, 1234, ⟨[[(0, 12499854864928768), (0,
    1842400655570691), (39240489264, 0)], [(27898878694598485, 0), (0, 3238117655739), (59654822, 0)],
    [(54882273972050, 0), (0, 2602551584), (0, 44245)]], 2, 2⟩, ⟨[[(10806898486820864, 0), (0, 2183442872977605),
    (29160793684, 0)], [(0, 25523543078560710), (0, 206649133700), (25630656, 0)], [(17573767894117, 0), (0,
    607251959), (0, 2664)]], 2, 2⟩, 72057594037927936, 727198493595422, 70773119155952, ⟨[], 0, 0⟩, 0, 0, 0, lc0⟩ 2 1
    43495926213568) (.out ⟨236, 16, 379, 1316, 16, 1240, ⟨[[(6833350788859904, 0), (0, 1882761932818138),
    (40392578950, 0)], [(27447107878651221, 0), (0, 3318267734919), (62195085, 0)], [(55927027202701, 0), (0,
    2755324459), (0, 29999)]], 2, 2⟩, ⟨[[(29515135366987776, 0), (0, 2164980895882719), (28635192512, 0)], [(0,
    25745545074586054), (0, 182659824201), (24133145, 0)], [(17351220299625, 0), (0, 618951724), (0, 15130)]], 2, 2⟩,
    72057594037927936, 759164762016983, 67769795895192, ⟨[], 0, 0⟩, 0, 0, 0, lc0⟩ 2 1 61235805326688))
theorem c109 : checkR job con0 false ⟨7, 9, 7, 9, 13, 17⟩ 1 34400 t109 495 21 320 28737 251 32000 = true := by decide +kernel

def t110 : CTree :=
  .sx (.sy (.sx (.sy (.leaf ⟨465, 16, 585, 96, 16, 1653, ⟨[[(0, 32557311194669056), (0, 2276538273152404),
    (49467384710, 0), (0, 292106), (55, 0)], [(23746198671021903, 0), (0, 4006334378539), (94397210, 0), (0, 2460)],
    [(45978854079255, 0), (0, 3685679244), (8973, 0), (0, 5)], [(81127742273, 0), (0, 2440960), (0, 7)]], 3, 4⟩,
    ⟨[[(0, 33466042259033088), (0, 2024314634141450), (23246016971, 0), (0, 508967), (0, 43)], [(0,
    28564690664343564), (0, 15741834540), (33663583, 0), (2514, 0), (1, 0)], [(15867620860322, 0), (0, 435929847),
    (0, 54772), (0, 11)], [(0, 3831988078), (0, 744425), (0, 7)]], 3, 4⟩, 72057594037927936, 14637180945686,
    3951267164601, ⟨[[(14553429016771, 0), (3797156112, 0), (0, 2590523), (8873, 0), (14, 0)], [(4542843909, 0),
    (15879712, 0), (0, 3601), (0, 24)], [(0, 12213723), (0, 40438), (69, 0)], [(34432, 0), (84, 0)]], 3, 4⟩,
    17592186044416, 18396192,
    4660428624696845764791550992469578174880610893551466665302364557274090481181865893990041356875910762119371427659560178096810565,
    lc0⟩) (.leaf ⟨473, 16, 616, 82, 16, 1662, ⟨[[(0, 25460744893435904), (0, 2345079095014740), (51722544242, 0), (0,
    172472), (77, 0)], [(22911498139950629, 0), (0, 4120894241895), (95211298, 0), (0, 2964)], [(46468672395034, 0),
    (0, 3876454876), (0, 1283), (0, 9)], [(84138729157, 0), (0, 2553475), (41, 0)]], 3, 4⟩, ⟨[[(0, 3095050431812608),
    (0, 2012281893920322), (22524680888, 0), (0, 622899), (0, 69)], [(0, 28719278069697176), (20334053529, 0),
    (38469211, 0), (3648, 0), (1, 0)], [(15718680280602, 0), (0, 502226298), (0, 72666), (0, 12)], [(0, 4231893375),
    (0, 764789), (0, 26)]], 3, 4⟩, 72057594037927936, 15679205804558, 4154844317426, ⟨[[(14426820404175, 0),
    (3594453596, 0), (0, 2865033), (8173, 0), (18, 0)], [(4469547726, 0), (16417942, 0), (0, 4745), (0, 20)], [(0,
    12035876), (0, 42188), (77, 0)], [(34341, 0), (85, 0)]], 3, 4⟩, 17592186044416, 17745841,
    3311719078837146336667737337758041752260388852389782608885751962397955279221594504654963216543405807016427265179616580581305672,
    lc0⟩)) (.sy (.sx (.leaf ⟨585, 16, 720, 116, 16, 2304, ⟨[[(25335548922593280, 0), (0, 2961807490938114),
    (64553190412, 0), (0, 459933), (59, 0)], [(16549938370788288, 0), (0, 2612591379306), (58416023, 0), (0, 1652)],
    [(16643092592258, 0), (0, 1200004221), (2302, 0), (0, 1)], [(13944460857, 0), (0, 320541), (0, 4)]], 3, 4⟩,
    ⟨[[(4182785877766144, 0), (0, 2822873814306239), (33803428333, 0), (0, 614437), (0, 38)], [(0,
    19216742024832777), (0, 31533251524), (21071921, 0), (1258, 0)], [(5443004490950, 0), (0, 173557853), (0, 18590),
    (0, 4)], [(0, 245689174), (0, 100245), (6, 0)]], 3, 4⟩, 72057594037927936, 1220339799336, 372872791456,
    ⟨[[(14548018429694, 0), (2889720461, 0), (0, 1511890), (2903, 0), (4, 0)], [(3338248613, 0), (8813444, 0), (0,
    597), (0, 6)], [(0, 7073725), (0, 18659), (20, 0)], [(15843, 0), (34, 0)]], 3, 4⟩, 17592186044416, 5428512,
    3432431202911592015708744075118449059322238755418870877864738616050628017439858524472715105620270665331424794141106836878771562,
    lc0⟩) (.sx (.sy (.leaf ⟨1152, 16, 1387, 227, 16, 4637, ⟨[[(18052071217561600, 0), (0, 2949296061501475),
    (32071077669, 0), (0, 129452), (6, 0)], [(17317394085545115, 0), (0, 1302184579609), (14244276, 0), (0, 189)],
    [(8741511756633, 0), (0, 296003381), (204, 0)], [(3550808488, 0), (0, 34520), (0, 1)]], 3, 4⟩, ⟨[[(0,
    19111266968676352), (0, 2850543606283738), (17441272138, 0), (0, 142395), (0, 3)], [(0, 18987428093727729), (0,
    24004335138), (4924062, 0), (108, 0)], [(2743281195541, 0), (0, 44813445), (0, 2053)], [(0, 6692639), (0, 11315),
    (1, 0)]], 3, 4⟩, 72057594037927936, 148209610483, 45291713789, ⟨[[(14580636510562, 0), (1496144644, 0), (0,
    381036), (339, 0)], [(1627466553, 0), (2152499, 0), (0, 8)], [(0, 1734098), (0, 2342), (1, 0)], [(1951, 0), (2,
    0)]], 3, 4⟩, 17592186044416, 304015,
    3630376363076536069499681150953137223451131862596920796626318276634847652087569110978768217299138445853462176392291530355193361,
    lc0⟩) (.out ⟨718, 16, 1387, 3490, 16, 3260, ⟨[[(35290191703195648, 0), (0, 2917191500859405), (31885441909, 0)],
    [(16667262410779618, 0), (0, 1288032075099), (13941773, 0)], [(8592970849252, 0), (0, 295792179), (210, 0)]], 2,
    2⟩, ⟨[[(0, 17366539879383040), (0, 2788539871169684), (16950641272, 0)], [(0, 18699134758673856), (0,
    18671149764), (5033774, 0)], [(2677411245110, 0), (0, 46324584), (0, 2400)]], 2, 2⟩, 72057594037927936,
    34896239801454, 2586203596425, ⟨[], 0, 0⟩, 0, 0, 0, lc0⟩ 2 1 20708833701902)) (.out ⟨426, 16, 799, 2124, 16,
    1985, ⟨[[(0, 29185324020580352), (0, 3442714057151784), (75045611362, 0)], [(10218474279418845, 0), (0,
    1520928595850), (32519757, 0)], [(5254521383331, 0), (0, 345763991), (341, 0)]], 2, 2⟩, ⟨[[(16442210978955264,
    0), (0, 3407436837076800), (42046363345, 0)], [(0, 11245241613929562), (0, 30471639022), (11572275, 0)],
    [(1637845155495, 0), (0, 56594044), (0, 5167)]], 2, 2⟩, 72057594037927936, 29889122863392, 11271557639693, ⟨[],
    0, 0⟩, 0, 0, 0, lc0⟩ 2 1 25112487596084))) (.sx (.sy (.out ⟨550, 16, 1114, 2544, 16, 2378, ⟨[[(0,
    3668150373425152), (0, 2253823996112485), (24789718198, 0)], [(24097191837175284, 0), (0, 1987672915778),
    (21816814, 0)], [(25051969096418, 0), (0, 927258624), (488, 0)]], 2, 2⟩, ⟨[[(0, 35540473523404800), (0,
    2021282818469804), (11946416462, 0)], [(0, 27780257456523447), (0, 10881511571), (8227189, 0)], [(7766405055927,
    0), (0, 136789242), (0, 8451)]], 2, 2⟩, 72057594037927936, 201760849471528, 6560476484481, ⟨[], 0, 0⟩, 0, 0, 0,
    lc0⟩ 2 1 16945366523656) (.out ⟨548, 16, 1142, 2536, 16, 2384, ⟨[[(0, 16978712327266304), (0, 2285008512319369),
    (25317483062, 0)], [(23685561963742467, 0), (0, 2015472761770), (21769099, 0)], [(25204548429658, 0), (0,
    950281882), (38, 0)]], 2, 2⟩, ⟨[[(0, 10885443343417344), (0, 2014455644602945), (11779496447, 0)], [(0,
    27853705700446781), (0, 2368438126), (8782659, 0)], [(7714919279207, 0), (0, 146271192), (0, 9744)]], 2, 2⟩,
    72057594037927936, 205424959827889, 7133409094950, ⟨[], 0, 0⟩, 0, 0, 0, lc0⟩ 2 1 25954464074706)) (.out ⟨348, 16,
    696, 1737, 16, 1639, ⟨[[(0, 22269602543644672), (0, 2906544242561287), (64090070060, 0)], [(16119306711878537,
    0), (0, 2568981210628), (53892816, 0)], [(17248548393842, 0), (0, 1195039119), (1186, 0)]], 2, 2⟩,
    ⟨[[(14162666792189952, 0), (0, 2778779546775223), (33609459497, 0)], [(0, 18702062282793051), (0, 26026844272),
    (21316502, 0)], [(5309903525574, 0), (0, 205073458), (0, 24014)]], 2, 2⟩, 72057594037927936, 141805616670704,
    11691059674693, ⟨[], 0, 0⟩, 0, 0, 0, lc0⟩ 2 1 38361875075116)))) (.sx (.sy (.leaf ⟨481, 16, 649, 68, 16, 1670,
    ⟨[[(0, 3978098991460352), (0, 2416090583213550), (54353334729, 0), (3399, 0), (104, 0)], [(21984260947333641, 0),
    (0, 4243393596016), (95344763, 0), (0, 3465)], [(46906187454162, 0), (0, 4093549606), (0, 18447), (0, 13)],
    [(87310762062, 0), (0, 2621507), (94, 0)]], 3, 4⟩, ⟨[[(24729671632347136, 0), (0, 1999755979395286),
    (21571881111, 0), (0, 793382), (0, 99)], [(0, 28837015312106746), (62340150558, 0), (45171038, 0), (5032, 0), (1,
    0)], [(15520965564234, 0), (0, 587896639), (0, 93294), (0, 14)], [(0, 4646543096), (0, 806413), (0, 50)]], 3, 4⟩,
    72057594037927936, 16814219042686, 4404460765248, ⟨[[(14301796785860, 0), (3380382111, 0), (0, 3075894), (7237,
    0), (21, 0)], [(4402084306, 0), (17080841, 0), (0, 6389), (0, 16)], [(0, 11911601), (0, 44141), (87, 0)],
    [(34576, 0), (84, 0)]], 3, 4⟩, 17592186044416, 17538793,
    3559986383230711313596539723454847851338979577043972913609565039316290817055837757902754988902007491948985081588678623201730498,
    lc0⟩) (.leaf ⟨491, 16, 686, 55, 16, 1680, ⟨[[(0, 16342590160224256), (0, 2496090183125735), (57637395813, 0),
    (252024, 0), (138, 0)], [(21010897435976250, 0), (0, 4386978787157), (95027653, 0), (0, 3967)], [(47401373628646,
    0), (0, 4358407804), (0, 44427), (0, 19)], [(90927032293, 0), (0, 2643705), (154, 0)]], 3, 4⟩, ⟨[[(0,
    13560381341522944), (0, 1990600443147466), (20332478685, 0), (0, 1030720), (0, 133)], [(0, 28966068449819221),
    (112562800568, 0), (54276136, 0), (6721, 0), (1, 0)], [(15291461597204, 0), (0, 697143744), (0, 117310), (0,
    17)], [(0, 5096813171), (0, 876940), (0, 81)]], 3, 4⟩, 72057594037927936, 18110712185278, 4722339678401,
    ⟨[[(14184165666483, 0), (3149898780, 0), (0, 3181902), (6122, 0), (24, 0)], [(4328516152, 0), (17728634, 0), (0,
    8436), (0, 11)], [(0, 11762808), (0, 45462), (96, 0)], [(34849, 0), (77, 0)]], 3, 4⟩, 17592186044416, 17711876,
    3715066637026968453558867107184175762929135900705829129257429961310967941283618026221788172080960819122719259691433047193768036,
    lc0⟩)) (.out ⟨167, 16, 371, 860, 16, 822, ⟨[[(18507872651290624, 0), (0, 2941087513937616), (133187470783, 0)],
    [(14441609013758302, 0), (0, 5206258342402), (207881542, 0)], [(32995512406172, 0), (0, 5025863326), (0,
    27612)]], 2, 2⟩, ⟨[[(0, 31306442587545600), (0, 2738006827735943), (62891446346, 0)], [(0, 18982530647312317),
    (39707721397, 0), (111112126, 0)], [(10327531354677, 0), (0, 986440189), (0, 292823)]], 2, 2⟩, 72057594037927936,
    570435968935535, 86635743558927, ⟨[], 0, 0⟩, 0, 0, 0, lc0⟩ 2 1 54267507400092))) (.sy (.out ⟨114, 16, 206, 641,
    16, 611, ⟨[[(1415536664935424, 0), (0, 1908982589300519), (83146800760, 0)], [(24812150535719960, 0), (0,
    6760685609287), (262408923, 0)], [(106544063223069, 0), (0, 11963017218), (0, 30931)]], 2, 2⟩,
    ⟨[[(27218382280138752, 0), (0, 2088967022906334), (53673183375, 0)], [(0, 26185660475529533), (0, 236543587146),
    (97990531, 0)], [(32634681470586, 0), (0, 2535476643), (0, 369889)]], 2, 2⟩, 72057594037927936, 3166199756810202,
    218667806077466, ⟨[], 0, 0⟩, 0, 0, 0, lc0⟩ 2 1 71277301895228) (.out ⟨111, 16, 226, 634, 16, 618, ⟨[[(0,
    13301860018597888), (0, 2003879052127549), (89092631333, 0)], [(23567785804006528, 0), (0, 7143718542224),
    (253474312, 0)], [(110301304095973, 0), (0, 13102031013), (60819, 0)]], 2, 2⟩, ⟨[[(13903011147579392, 0), (0,
    2059639797219165), (51707835760, 0)], [(0, 26579883568953908), (0, 133429153784), (115468693, 0)],
    [(31599586452490, 0), (0, 3107958855), (0, 727439)]], 2, 2⟩, 72057594037927936, 3438806247910994,
    230259327553766, ⟨[], 0, 0⟩, 0, 0, 0, lc0⟩ 2 1 104209522484510))
theorem c110 : checkR job con0 false ⟨7, 9, 7, 9, 13, 17⟩ 1 34400 t110 237 21 160 14745 251 16000 = true := by decide +kernel

def t111 : CTree :=
  .sy (.sx (.sy (.sy (.out ⟨137, 16, 168, 930, 16, 860, ⟨[[(0, 8138342284558336), (0, 991879862845555), (20066105158,
    0)], [(36463561264305432, 0), (0, 3381134633789), (38319361, 0)], [(134830422082857, 0), (0, 4041070169), (0,
    313295)]], 2, 2⟩, ⟨[[(23364272193019904, 0), (0, 1576939206207011), (22835062207, 0)], [(0, 31914791853244593),
    (0, 486336821822), (45992411, 0)], [(55544974043687, 0), (0, 2090671480), (77378, 0)]], 2, 2⟩, 72057594037927936,
    3110678674627833, 655526299243079, ⟨[], 0, 0⟩, 0, 0, 0, lc0⟩ 2 1 58614846999530) (.out ⟨135, 16, 174, 920, 16,
    861, ⟨[[(0, 22223791454136320), (0, 1006489885445863), (20668488886, 0)], [(36018318302246906, 0), (0,
    3459499630013), (44553272, 0)], [(137467946300404, 0), (0, 4481508160), (0, 266019)]], 2, 2⟩,
    ⟨[[(35043742205698048, 0), (0, 1556196118333505), (22127529284, 0)], [(0, 32185114446862184), (0, 443006970325),
    (41409026, 0)], [(54577262126228, 0), (0, 2021991840), (63424, 0)]], 2, 2⟩, 72057594037927936, 3262288994031189,
    637509357334626, ⟨[], 0, 0⟩, 0, 0, 0, lc0⟩ 2 1 76790425952026)) (.out ⟨105, 16, 147, 668, 16, 636,
    ⟨[[(3046303549278208, 0), (0, 1648366734848561), (68872766858, 0)], [(28250745142703134, 0), (0, 5725006025074),
    (167577762, 0)], [(113171560306144, 0), (0, 8144741661), (0, 626442)]], 2, 2⟩, ⟨[[(3986977639120896, 0), (0,
    2250894052383016), (62613210654, 0)], [(0, 24004379528215479), (0, 569796885393), (102898714, 0)],
    [(39212985179415, 0), (0, 2877509186), (98258, 0)]], 2, 2⟩, 72057594037927936, 2852088395131892, 495511528573599,
    ⟨[], 0, 0⟩, 0, 0, 0, lc0⟩ 2 1 101339006802751)) (.out ⟨71, 16, 80, 443, 16, 425, ⟨[[(32197735683320832, 0), (0,
    2111140530746517), (161577146205, 0)], [(22307042799592140, 0), (0, 6935548347605), (108915278, 0)],
    [(84224655828188, 0), (0, 5740291888), (0, 3993404)]], 2, 2⟩, ⟨[[(6837268372320256, 0), (0, 3093346711109652),
    (186128255127, 0)], [(0, 13506754210892530), (0, 1200134090647), (362824855, 0)], [(31617745938916, 0), (0,
    4783993713), (809927, 0)]], 2, 2⟩, 72057594037927936, 2029483385327273, 820088086513306, ⟨[], 0, 0⟩, 0, 0, 0,
    lc0⟩ 2 1 150430124192886)) (.out ⟨43, 16, 66, 325, 16, 324, ⟨[[(8956095457300480, 0), (0, 1495329510238500),
    (124897303824, 0)], [(25973815465465079, 0), (0, 10461881360247), (582658192, 0)], [(226861098808404, 0), (0,
    30414720365), (0, 2919143)]], 2, 2⟩, ⟨[[(6548937137893376, 0), (0, 2211415295110013), (122013293173, 0)], [(0,
    23192384201398574), (0, 1145323235752), (289712906, 0)], [(81796467944382, 0), (0, 12121633099), (0, 71957)]], 2,
    2⟩, 72057594037927936, 12254792300234674, 2612624532809624, ⟨[], 0, 0⟩, 0, 0, 0, lc0⟩ 2 1 183438755682519)
theorem c111 : checkR job con0 false ⟨7, 9, 7, 9, 13, 17⟩ 1 34400 t111 279 21 160 7247 251 8000 = true := by decide +kernel

def t112 : CTree :=
  .sy (.sx (.out ⟨43, 16, 36, 368, 16, 361, ⟨[[(22837888466202624, 0), (0, 1151985006500281), (65743780928, 0)],
    [(31723279097494565, 0), (0, 6383171528784), (0, 645520098)], [(219443113519238, 0), (8709235915, 0), (0,
    17190866)]], 2, 2⟩, ⟨[[(0, 1642897889554432), (0, 2709438764707680), (180488118229, 0)], [(0, 15050006985840847),
    (0, 3211397752276), (806974102, 0)], [(145642000424062, 0), (0, 20899714105), (2942638, 0)]], 2, 2⟩,
    72057594037927936, 8503829810588136, 5168722742440663, ⟨[], 0, 0⟩, 0, 0, 0, lc0⟩ 2 1 258783206056305) (.out ⟨45,
    16, 24, 460, 16, 457, ⟨[[(19268760885216256, 0), (0, 917612084503760), (0, 1374439117)], [(35808059323732419, 0),
    (0, 2318126049917), (0, 1896032750)], [(195979254864383, 0), (45245096534, 0), (0, 23800804)]], 2, 2⟩, ⟨[[(0,
    8234777696763904), (0, 3650256155578345), (276974747910, 0)], [(0, 255710425188180), (0, 6456162766453),
    (1264102167, 0)], [(261127362249608, 0), (0, 28526441428), (2152233, 0)]], 2, 2⟩, 72057594037927936,
    4533287688099857, 6308207117900987, ⟨[], 0, 0⟩, 0, 0, 0, lc0⟩ 0 20 18)) (.sx (.out ⟨38, 16, 39, 357, 16, 369,
    ⟨[[(35745638638757888, 0), (0, 1170701353575534), (80798622079, 0)], [(30770370294425734, 0), (0, 7321643834911),
    (0, 149185909)], [(238393100624676, 0), (0, 5608802801), (0, 11540646)]], 2, 2⟩, ⟨[[(32232858934038528, 0), (0,
    2599289480173512), (155898763925, 0)], [(0, 16846854272092102), (0, 2596590703257), (533619049, 0)],
    [(139014057942274, 0), (0, 17739593440), (3977409, 0)]], 2, 2⟩, 72057594037927936, 10059515232944157,
    4995691505467037, ⟨[], 0, 0⟩, 0, 0, 0, lc0⟩ 2 1 316933714483776) (.out ⟨39, 16, 24, 443, 16, 465, ⟨[[(0,
    6609695698419712), (0, 903101021394667), (27839693502, 0)], [(34239073679471811, 0), (0, 3797683567527), (0,
    1088136622)], [(213296030825960, 0), (24897280682, 0), (0, 16919592)]], 2, 2⟩, ⟨[[(0, 734750250778624), (0,
    3455519102427683), (234162203132, 0)], [(0, 3241917622171730), (0, 5335977270119), (1135632167, 0)],
    [(252036413385125, 0), (0, 24770514379), (5983258, 0)]], 2, 2⟩, 72057594037927936, 5824449887735236,
    6537262614341860, ⟨[], 0, 0⟩, 0, 0, 0, lc0⟩ 2 1 512934695844242))
theorem c112 : checkR job con0 false ⟨7, 9, 7, 9, 13, 17⟩ 1 34400 t112 171 21 80 7247 251 8000 = true := by decide +kernel

def t113 : CTree :=
  .sx (.sx (.sy (.sy (.out ⟨74, 16, 183, 396, 16, 390, ⟨[[(30819703545392128, 0), (0, 1437663391632227),
    (68094628187, 0)], [(26111741957583860, 0), (0, 10322447206019), (328523924, 0)], [(269872830307119, 0), (0,
    41053046004), (0, 637568)]], 2, 2⟩, ⟨[[(20495158533804032, 0), (0, 1269257605313341), (27848819967, 0)], [(0,
    35152183323734802), (221229165733, 0), (270254444, 0)], [(73781174574925, 0), (0, 10469757200), (0, 3425734)]],
    2, 2⟩, 72057594037927936, 19885530568264083, 612147348883275, ⟨[], 0, 0⟩, 0, 0, 0, lc0⟩ 2 1 105213107466474)
    (.out ⟨74, 16, 209, 392, 16, 394, ⟨[[(0, 11684723481543680), (0, 1562673389988176), (80624222535, 0)],
    [(23988684540775668, 0), (0, 11469566020582), (256495291, 0)], [(284400993405797, 0), (0, 48209383378), (0,
    2027476)]], 2, 2⟩, ⟨[[(0, 35384815130570752), (0, 1256355781157452), (23088110311, 0)], [(0, 35321068112907234),
    (564201265027, 0), (417768141, 0)], [(68218636644082, 0), (0, 14896036094), (0, 5238025)]], 2, 2⟩,
    72057594037927936, 22781185635076508, 765377741314923, ⟨[], 0, 0⟩, 0, 0, 0, lc0⟩ 2 1 133774292007356)) (.out ⟨49,
    16, 175, 296, 16, 308, ⟨[[(0, 21314225430293504), (0, 2400704569394631), (310755509611, 0)], [(12942075325551666,
    0), (0, 18841824773858), (69490902, 0)], [(206300774338189, 0), (0, 89861269847), (0, 18714223)]], 2, 2⟩, ⟨[[(0,
    6620613196959744), (0, 1924115525904232), (29965486727, 0)], [(0, 27045667954274737), (2274701204702, 0),
    (2520427740, 0)], [(41713282420659, 0), (0, 39993468006), (0, 29049617)]], 2, 2⟩, 72057594037927936,
    21786826482771687, 2453727912586190, ⟨[], 0, 0⟩, 0, 0, 0, lc0⟩ 2 1 182156366063664)) (.out ⟨24, 16, 56, 207, 16,
    221, ⟨[[(10005587488857600, 0), (0, 2233275114328375), (388388803698, 0)], [(15618527289622558, 0), (0,
    16461244245364), (1075715805, 0)], [(172884362587970, 0), (0, 49436581744), (14818454, 0)]], 2, 2⟩, ⟨[[(0,
    28361201086593024), (0, 2783490984592681), (284147635719, 0)], [(0, 16309299984637406), (0, 1016128855435),
    (1014160134, 0)], [(48713213449821, 0), (0, 23966116600), (0, 23634029)]], 2, 2⟩, 72057594037927936,
    12289976672339330, 4832175637004440, ⟨[], 0, 0⟩, 0, 0, 0, lc0⟩ 2 1 268416083557410)) (.sx (.out ⟨23, 16, 33, 213,
    16, 237, ⟨[[(0, 17066953988761088), (0, 1775025907900786), (266450596265, 0)], [(21384995942167293, 0), (0,
    12142816832236), (897803076, 0)], [(194084845888736, 0), (0, 27321863965), (0, 9251685)]], 2, 2⟩, ⟨[[(0,
    9507056466966528), (0, 3066898078068847), (329446800185, 0)], [(0, 11931182299471453), (0, 2672650893895),
    (538430823, 0)], [(82098686109700, 0), (0, 15840902143), (6518717, 0)]], 2, 2⟩, 72057594037927936,
    10596484107807222, 4499171190935097, ⟨[], 0, 0⟩, 0, 0, 0, lc0⟩ 2 1 401121950235314) (.out ⟨26, 16, 21, 233, 16,
    265, ⟨[[(2838121908941056, 0), (0, 1474905372626063), (169332972084, 0)], [(27071739117923776, 0), (0,
    8329967734415), (0, 915571523)], [(196115903864232, 0), (10457222683, 0), (0, 30040629)]], 2, 2⟩, ⟨[[(0,
    11706602464315392), (0, 3586229997458148), (414249353673, 0)], [(0, 3811624181125779), (0, 4459649668443),
    (1745554434, 0)], [(135297649027386, 0), (0, 15382659369), (18905653, 0)]], 2, 2⟩, 72057594037927936,
    8699743198680200, 6365224263634966, ⟨[], 0, 0⟩, 0, 0, 0, lc0⟩ 2 1 549032619086461))
theorem c113 : checkR job con0 false ⟨7, 9, 7, 9, 13, 17⟩ 1 34400 t113 75 21 40 7749 251 8000 = true := by decide +kernel

def t114 : CTree :=
  .sx (.sy (.sx (.sx (.sx (.leaf ⟨864, 16, 1695, 12, 16, 1072, ⟨[[(34727568917528576, 0), (0, 26694841658055900),
    (8101011369105, 0), (3735279114, 0), (3035731, 0)], [(0, 2134269297820913), (0, 52279154593605), (100629912850,
    0), (85280024, 0), (64306, 0)], [(0, 2598925632097), (0, 172629352244), (0, 62379462), (0, 60330), (0, 20)],
    [(36291835245, 0), (0, 2252999457), (0, 3058157), (0, 3136), (0, 2)]], 3, 4⟩, ⟨[[(10170149781340544, 0), (0,
    12131895182959299), (0, 4719544168764), (0, 6038585013), (0, 4114763)], [(0, 43324925757185042), (17323312035455,
    0), (28149712016, 0), (27628596, 0), (19972, 0)], [(87042659059879, 0), (88790965097, 0), (148823037, 0),
    (155586, 0), (103, 0)], [(0, 309010376660), (0, 659641146), (0, 998072), (0, 978), (0, 1)]], 3, 4⟩,
    72057594037927936, 53338016468975, 8531325049903, ⟨[[(13170622113261, 0), (0, 226039350), (270176, 0), (2191, 0),
    (68, 0)], [(4534084046, 0), (14300347, 0), (0, 27966), (99, 0), (2, 0)], [(0, 9005441), (56115, 0), (0, 252), (0,
    1)], [(666, 0), (0, 317), (2, 0)]], 3, 4⟩, 17592186044416, 18359599,
    4495626735681065484514235024823275536288077528553265355549356208979164317522007556132457673747345373411266013512778690596176819,
    lc0⟩) (.out ⟨329, 16, 1554, 815, 16, 813, ⟨[[(0, 20692938340618240), (0, 25984947738178475), (9905262578089, 0)],
    [(0, 1884650235221506), (0, 61530927163684), (82669175777, 0)], [(7857576737223, 0), (0, 323933833385), (0,
    279383237)]], 2, 2⟩, ⟨[[(30823379982745600, 0), (0, 12307617751968481), (0, 4073739683874)], [(0,
    41574445888286016), (22019140216187, 0), (36218874330, 0)], [(66161105818774, 0), (35540657693, 0), (68298416,
    0)]], 2, 2⟩, 72057594037927936, 1383021621062444, 1275870922379433, ⟨[], 0, 0⟩, 0, 0, 0, lc0⟩ 1 1
    80020774273037)) (.out ⟨263, 16, 1243, 560, 16, 574, ⟨[[(0, 35662060277125120), (0, 23404498191876470),
    (10184151435071, 0)], [(1552263213375742, 0), (0, 154988586158110), (78368581699, 0)], [(232693982522942, 0), (0,
    1591399968983), (0, 1564651953)]], 2, 2⟩, ⟨[[(0, 32214159560417280), (0, 8025727952047629), (0, 1768886271176)],
    [(0, 52814008443994624), (30655792828838, 0), (52022092012, 0)], [(99726365501949, 0), (0, 108586357247), (0,
    132779777)]], 2, 2⟩, 72057594037927936, 18239603976590419, 3861563335628712, ⟨[], 0, 0⟩, 0, 0, 0, lc0⟩ 1 1
    133684101938120)) (.sx (.out ⟨151, 16, 701, 593, 16, 631, ⟨[[(843819743213568, 0), (0, 16386281575987118),
    (6277620883985, 0)], [(18252255000568501, 0), (0, 140435153294475), (0, 4623265135)], [(543423050951331, 0), (0,
    920081366844), (0, 733757888)]], 2, 2⟩, ⟨[[(33622729946349568, 0), (0, 8023248809549888), (0, 538585688979)],
    [(0, 53914622368521765), (22086981188526, 0), (41092616382, 0)], [(52471730779056, 0), (0, 260575570178), (0,
    375671578)]], 2, 2⟩, 72057594037927936, 21023060411918486, 1081088164087798, ⟨[], 0, 0⟩, 0, 0, 0, lc0⟩ 1 1
    206466186512571) (.out ⟨85, 16, 360, 609, 16, 671, ⟨[[(32579650110633984, 0), (0, 10770442527801454),
    (2945722872745, 0)], [(34797547264302606, 0), (0, 94662993449140), (0, 14123312551)], [(654762519644809, 0), (0,
    321478091712), (0, 22327251)]], 2, 2⟩, ⟨[[(30560405453963264, 0), (0, 8090270553644237), (336410820623, 0)], [(0,
    53989464077419099), (8465022645643, 0), (21785738305, 0)], [(74179407015631, 0), (0, 235354016183), (0,
    344375655)]], 2, 2⟩, 72057594037927936, 15838910814340837, 1955112199323621, ⟨[], 0, 0⟩, 0, 0, 0, lc0⟩ 1 1
    276800482970258))) (.sx (.sx (.out ⟨284, 16, 1457, 491, 16, 493, ⟨[[(0, 20758118538489856), (0,
    22253810120054242), (9276372501373, 0)], [(0, 10480166732932567), (0, 71622750369109), (204022256565, 0)], [(0,
    73467441046979), (0, 1027921324762), (0, 815773998)]], 2, 2⟩, ⟨[[(0, 3446507385389056), (0, 8147599738322486),
    (0, 3709958375545)], [(0, 50662339808496686), (32174974749951, 0), (51446798531, 0)], [(205446114568971, 0),
    (205364937697, 0), (350269943, 0)]], 2, 2⟩, 72057594037927936, 5413974880080088, 6039767420150362, ⟨[], 0, 0⟩, 0,
    0, 0, lc0⟩ 1 1 88082234711526) (.out ⟨233, 16, 1217, 561, 16, 585, ⟨[[(6760714582763520, 0), (0,
    21239493089959004), (11574268072753, 0)], [(0, 9823040816503035), (0, 138729965369198), (90790802279, 0)],
    [(96158973821193, 0), (0, 1828984897135), (0, 1955378509)]], 2, 2⟩, ⟨[[(18036542385594368, 0), (0,
    8515692662117857), (0, 2531281469029)], [(0, 51039491272079607), (40575655710411, 0), (67137293071, 0)],
    [(92127707983943, 0), (0, 133914369385), (0, 163852412)]], 2, 2⟩, 72057594037927936, 17221909606075163,
    4809900461691242, ⟨[], 0, 0⟩, 0, 0, 0, lc0⟩ 1 1 160981578564001)) (.sx (.out ⟨165, 16, 864, 597, 16, 644, ⟨[[(0,
    3762549424289792), (0, 18902036426965077), (8908832776740, 0)], [(8946162068188559, 0), (0, 174543281272026), (0,
    13092486674)], [(575290330938620, 0), (0, 1296110586712), (0, 1183744718)]], 2, 2⟩, ⟨[[(0, 16429362829975552),
    (0, 8305542577445547), (0, 963056126705)], [(0, 52989642372741010), (29958342147327, 0), (53557366036, 0)],
    [(30293813756582, 0), (0, 332914317728), (0, 478682530)]], 2, 2⟩, 72057594037927936, 27100364635920407,
    1353981991618989, ⟨[], 0, 0⟩, 0, 0, 0, lc0⟩ 1 1 224748284861320) (.out ⟨84, 16, 407, 609, 16, 680, ⟨[[(0,
    20281850957184000), (0, 11629408372799900), (3703428886006, 0)], [(30879546531345230, 0), (0, 110144610871951),
    (0, 24330977225)], [(711677401207365, 0), (0, 369968429507), (0, 60058223)]], 2, 2⟩, ⟨[[(0, 18204523312504832),
    (0, 8158821566604915), (167248168147, 0)], [(0, 53897499655597970), (12518701321284, 0), (28666810273, 0)],
    [(54270240349940, 0), (0, 299891445084), (0, 441346117)]], 2, 2⟩, 72057594037927936, 18617684123333532,
    2369050113158369, ⟨[], 0, 0⟩, 0, 0, 0, lc0⟩ 1 1 292198064160674)))) (.sx (.out ⟨22, 16, 66, 313, 16, 365, ⟨[[(0,
    3714367431089664), (0, 5501888325995317), (1905930920201, 0)], [(43235618691972608, 0), (0, 84569579476879), (0,
    1939563949)], [(1080861665731010, 0), (0, 308138910733), (863690119, 0)]], 2, 2⟩, ⟨[[(28512941141106688, 0), (0,
    8690691961513753), (1712529618568, 0)], [(0, 48049239499677275), (0, 8522438254913), (20237544489, 0)],
    [(359895443289361, 0), (0, 366446391554), (0, 897154515)]], 2, 2⟩, 72057594037927936, 36622779807293735,
    13006447945734991, ⟨[], 0, 0⟩, 0, 0, 0, lc0⟩ 1 1 403275860646631) (.out ⟨21, 16, 26, 425, 16, 518,
    ⟨[[(33911423019801088, 0), (0, 3215784588097069), (884161279958, 0)], [(53540461545398757, 0), (0,
    41377923095412), (5528257398, 0)], [(911041058935220, 0), (0, 75249232341), (0, 127656009)]], 2, 2⟩,
    ⟨[[(31004643814191104, 0), (0, 12925463902542290), (2832324489995, 0)], [(0, 27014049791189061), (0,
    26861326448076), (13678342643, 0)], [(974857772162004, 0), (0, 102519164005), (335981768, 0)]], 2, 2⟩,
    72057594037927936, 22625832334594325, 22385787960156007, ⟨[], 0, 0⟩, 0, 0, 0, lc0⟩ 1 1 578994873756533))
theorem c114 : checkR job con1 false ⟨7, 9, 7, 9, 13, 17⟩ 1 34400 t114 34 14 20 4039 39 4000 = true := by decide +kernel

def t115 : CTree :=
  .sx (.sx (.out ⟨94, 16, 557, 246, 16, 259, ⟨[[(0, 3463226420813824), (0, 15571274437606508), (23127277583771, 0)],
    [(0, 17419169062188354), (0, 99267387843646), (692960901385, 0)], [(0, 419091487767366), (0, 6788846296120), (0,
    15220157619)]], 2, 2⟩, ⟨[[(9367258773649408, 0), (0, 8956115033364454), (0, 9336393160730)], [(0,
    42978508803352384), (108209000537463, 0), (340488850234, 0)], [(292188653262737, 0), (231789644092, 0),
    (1048359471, 0)]], 2, 2⟩, 72057594037927936, 50853960904515168, 36674874316048793, ⟨[], 0, 0⟩, 0, 0, 0, lc0⟩ 1 1
    172417558475261) (.sx (.out ⟨81, 16, 517, 445, 16, 492, ⟨[[(31135898719082496, 0), (0, 19809782569587358),
    (27080508869287, 0)], [(0, 7007985656444530), (0, 214334730970301), (0, 62996192550)], [(242422902841744, 0), (0,
    1955466936534), (0, 4148493179)]], 2, 2⟩, ⟨[[(31808153398087680, 0), (0, 13166978529363835), (0, 5297853299263)],
    [(0, 37171747321143959), (68773106145063, 0), (233018178073, 0)], [(0, 12224664076975), (0, 711742699422), (0,
    2040500924)]], 2, 2⟩, 72057594037927936, 21035526949191600, 2823744272777814, ⟨[], 0, 0⟩, 0, 0, 0, lc0⟩ 1 1
    259340078430921) (.out ⟨52, 16, 324, 465, 16, 531, ⟨[[(15141406826753536, 0), (0, 16997111154247083),
    (14332269118258, 0)], [(14004382047431289, 0), (0, 187261513901104), (0, 128362389638)], [(531187586161511, 0),
    (0, 624335812917), (0, 427841398)]], 2, 2⟩, ⟨[[(1854800672567296, 0), (0, 12735003613593500), (0, 423180516378)],
    [(0, 40595380106642917), (32237824391883, 0), (129204489662, 0)], [(9662219789652, 0), (0, 661303410781), (0,
    1951546980)]], 2, 2⟩, 72057594037927936, 18035596087938810, 3269878846023457, ⟨[], 0, 0⟩, 0, 0, 0, lc0⟩ 1 1
    318061071867661))) (.sx (.out ⟨18, 16, 74, 307, 16, 369, ⟨[[(8259049826981632, 0), (0, 5826688238626826),
    (2272383654614, 0)], [(41029359432671616, 0), (0, 96675667956657), (0, 23365675540)], [(1191747995121157, 0), (0,
    158013553590), (1453027906, 0)]], 2, 2⟩, ⟨[[(33374036030287872, 0), (0, 8522936470534581), (1652188182416, 0)],
    [(0, 49098333665004891), (0, 4452340992185), (33047220863, 0)], [(328065597025412, 0), (0, 566560243083), (0,
    1669509464)]], 2, 2⟩, 72057594037927936, 41652890360058130, 17688859474719186, ⟨[], 0, 0⟩, 0, 0, 0, lc0⟩ 1 1
    430073119926564) (.sx (.out ⟨35, 16, 66, 551, 16, 688, ⟨[[(0, 6035335155389440), (0, 7114669966942032),
    (2040271221895, 0)], [(49107022994849152, 0), (0, 49177180516991), (7138483353, 0)], [(483279492718634, 0), (0,
    90961776479), (72159031, 0)]], 2, 2⟩, ⟨[[(26093972749910016, 0), (0, 16363723411378051), (3548026186026, 0)],
    [(0, 27670346934992402), (0, 15795725248928), (225046634, 0)], [(277098458767111, 0), (0, 66512225135), (0,
    115309483)]], 2, 2⟩, 72057594037927936, 6261638258007874, 3231905735320912, ⟨[], 0, 0⟩, 0, 0, 0, lc0⟩ 1 1
    562802906685278) (.out ⟨40, 16, 44, 678, 16, 858, ⟨[[(0, 4334729677658112), (0, 5696017820913124),
    (1509685540084, 0)], [(54108204518721829, 0), (0, 34768060405133), (4687751045, 0)], [(435777197862961, 0), (0,
    14523572700), (0, 111682243)]], 2, 2⟩, ⟨[[(25087575564730368, 0), (0, 20997417249031138), (4390826158971, 0)],
    [(0, 12140005006608567), (0, 21691358150042), (0, 1135362127)], [(445874076011037, 0), (0, 15133051415), (0,
    24133161)]], 2, 2⟩, 72057594037927936, 3690533573194389, 3809833813300686, ⟨[], 0, 0⟩, 0, 0, 0, lc0⟩ 1 1
    658849990655284)))
theorem c115 : checkR job con1 false ⟨7, 9, 7, 9, 13, 17⟩ 1 34400 t115 34 14 20 4117 39 4000 = true := by decide +kernel

def t116 : CTree :=
  .sx (.sy (.out ⟨479, 16, 2717, 3117, 16, 4840, ⟨[[(17375625722195968, 0), (0, 12959143286746575), (537885805959,
    0)], [(78724001197871790, 0), (0, 79800808286669), (0, 4798208255)], [(0, 319469353569615), (0, 51685731797), (0,
    69200071)]], 2, 2⟩, ⟨[[(0, 17979709756047360), (0, 27936999739577725), (3475183448138, 0)]], 2, 2⟩,
    72057594037927936, 262423919330068, 25768050878948, ⟨[], 0, 0⟩, 0, 0, 0, lc0⟩ 0 1 149470750188) (.out ⟨486, 16,
    2837, 3147, 16, 4935, ⟨[[(0, 14280737766031360), (0, 13459858920562439), (349933724652, 0)], [(75663710805432210,
    0), (0, 84396182002681), (0, 8854383361)], [(0, 338271606760766), (0, 66936593657), (0, 94801143)]], 2, 2⟩,
    ⟨[[(27973295973957632, 0), (0, 27940522574021579), (3442222813111, 0)]], 2, 2⟩, 72057594037927936,
    289768284745333, 25277199241399, ⟨[], 0, 0⟩, 0, 0, 0, lc0⟩ 0 1 111388212505)) (.sy (.sy (.out ⟨679, 16, 3706,
    6234, 16, 9657, ⟨[[(0, 28987815742038016), (0, 9619707757557962), (175337208814, 0)], [(97800001207623186, 0),
    (0, 55194889339701), (0, 1965459892)], [(0, 401610781534173), (0, 29783941161), (0, 20933527)]], 2, 2⟩, ⟨[[(0,
    13607550320312320), (0, 28006324189919721), (1746139047941, 0)]], 2, 2⟩, 72057594037927936, 275861329872709,
    6473701443415, ⟨[], 0, 0⟩, 0, 0, 0, lc0⟩ 0 1 102866017726) (.out ⟨688, 16, 3814, 6265, 16, 9752, ⟨[[(0,
    23707119300485120), (0, 9875035706156900), (139484296454, 0)], [(96205783979778048, 0), (0, 57170488585823), (0,
    2695895739)], [(0, 415842797162497), (0, 34260379685), (0, 24776379)]], 2, 2⟩, ⟨[[(0, 23793840498999296), (0,
    28008750561960635), (1737838962708, 0)]], 2, 2⟩, 72057594037927936, 287902690339224, 6411672480825, ⟨[], 0, 0⟩,
    0, 0, 0, lc0⟩ 0 1 85858142989)) (.sy (.out ⟨697, 16, 3928, 6295, 16, 9846, ⟨[[(16381533395746816, 0), (0,
    10151368680365294), (96989147614, 0)], [(94470362264146651, 0), (0, 59371537820216), (0, 3547779878)], [(0,
    431187029188043), (0, 39548791550), (0, 29219985)]], 2, 2⟩, ⟨[[(0, 29408325923307520), (0, 28006986486127390),
    (1729360079415, 0)]], 2, 2⟩, 72057594037927936, 300926371637057, 6349585955509, ⟨[], 0, 0⟩, 0, 0, 0, lc0⟩ 0 1
    72296939155) (.sy (.out ⟨873, 16, 4977, 12651, 16, 19860, ⟨[[(0, 751726261911552), (0, 6425389152312863),
    (18636720145, 0)], [(115282267008719579, 0), (0, 37899729680152), (0, 1324694004)], [(0, 549401043040875), (0,
    27332564534), (0, 10220808)]], 2, 2⟩, ⟨[[(0, 7995739573059584), (0, 28042963867297917), (862674619845, 0)]], 2,
    2⟩, 72057594037927936, 366846099759981, 1576105601397, ⟨[], 0, 0⟩, 0, 0, 0, lc0⟩ 0 1 61401176881) (.out ⟨883, 16,
    5073, 12681, 16, 19955, ⟨[[(0, 18709436972539904), (0, 6547038515379188), (10269757807, 0)],
    [(114484208978614418, 0), (0, 38852669774693), (0, 1495917591)], [(0, 562236137258720), (0, 29539121108), (0,
    11118273)]], 2, 2⟩, ⟨[[(0, 1687808441712640), (0, 28042371096716971), (860591410057, 0)]], 2, 2⟩,
    72057594037927936, 376194778747878, 1568531376260, ⟨[], 0, 0⟩, 0, 0, 0, lc0⟩ 0 1 55024125113))))
theorem c116 : checkR job con2 false ⟨7, 9, 7, 9, 13, 17⟩ 1 34400 t116 103 7 320 4039 39 4000 = true := by decide +kernel

def t117 : CTree :=
  .sy (.sy (.out ⟨662, 16, 3955, 6355, 16, 10037, ⟨[[(2253460712628224, 0), (0, 9360985477157991), (56528233274, 0)],
    [(98550790867345774, 0), (0, 59686954680578), (0, 4291392778)], [(0, 477519366544276), (0, 55196293429), (0,
    40128590)]], 2, 2⟩, ⟨[[(34531906379120640, 0), (0, 28008106049624556), (1712929242837, 0)]], 2, 2⟩,
    72057594037927936, 321970942820368, 6229110480973, ⟨[], 0, 0⟩, 0, 0, 0, lc0⟩ 0 1 92533087386) (.out ⟨672, 16,
    4076, 6386, 16, 10133, ⟨[[(0, 11086821658312704), (0, 9642164406026179), (7807111635, 0)], [(96739088793682798,
    0), (0, 62275093213978), (0, 5363239247)], [(0, 496828286084623), (0, 63761989008), (0, 46907402)]], 2, 2⟩,
    ⟨[[(0, 14095340839370752), (0, 28008138059855652), (1704798713242, 0)]], 2, 2⟩, 72057594037927936,
    335788566421647, 6170040004487, ⟨[], 0, 0⟩, 0, 0, 0, lc0⟩ 0 1 82250706405)) (.sy (.out ⟨682, 16, 4205, 6416, 16,
    10230, ⟨[[(24545396218347520, 0), (0, 9950445639831298), (0, 48890345555)], [(94753779087006153, 0), (0,
    65191455848952), (0, 6605866282)], [(0, 517990055741152), (0, 73816384750), (0, 54749339)]], 2, 2⟩,
    ⟨[[(33880121370017792, 0), (0, 28009656719495703), (1696835083267, 0)]], 2, 2⟩, 72057594037927936,
    350714417606506, 6112130223050, ⟨[], 0, 0⟩, 0, 0, 0, lc0⟩ 0 1 74212219008) (.out ⟨694, 16, 4343, 6447, 16, 10327,
    ⟨[[(0, 28593047592140800), (0, 10289812675238717), (0, 114694334924)], [(92567674828036827, 0), (0,
    68489118078221), (0, 8046180323)], [(0, 541294544278293), (0, 85618494720), (0, 63830920)]], 2, 2⟩, ⟨[[(0,
    10986678061891584), (0, 28009907873648446), (1688869935101, 0)]], 2, 2⟩, 72057594037927936, 366896621837379,
    6054761018651, ⟨[], 0, 0⟩, 0, 0, 0, lc0⟩ 0 1 66792075110))
theorem c117 : checkR job con2 false ⟨7, 9, 7, 9, 13, 17⟩ 1 34400 t117 199 7 640 4117 39 4000 = true := by decide +kernel

def t118 : CTree :=
  .sy (.sx (.sy (.out ⟨1035, 16, 6061, 6355, 16, 10037, ⟨[[(33574089339748352, 0), (0, 15315196075834210),
    (10853676756, 0)], [(68052119274527698, 0), (0, 46596218668395), (0, 3924963475)], [(0, 172440807793059), (0,
    19807943759), (0, 14878171)]], 2, 2⟩, ⟨[[(34531906379120640, 0), (0, 28008106049624556), (1712929242837, 0)]], 2,
    2⟩, 72057594037927936, 80687917352515, 6229110480973, ⟨[], 0, 0⟩, 0, 0, 0, lc0⟩ 0 1 58724678106) (.out ⟨1043, 16,
    6203, 6386, 16, 10133, ⟨[[(0, 17502115941761024), (0, 15679395919810816), (0, 81621506059)], [(65900794519371273,
    0), (0, 48376114487828), (0, 4819974173)], [(0, 178158719629825), (0, 22803749112), (0, 17266979)]], 2, 2⟩,
    ⟨[[(0, 14095340839370752), (0, 28008138059855652), (1704798713242, 0)]], 2, 2⟩, 72057594037927936,
    85642985852567, 6170040004487, ⟨[], 0, 0⟩, 0, 0, 0, lc0⟩ 0 1 49481415785)) (.sy (.sy (.out ⟨1486, 16, 8556,
    12712, 16, 20051, ⟨[[(0, 12549904416145408), (0, 11272007261385239), (0, 8100261699)], [(90680209581253650, 0),
    (0, 33152992964665), (0, 1460143418)], [(0, 233290513589554), (0, 12814477359), (0, 4897392)]], 2, 2⟩, ⟨[[(0,
    32110397578674176), (0, 28042862719669396), (858551349223, 0)]], 2, 2⟩, 72057594037927936, 82753687412947,
    1561071853446, ⟨[], 0, 0⟩, 0, 0, 0, lc0⟩ 0 1 39847085803) (.out ⟨1498, 16, 8699, 12742, 16, 20147,
    ⟨[[(18185240229265408, 0), (0, 11463036013431803), (0, 25684222788)], [(89557314110627438, 0), (0,
    33949746819516), (0, 1627623181)], [(0, 238236777942074), (0, 13830681547), (0, 5306052)]], 2, 2⟩, ⟨[[(0,
    973685364752384), (0, 28043031353529613), (856511143628, 0)]], 2, 2⟩, 72057594037927936, 84907103711436,
    1553647728358, ⟨[], 0, 0⟩, 0, 0, 0, lc0⟩ 0 1 35655800604)) (.sy (.out ⟨1511, 16, 8846, 12772, 16, 20243, ⟨[[(0,
    3616489621782528), (0, 11662258012782738), (0, 44718934421)], [(88367492664914066, 0), (0, 34793487949949), (0,
    1808242047)], [(0, 243393172313783), (0, 14933207535), (0, 5745903)]], 2, 2⟩, ⟨[[(19739587158736896, 0), (0,
    28042881581997450), (854470933971, 0)]], 2, 2⟩, 72057594037927936, 87157696334396, 1546258888554, ⟨[], 0, 0⟩, 0,
    0, 0, lc0⟩ 0 1 31280291028) (.out ⟨1524, 16, 8999, 12802, 16, 20339, ⟨[[(17032714029350912, 0), (0,
    11872599192627294), (0, 65318853906)], [(87123541499444114, 0), (0, 35694913193420), (0, 2003385722)], [(0,
    248824139507748), (0, 16132377895), (0, 6220624)]], 2, 2⟩, ⟨[[(30103563071389696, 0), (0, 28042417923720245),
    (852430857638, 0)]], 2, 2⟩, 72057594037927936, 89529828704832, 1538905233303, ⟨[], 0, 0⟩, 0, 0, 0, lc0⟩ 0 1
    28215021385)))) (.sx (.sy (.sy (.out ⟨1478, 16, 8902, 12833, 16, 20436, ⟨[[(14269473023672320, 0), (0,
    11260824963711749), (0, 56322792189)], [(90488923771577216, 0), (0, 35144495845573), (0, 1965316388)], [(0,
    257679685458602), (0, 17882047708), (0, 6796411)]], 2, 2⟩, ⟨[[(3383575500947456, 0), (0, 28043017069423202),
    (850432663212, 0)]], 2, 2⟩, 72057594037927936, 90163934818172, 1531661980688, ⟨[], 0, 0⟩, 0, 0, 0, lc0⟩ 0 1
    44600663992) (.out ⟨1491, 16, 9056, 12864, 16, 20533, ⟨[[(26255265199276032, 0), (0, 11466071766688566), (0,
    76698490916)], [(89253137099859291, 0), (0, 36077549313637), (0, 2169686754)], [(0, 263599275747755), (0,
    19303631985), (0, 7349193)]], 2, 2⟩, ⟨[[(0, 33753082468368384), (0, 28043298236814713), (848434279394, 0)]], 2,
    2⟩, 72057594037927936, 92523284834624, 1524452654351, ⟨[], 0, 0⟩, 0, 0, 0, lc0⟩ 0 1 42238411569)) (.sy (.out
    ⟨1505, 16, 9217, 12894, 16, 20630, ⟨[[(17205082011598848, 0), (0, 11683694880352189), (0, 98708531631)],
    [(87962025533264494, 0), (0, 37077530700469), (0, 2390487043)], [(0, 269864507477643), (0, 20849748271), (0,
    7946373)]], 2, 2⟩, ⟨[[(0, 9175245193740288), (0, 28043265892362109), (846435842334, 0)]], 2, 2⟩,
    72057594037927936, 95013174102982, 1517276966834, ⟨[], 0, 0⟩, 0, 0, 0, lc0⟩ 0 1 39627859230) (.out ⟨1520, 16,
    9384, 12924, 16, 20727, ⟨[[(0, 26930696509440000), (0, 11912766652527954), (0, 122464428985)],
    [(86596137352266514, 0), (0, 38144078375897), (0, 2628711739)], [(0, 276460069284676), (0, 22528292503), (0,
    8590547)]], 2, 2⟩, ⟨[[(5132373685174272, 0), (0, 28042924439756265), (844437485012, 0)]], 2, 2⟩,
    72057594037927936, 97628378402529, 1510135311464, ⟨[], 0, 0⟩, 0, 0, 0, lc0⟩ 0 1 37120009060))) (.sy (.sx (.sy
    (.out ⟨2149, 16, 12830, 12833, 16, 20436, ⟨[[(0, 7704374410739712), (0, 16764306582194918), (0, 111987445855)],
    [(61367478069655954, 0), (0, 25591531896836), (0, 1517788839)], [(0, 90068392008784), (0, 6196366616), (0,
    2383451)]], 2, 2⟩, ⟨[[(3383575500947456, 0), (0, 28043017069423202), (850432663212, 0)]], 2, 2⟩,
    72057594037927936, 22873264138237, 1531661980688, ⟨[], 0, 0⟩, 0, 0, 0, lc0⟩ 0 1 29921205515) (.out ⟨2156, 16,
    12985, 12864, 16, 20533, ⟨[[(34408991261065216, 0), (0, 16986875605151737), (0, 143792351416)],
    [(60079003924319552, 0), (0, 26150288573771), (0, 1664737442)], [(0, 91660649281609), (0, 6659276880), (0,
    2564088)]], 2, 2⟩, ⟨[[(0, 33753082468368384), (0, 28043298236814713), (848434279394, 0)]], 2, 2⟩,
    72057594037927936, 23630184366339, 1524452654351, ⟨[], 0, 0⟩, 0, 0, 0, lc0⟩ 0 1 28283314563)) (.leaf ⟨3789, 16,
    8136, 850, 16, 4078, ⟨[[(0, 17880658082136064), (0, 21731721467877721), (0, 379131622728), (0, 691474670), (0,
    201868)], [(36693850706581870, 0), (0, 32833876965694), (0, 4181778456), (0, 2844869), (0, 911)], [(0,
    56104732719421), (0, 7861148081), (0, 6096697), (0, 3182), (0, 1)], [(27674390547, 0), (5869768, 0), (3474, 0),
    (2, 0)]], 3, 4⟩, ⟨[[(6932827377033216, 0), (0, 17518595137359997), (0, 1518209428888), (0, 1329402102), (0,
    542243)], [(0, 61005934342120201), (0, 11748157135702), (0, 7217717922), (0, 3340183), (0, 854)],
    [(13555439888593, 0), (0, 6845969876), (0, 7051460), (0, 3374), (0, 1)], [(0, 4571351199), (2554405, 0), (3167,
    0), (2, 0)]], 3, 4⟩, 72057594037927936, 13042115977, 28469646894, ⟨[[(12830930081054, 0), (1053492181, 0),
    (2144873, 0), (3637, 0), (26, 0)], [(1733623410, 0), (102909, 0), (0, 1914), (0, 2)], [(0, 512914), (7, 0), (3,
    0)], [(161, 0)]], 3, 4⟩, 17592186044416, 282265,
    3537288721592919184279060027052484639514310240719404776382533451553654830389031923278993788157308446268296079104602897594693444,
    lc0⟩)) (.leaf ⟨3088, 16, 6679, 594, 16, 2896, ⟨[[(12019602679955456, 0), (0, 17706848389002450), (0,
    422481558822), (0, 603256240), (0, 171797)], [(57307915644340151, 0), (0, 54861680099156), (0, 7855939201), (0,
    5077172), (0, 1606)], [(0, 188314528351677), (0, 29569414017), (0, 22857231), (0, 11721), (0, 4)],
    [(185454091745, 0), (40606018, 0), (24120, 0), (12, 0)]], 3, 4⟩, ⟨[[(29871568707796992, 0), (0,
    12563007612255221), (0, 1273902568489), (0, 1051790870), (0, 415560)], [(0, 88272106653181842), (0,
    18214193146465), (0, 11249028464), (0, 5057941), (0, 1256)], [(37128153158289, 0), (0, 22929302641), (0,
    22609409), (0, 10811), (0, 4)], [(0, 25916592237), (16076512, 0), (19220, 0), (9, 0)]], 3, 4⟩, 72057594037927936,
    112376885127, 227606021871, ⟨[[(12769253847528, 0), (1397994885, 0), (4119992, 0), (6631, 0), (83, 0)],
    [(2144259088, 0), (275240, 0), (0, 5040), (1, 0)], [(0, 778814), (0, 308), (12, 0)], [(270, 0), (2, 0)]], 3, 4⟩,
    17592186044416, 947508,
    3106958201082399598841518078368985010764920553876479579370344583109989292965102239057658703272029204933810003088374602896842637,
    lc0⟩)))
theorem c118 : checkR job con2 false ⟨7, 9, 7, 9, 13, 17⟩ 1 34400 t118 213 7 640 4117 39 4000 = true := by decide +kernel

def t119 : CTree :=
  .sx (.sy (.out ⟨1047, 16, 5604, 6234, 16, 9657, ⟨[[(0, 16197859221143552), (0, 15427514509822910), (230513289590,
    0)], [(67754592126524352, 0), (0, 42178699298456), (0, 1807301307)], [(0, 142958703330641), (0, 10018771787), (0,
    7347840)]], 2, 2⟩, ⟨[[(0, 13607550320312320), (0, 28006324189919721), (1746139047941, 0)]], 2, 2⟩,
    72057594037927936, 66343428741319, 6473701443415, ⟨[], 0, 0⟩, 0, 0, 0, lc0⟩ 0 1 66721724832) (.out ⟨1053, 16,
    5731, 6265, 16, 9752, ⟨[[(31510964616691712, 0), (0, 15745936965807104), (163040569055, 0)], [(65913235772841106,
    0), (0, 43465424807274), (0, 2403407994)], [(0, 147045616885101), (0, 11504877537), (0, 8647427)]], 2, 2⟩, ⟨[[(0,
    23793840498999296), (0, 28008750561960635), (1737838962708, 0)]], 2, 2⟩, 72057594037927936, 70499073053838,
    6411672480825, ⟨[], 0, 0⟩, 0, 0, 0, lc0⟩ 0 1 52362907324)) (.sy (.sy (.out ⟨1498, 16, 7889, 12468, 16, 19291,
    ⟨[[(0, 22484855613456384), (0, 11281826931922965), (78228530496, 0)], [(91023503161316974, 0), (0,
    29823693752645), (0, 658970538)], [(0, 192953486915721), (0, 6219541910), (0, 2324694)]], 2, 2⟩, ⟨[[(0,
    4781606906757120), (0, 28041115542244726), (875218188528, 0)]], 2, 2⟩, 72057594037927936, 68718288712341,
    1622408477797, ⟨[], 0, 0⟩, 0, 0, 0, lc0⟩ 0 1 47697412324) (.out ⟨1509, 16, 8012, 12499, 16, 19386, ⟨[[(0,
    25751371260329984), (0, 11446366554106759), (66064510369, 0)], [(90075897449379968, 0), (0, 30400584729501), (0,
    766242312)], [(0, 196469292848217), (0, 6698439143), (0, 2537107)]], 2, 2⟩, ⟨[[(0, 6921962374561792), (0,
    28042499172328885), (873135696744, 0)]], 2, 2⟩, 72057594037927936, 70419839989000, 1614612481076, ⟨[], 0, 0⟩, 0,
    0, 0, lc0⟩ 0 1 39788069301)) (.sy (.out ⟨1520, 16, 8138, 12529, 16, 19480, ⟨[[(0, 15257870346485760), (0,
    11617015862317297), (52785523631, 0)], [(89078988029841371, 0), (0, 31008127515465), (0, 882261202)], [(0,
    200105800595817), (0, 7220380318), (0, 2765666)]], 2, 2⟩, ⟨[[(5836139149262848, 0), (0, 28042100693907387),
    (871007942038, 0)]], 2, 2⟩, 72057594037927936, 72196253223703, 1606770776926, ⟨[], 0, 0⟩, 0, 0, 0, lc0⟩ 0 1
    32558945206) (.sy (.out ⟨1942, 16, 10466, 25119, 16, 39126, ⟨[[(30321902073430016, 0), (0, 7466569422534077),
    (13360123715, 0)], [(112224509166310601, 0), (0, 20008669454264), (0, 309931878)], [(0, 257904752590202), (0,
    4856552385), (0, 936850)]], 2, 2⟩, ⟨[[(20626503328333824, 0), (0, 28059518054506329), (434984080092, 0)]], 2, 2⟩,
    72057594037927936, 88628523610554, 400242348622, ⟨[], 0, 0⟩, 0, 0, 0, lc0⟩ 0 1 28105117337) (.out ⟨1954, 16,
    10572, 25149, 16, 39220, ⟨[[(0, 5001011940900864), (0, 7540280801385585), (10984784231, 0)],
    [(111782698404077531, 0), (0, 20261577199914), (0, 331359667)], [(0, 260905292619937), (0, 5055943460), (0,
    979497)]], 2, 2⟩, ⟨[[(16247606774857728, 0), (0, 28059033522747149), (434451242901, 0)]], 2, 2⟩,
    72057594037927936, 89866174778122, 399269098576, ⟨[], 0, 0⟩, 0, 0, 0, lc0⟩ 0 1 24463165256))))
theorem c119 : checkR job con2 false ⟨7, 9, 7, 9, 13, 17⟩ 1 34400 t119 227 7 640 8039 39 8000 = true := by decide +kernel

def t120 : CTree :=
  .sy (.sy (.out ⟨1492, 16, 8218, 12590, 16, 19669, ⟨[[(18837624544329728, 0), (0, 11278279138529134), (37083205492,
    0)], [(90857973341222839, 0), (0, 31384274448492), (0, 1025432432)], [(0, 211865930989503), (0, 9012724810), (0,
    3434177)]], 2, 2⟩, ⟨[[(0, 26039789379649536), (0, 28041762824893607), (866797404250, 0)]], 2, 2⟩,
    72057594037927936, 75540931398957, 1591283603650, ⟨[], 0, 0⟩, 0, 0, 0, lc0⟩ 0 1 41448098726) (.out ⟨1504, 16,
    8350, 12620, 16, 19764, ⟨[[(0, 12331423183060992), (0, 11454748148845486), (22271566798, 0)],
    [(89823491895862418, 0), (0, 32060080061768), (0, 1160442643)], [(0, 216004982818009), (0, 9720519168), (0,
    3731112)]], 2, 2⟩, ⟨[[(1313226264543232, 0), (0, 28041819050384377), (864714269647, 0)]], 2, 2⟩,
    72057594037927936, 77462748884278, 1583636618229, ⟨[], 0, 0⟩, 0, 0, 0, lc0⟩ 0 1 34559103516)) (.sx (.sy (.out
    ⟨2142, 16, 12025, 12651, 16, 19860, ⟨[[(0, 23191476743929856), (0, 16330635325916042), (15165157652, 0)],
    [(63970727785863406, 0), (0, 23169936923818), (0, 905300271)], [(0, 78857224448090), (0, 3790079637), (0,
    1455987)]], 2, 2⟩, ⟨[[(0, 7995739573059584), (0, 28042963867297917), (862674619845, 0)]], 2, 2⟩,
    72057594037927936, 19434283843725, 1576105601397, ⟨[], 0, 0⟩, 0, 0, 0, lc0⟩ 0 1 34180911686) (.out ⟨2149, 16,
    12166, 12681, 16, 19955, ⟨[[(0, 6735873691615232), (0, 16521593220523221), (0, 8767863658)], [(62886613385674514,
    0), (0, 23591807180277), (0, 1010408717)], [(0, 80090123726105), (0, 4071987882), (0, 1572264)]], 2, 2⟩, ⟨[[(0,
    1687808441712640), (0, 28042371096716971), (860591410057, 0)]], 2, 2⟩, 72057594037927936, 20068566832949,
    1568531376260, ⟨[], 0, 0⟩, 0, 0, 0, lc0⟩ 0 1 29213389925)) (.sy (.out ⟨2159, 16, 12055, 12651, 16, 19860,
    ⟨[[(19273489390731264, 0), (0, 16697300462558720), (2213822937, 0)], [(61939460909952009, 0), (0,
    23332048447186), (0, 947835751)], [(0, 77439058826639), (0, 3649586288), (0, 1416555)]], 2, 2⟩, ⟨[[(0,
    7995739573059584), (0, 28042963867297917), (862674619845, 0)]], 2, 2⟩, 72057594037927936, 19677121445235,
    1576105601397, ⟨[], 0, 0⟩, 0, 0, 0, lc0⟩ 0 1 24511784306) (.sy (.out ⟨3105, 16, 17445, 25363, 16, 39887,
    ⟨[[(6953793433763840, 0), (0, 12082080301532761), (0, 6000368949)], [(87653652447310135, 0), (0, 16965365644618),
    (0, 368878892)], [(0, 112379500227351), (0, 2763603537), (0, 538233)]], 2, 2⟩, ⟨[[(0, 34950961184899072), (0,
    28059784229058074), (430820718691, 0)]], 2, 2⟩, 72057594037927936, 20382475010646, 392611536364, ⟨[], 0, 0⟩, 0,
    0, 0, lc0⟩ 0 1 20770560162) (.out ⟨3118, 16, 17593, 25393, 16, 39982, ⟨[[(17977205096579072, 0), (0,
    12185892548827943), (0, 10765526942)], [(87060464283284498, 0), (0, 17168730578349), (0, 390044549)], [(0,
    113553634424702), (0, 2873115526), (0, 560691)]], 2, 2⟩, ⟨[[(0, 35174714133446656), (0, 28059367735910236),
    (430299003756, 0)]], 2, 2⟩, 72057594037927936, 20660874803222, 391666680939, ⟨[], 0, 0⟩, 0, 0, 0, lc0⟩ 0 1
    18595001276))))
theorem c120 : checkR job con2 false ⟨7, 9, 7, 9, 13, 17⟩ 1 34400 t120 447 7 1280 8117 39 8000 = true := by decide +kernel

def t121 : CTree :=
  .sy (.sx (.sy (.out ⟨2162, 16, 11804, 12590, 16, 19669, ⟨[[(0, 1491249813487616), (0, 16674387622070318),
    (37264158199, 0)], [(62105862245297079, 0), (0, 22671130691206), (0, 787005168)], [(0, 73760301442790), (0,
    3027021024), (0, 1173013)]], 2, 2⟩, ⟨[[(0, 26039789379649536), (0, 28041762824893607), (866797404250, 0)]], 2,
    2⟩, 72057594037927936, 18641479032712, 1591283603650, ⟨[], 0, 0⟩, 0, 0, 0, lc0⟩ 0 1 25392476512) (.sy (.out
    ⟨3107, 16, 17068, 25241, 16, 39505, ⟨[[(0, 32910248760311808), (0, 12052756193898404), (7118521715, 0)],
    [(87880295492301349, 0), (0, 16459970619163), (0, 308003594)], [(0, 106915700364814), (0, 2290237163), (0,
    445994)]], 2, 2⟩, ⟨[[(0, 34039767746740224), (0, 28059237127132357), (432885992180, 0)]], 2, 2⟩,
    72057594037927936, 19405625410924, 396393523745, ⟨[], 0, 0⟩, 0, 0, 0, lc0⟩ 0 1 20748864372) (.out ⟨3119, 16,
    17209, 25271, 16, 39600, ⟨[[(3793624549523456, 0), (0, 12151547397737329), (2772321857, 0)], [(87309874867717175,
    0), (0, 16645661357786), (0, 326878648)], [(0, 107981819633029), (0, 2380491616), (0, 464935)]], 2, 2⟩, ⟨[[(0,
    13306954736205824), (0, 28059142209620480), (432364241947, 0)]], 2, 2⟩, 72057594037927936, 19665481494052,
    395439623519, ⟨[], 0, 0⟩, 0, 0, 0, lc0⟩ 0 1 18260493397))) (.sy (.sy (.out ⟨3132, 16, 16971, 25180, 16, 39315,
    ⟨[[(1611908041637888, 0), (0, 12216057193474317), (11512708946, 0)], [(86990515095836891, 0), (0,
    16334302993220), (0, 286674098)], [(0, 103777076887400), (0, 2038276210), (0, 398643)]], 2, 2⟩, ⟨[[(0,
    19243410462081024), (0, 28059183373251525), (433929501775, 0)]], 2, 2⟩, 72057594037927936, 18954731420951,
    398308160687, ⟨[], 0, 0⟩, 0, 0, 0, lc0⟩ 0 1 16644722003) (.sy (.out ⟨4033, 16, 21920, 50421, 16, 78797, ⟨[[(0,
    31826922089873408), (0, 7888474562679424), (2667684674, 0)], [(111122767717314926, 0), (0, 10570918346674), (0,
    96351029)], [(0, 134195828669782), (0, 1346843063), (0, 132047)]], 2, 2⟩, ⟨[[(0, 13857552151347200), (0,
    28067968846783626), (216836513730, 0)]], 2, 2⟩, 72057594037927936, 23249019921941, 99398336031, ⟨[], 0, 0⟩, 0, 0,
    0, lc0⟩ 0 1 14232154368) (.out ⟨4045, 16, 22036, 50451, 16, 78892, ⟨[[(22661738231005184, 0), (0,
    7929857411609902), (1967060210, 0)], [(110881336619723941, 0), (0, 10642170235139), (0, 99438297)], [(0,
    135012410982010), (0, 1374855157), (0, 135011)]], 2, 2⟩, ⟨[[(14089785692389376, 0), (0, 28067971731172513),
    (216705952943, 0)]], 2, 2⟩, 72057594037927936, 23419977104925, 99278893457, ⟨[], 0, 0⟩, 0, 0, 0, lc0⟩ 0 1
    13129765221))) (.leaf ⟨5864, 16, 12202, 1327, 16, 6181, ⟨[[(23537734709346304, 0), (0, 17563093632324014),
    (1244507298, 0), (0, 112392985), (0, 17994)], [(60247097798492187, 0), (0, 23660295768806), (0, 939410383), (0,
    406034), (0, 68)], [(0, 74911793722402), (0, 3164308952), (0, 1247480), (0, 357)], [(37581400594, 0), (3909656,
    0), (1225, 0)]], 3, 4⟩, ⟨[[(0, 22733855706103808), (0, 13184493747333279), (0, 332583160716), (0, 177573638), (0,
    39776)], [(0, 85592133269833618), (0, 6576732339537), (0, 1967313704), (0, 508061), (0, 73)], [(21619676757597,
    0), (0, 2430734301), (0, 1601930), (0, 382)], [(0, 6176002242), (1612096, 0), (1043, 0)]], 3, 4⟩,
    72057594037927936, 18175977652, 15993944494, ⟨[[(13061976278326, 0), (774918403, 0), (1004853, 0), (1746, 0), (6,
    0)], [(1079292963, 0), (19911, 0), (0, 481), (0, 1)], [(0, 200862), (58, 0)], [(45, 0)]], 3, 4⟩, 17592186044416,
    97987,
    4414698244272371749524748128249316793157559471367904682648988558976073226545270468114292763747305359886593279716905815567243729,
    lc0⟩))) (.sx (.sy (.sy (.out ⟨3132, 16, 17353, 25302, 16, 39696, ⟨[[(0, 8043247435579392), (0,
    12253145692059983), (0, 1758102272)], [(86729193646016530, 0), (0, 16837680041720), (0, 346517991)], [(0,
    109075496884314), (0, 2474774278), (0, 484620)]], 2, 2⟩, ⟨[[(0, 23943167593152512), (0, 28059673738823542),
    (431853385746, 0)]], 2, 2⟩, 72057594037927936, 19932705365168, 394498024903, ⟨[], 0, 0⟩, 0, 0, 0, lc0⟩ 0 1
    15671064297) (.leaf ⟨8527, 16, 17849, 1708, 16, 7965, ⟨[[(0, 16863875594190848), (0, 12604031835296128), (0,
    6609382267), (0, 20771058), (0, 1638)], [(87855087609241874, 0), (0, 17375938611365), (0, 374269585), (0, 77267),
    (0, 6)], [(0, 112394812925705), (0, 2624567516), (0, 515151), (0, 72)], [(56130983873, 0), (2895507, 0), (445,
    0)]], 3, 4⟩, ⟨[[(16020018186829824, 0), (0, 8477521801811382), (0, 115170131085), (0, 29982374), (0, 3321)], [(0,
    111922913330415762), (0, 4443807550892), (0, 667311797), (0, 84631), (0, 6)], [(27869571157067, 0), (0,
    1821254796), (0, 568060), (0, 68)], [(0, 8230538066), (1045778, 0), (340, 0)]], 3, 4⟩, 72057594037927936,
    25605232103, 21703790581, ⟨[[(13023033218952, 0), (598409338, 0), (610485, 0), (821, 0), (2, 0)], [(747465263,
    0), (9240, 0), (0, 207)], [(0, 96128), (21, 0)], [(15, 0)]], 3, 4⟩, 17592186044416, 69293,
    4507200171473333366834901553082788781423022923707881951721126224551383933762587384504292164196239422664805496707884812247364616,
    lc0⟩)) (.leaf ⟨5940, 16, 12465, 1300, 16, 6112, ⟨[[(32126290708201472, 0), (0, 17607630635736848), (0,
    39208289486), (0, 120391077), (0, 18845)], [(59930925580498789, 0), (0, 24396080473435), (0, 1122752965), (0,
    448823), (0, 75)], [(0, 78711321833742), (0, 3838342463), (0, 1511258), (0, 420)], [(39440453818, 0), (4193070,
    0), (1302, 0)]], 3, 4⟩, ⟨[[(17058010641514496, 0), (0, 13053857467165453), (0, 386656201222), (0, 193775512), (0,
    42286)], [(0, 86290935117870080), (0, 7065015185221), (0, 2140954857), (0, 536816), (0, 75)], [(21216350763079,
    0), (0, 3003441801), (0, 1818202), (0, 434)], [(0, 6218245665), (1729853, 0), (1091, 0)]], 3, 4⟩,
    72057594037927936, 17738345784, 17865064777, ⟨[[(12998855568252, 0), (757943797, 0), (990071, 0), (1566, 0), (6,
    0)], [(1075998517, 0), (26100, 0), (0, 474), (0, 1)], [(0, 199598), (47, 0)], [(44, 0)]], 3, 4⟩, 17592186044416,
    70365,
    3425964922933315970903746226119583566503826875816704685870813990251923174321987065467970008147910453138239973576101847354724488,
    lc0⟩)) (.leaf ⟨3642, 16, 7615, 885, 16, 4190, ⟨[[(0, 75169326989312), (0, 21927025035233201), (0, 99137074992),
    (0, 604466576), (0, 190744)], [(35862843326760279, 0), (0, 29827481183519), (0, 2715155093), (0, 2192318), (0,
    730)], [(0, 46992873600890), (0, 4332677179), (0, 3439327), (0, 1927), (0, 1)], [(23749992578, 0), (5254667, 0),
    (3353, 0), (2, 0)]], 3, 4⟩, ⟨[[(0, 15817541471600640), (0, 17990861103529945), (0, 1079896964035), (0,
    1067754425), (0, 464212)], [(0, 58561956977570853), (0, 9569577767732), (0, 5834457716), (0, 2944550), (0, 830)],
    [(14447553761417, 0), (0, 3825574884), (0, 4722566), (0, 2251), (0, 1)], [(0, 4048781025), (2531606, 0), (3089,
    0), (2, 0)]], 3, 4⟩, 72057594037927936, 14558410276, 22015388945, ⟨[[(13015218340736, 0), (1081153660, 0),
    (2002286, 0), (4158, 0), (24, 0)], [(1746816667, 0), (86291, 0), (0, 1498), (0, 4)], [(0, 528331), (157, 0), (2,
    0)], [(189, 0)]], 3, 4⟩, 17592186044416, 209533,
    2313455209750707553220572891509022572162220277292881879122991027316572951570735937630609119495392389254670431993364503297072288,
    lc0⟩))
theorem c121 : checkR job con2 false ⟨7, 9, 7, 9, 13, 17⟩ 1 34400 t121 461 7 1280 8117 39 8000 = true := by decide +kernel

def t122 : CTree :=
  .sy (.sx (.sy (.out ⟨2167, 16, 11316, 12468, 16, 19291, ⟨[[(0, 7683517295919104), (0, 16632817376431865),
    (101926249927, 0)], [(62420493396751296, 0), (0, 21479471764376), (0, 506530296)], [(0, 67083515291058), (0,
    2048225121), (0, 780348)]], 2, 2⟩, ⟨[[(0, 4781606906757120), (0, 28041115542244726), (875218188528, 0)]], 2, 2⟩,
    72057594037927936, 16661863573209, 1622408477797, ⟨[], 0, 0⟩, 0, 0, 0, lc0⟩ 0 1 31556279306) (.sy (.out ⟨3108,
    16, 16335, 24998, 16, 38748, ⟨[[(35487261209853952, 0), (0, 11997025375840620), (31306641296, 0)],
    [(88289478411550811, 0), (0, 15548138790983), (0, 201895489)], [(0, 97014044824410), (0, 1546070386), (0,
    297395)]], 2, 2⟩, ⟨[[(0, 35199046443335680), (0, 28059203002004506), (437093278324, 0)]], 2, 2⟩,
    72057594037927936, 17556523755916, 404138937792, ⟨[], 0, 0⟩, 0, 0, 0, lc0⟩ 0 1 26443944026) (.out ⟨3120, 16,
    16465, 25028, 16, 38842, ⟨[[(10364838373621760, 0), (0, 12087874736957691), (27753689458, 0)],
    [(87768447667015790, 0), (0, 15704653579360), (0, 216774167)], [(0, 97909517687968), (0, 1605988418), (0,
    310720)]], 2, 2⟩, ⟨[[(0, 18456681660284928), (0, 28059045118472766), (436560377117, 0)]], 2, 2⟩,
    72057594037927936, 17783130793986, 403156220257, ⟨[], 0, 0⟩, 0, 0, 0, lc0⟩ 0 1 22565756073))) (.sy (.sy (.out
    ⟨3132, 16, 16232, 24937, 16, 38560, ⟨[[(0, 2493983059836928), (0, 12147977275318415), (35808741653, 0)],
    [(87473366224991232, 0), (0, 15430738332650), (0, 182991326)], [(0, 94187739984785), (0, 1357550716), (0,
    260984)]], 2, 2⟩, ⟨[[(0, 12546543735275520), (0, 28059271318728802), (438159111147, 0)]], 2, 2⟩,
    72057594037927936, 17117869181663, 406111982775, ⟨[], 0, 0⟩, 0, 0, 0, lc0⟩ 0 1 22973100595) (.out ⟨3144, 16,
    16361, 24967, 16, 38654, ⟨[[(0, 28491982986379264), (0, 12239182109547533), (32330657149, 0)],
    [(86954229411583104, 0), (0, 15583136252867), (0, 197224269)], [(0, 95044625721490), (0, 1410144033), (0,
    272940)]], 2, 2⟩, ⟨[[(14815851401707520, 0), (0, 28059278603121615), (437626192790, 0)]], 2, 2⟩,
    72057594037927936, 17339594354405, 405124432967, ⟨[], 0, 0⟩, 0, 0, 0, lc0⟩ 0 1 18873847447)) (.sy (.out ⟨3155,
    16, 16492, 24998, 16, 38748, ⟨[[(30480250121027584, 0), (0, 12332397759597205), (28695941201, 0)],
    [(86424005494077221, 0), (0, 15739948921977), (0, 212036855)], [(0, 95918199743424), (0, 1465148574), (0,
    285352)]], 2, 2⟩, ⟨[[(0, 35199046443335680), (0, 28059203002004506), (437093278324, 0)]], 2, 2⟩,
    72057594037927936, 17566866690606, 404138937792, ⟨[], 0, 0⟩, 0, 0, 0, lc0⟩ 0 1 16058186689) (.sy (.out ⟨4072, 16,
    21350, 50056, 16, 77661, ⟨[[(0, 3812013594181632), (0, 7980497528667609), (8320276665, 0)], [(110688696087565312,
    0), (0, 10204651217581), (0, 71912668)], [(0, 124284776734739), (0, 970273065), (0, 94892)]], 2, 2⟩, ⟨[[(0,
    10495517972234240), (0, 28067766204522312), (218414298089, 0)]], 2, 2⟩, 72057594037927936, 21606966395138,
    100851327447, ⟨[], 0, 0⟩, 0, 0, 0, lc0⟩ 0 1 13031735572) (.out ⟨4084, 16, 21460, 50087, 16, 77756,
    ⟨[[(17599007474647040, 0), (0, 8020361452051323), (7704584321, 0)], [(110458481060643218, 0), (0,
    10268678460610), (0, 74524213)], [(0, 125001774866504), (0, 990286184), (0, 97111)]], 2, 2⟩, ⟨[[(0,
    22714391716691968), (0, 28068017250736709), (218283759776, 0)]], 2, 2⟩, 72057594037927936, 21762011532249,
    100730169492, ⟨[], 0, 0⟩, 0, 0, 0, lc0⟩ 0 1 11524783450))))) (.sx (.sy (.sy (.out ⟨3132, 16, 16598, 25059, 16,
    38937, ⟨[[(11484543682936832, 0), (0, 12181458399200366), (24044321834, 0)], [(87241203321314834, 0), (0,
    15866668804677), (0, 232268304)], [(0, 98828612896602), (0, 1668705943), (0, 324573)]], 2, 2⟩, ⟨[[(0,
    32679119400730624), (0, 28059526190378319), (436038696996, 0)]], 2, 2⟩, 72057594037927936, 18016420872873,
    402186003379, ⟨[], 0, 0⟩, 0, 0, 0, lc0⟩ 0 1 19222098762) (.out ⟨3144, 16, 16732, 25089, 16, 39031,
    ⟨[[(11209934728953856, 0), (0, 12276337328381868), (20169399900, 0)], [(86696479567718327, 0), (0,
    16032395934752), (0, 248373202)], [(0, 99759706331947), (0, 1734131639), (0, 338933)]], 2, 2⟩, ⟨[[(0,
    26535831675338752), (0, 28059203789999819), (435505809341, 0)]], 2, 2⟩, 72057594037927936, 18254367816092,
    401207843552, ⟨[], 0, 0⟩, 0, 0, 0, lc0⟩ 0 1 15910063109)) (.sx (.sy (.out ⟨4381, 16, 23445, 25119, 16, 39126,
    ⟨[[(11270932606615552, 0), (0, 17118947407325174), (23695214267, 0)], [(60353873118542510, 0), (0,
    11251462944356), (0, 182518676)], [(0, 35178469036456), (0, 635485480), (0, 124387)]], 2, 2⟩,
    ⟨[[(20626503328333824, 0), (0, 28059518054506329), (434984080092, 0)]], 2, 2⟩, 72057594037927936, 4535911484947,
    400242348622, ⟨[], 0, 0⟩, 0, 0, 0, lc0⟩ 0 1 15008611359) (.leaf ⟨11643, 16, 24052, 2707, 16, 12494,
    ⟨[[(5306303283986432, 0), (0, 17558843687499034), (18227035396, 0), (0, 26322577), (0, 2147)],
    [(61014961260969902, 0), (0, 11572810509508), (0, 197968615), (0, 46442), (0, 4)], [(0, 36140889640887), (0,
    672194076), (0, 132100), (0, 19)], [(9054282783, 0), (456604, 0), (72, 0)]], 3, 4⟩, ⟨[[(9747507729825792, 0), (0,
    13307753111104919), (0, 142961185445), (0, 40869140), (0, 4692)], [(0, 85171347259435319), (0, 3087198294374),
    (0, 454156021), (0, 60225), (0, 4)], [(10978755155559, 0), (0, 497720818), (0, 179760), (0, 21)], [(0,
    1550043310), (184947, 0), (62, 0)]], 3, 4⟩, 72057594037927936, 2285602938, 1787082674, ⟨[[(13117312151479, 0),
    (396122068, 0), (257498, 0), (241, 0)], [(539083227, 0), (3295, 0), (0, 63)], [(0, 50057), (8, 0)], [(6, 0)]], 3,
    4⟩, 17592186044416, 40446,
    4490202880507519538395367239160382164376777937340084457157170863360051784189565401576786140664323695433956976715037620003867247,
    lc0⟩)) (.leaf ⟨7182, 16, 14810, 1841, 16, 8525, ⟨[[(25831692967870464, 0), (0, 21825008613812201), (45728022163,
    0), (0, 131202708), (0, 21473)], [(37228252170649481, 0), (0, 14255638954326), (0, 483151951), (0, 228378), (0,
    39)], [(0, 22004687226168), (0, 791662459), (0, 312355), (0, 93)], [(5531876227, 0), (566565, 0), (180, 0)]], 3,
    4⟩, ⟨[[(0, 13649722795376640), (0, 18203966637083369), (0, 394431187539), (0, 223691387), (0, 51248)], [(0,
    57823572882898103), (0, 4183331344023), (0, 1233859326), (0, 328202), (0, 48)], [(7460108209528, 0), (0,
    649606945), (0, 476756), (0, 113)], [(0, 1035576671), (259261, 0), (171, 0)]], 3, 4⟩, 72057594037927936,
    1619841052, 1790608812, ⟨[[(13125025683100, 0), (574062360, 0), (537017, 0), (708, 0), (2, 0)], [(872054730, 0),
    (11225, 0), (0, 207), (0, 1)], [(0, 131295), (30, 0)], [(24, 0)]], 3, 4⟩, 17592186044416, 69019,
    3878731761168645609423862655956524340640519648392382613959755986628803410746981737109692634026358809173549186009267562341790849,
    lc0⟩))) (.leaf ⟨3557, 16, 7311, 916, 16, 4258, ⟨[[(0, 14851545413320704), (0, 21847204228973982), (101021698586,
    0), (0, 523655525), (0, 172448)], [(36399844015601961, 0), (0, 28139188872886), (0, 1853047128), (0, 1785932),
    (0, 610)], [(0, 42708251080315), (0, 2892414345), (0, 2293400), (0, 1377)], [(21568610055, 0), (4489540, 0),
    (2906, 0), (2, 0)]], 3, 4⟩, ⟨[[(0, 1444641875992576), (0, 18241059935443417), (0, 787247627672), (0, 889387485),
    (0, 407206)], [(0, 57288743123660763), (0, 8219284713747), (0, 4855471479), (0, 2599663), (0, 771)],
    [(14824502199020, 0), (0, 2384781074), (0, 3620545), (0, 1715), (0, 1)], [(0, 4023044877), (2118180, 0), (2753,
    0), (1, 0)]], 3, 4⟩, 72057594037927936, 14745734018, 19002514661, ⟨[[(13141387515581, 0), (1135048021, 0),
    (2076255, 0), (5215, 0), (26, 0)], [(1753929696, 0), (62410, 0), (0, 1553), (0, 7)], [(0, 532794), (227, 0), (2,
    0)], [(194, 0)]], 3, 4⟩, 17592186044416, 246307,
    4782978548354817031965093160065591006072970014397438379243796216686031807547560637527855104550153293762316436887921421656245775,
    lc0⟩))
theorem c122 : checkR job con2 false ⟨7, 9, 7, 9, 13, 17⟩ 1 34400 t122 475 7 1280 8039 39 8000 = true := by decide +kernel

def t123 : CTree :=
  .sy (.sx (.sy (.sx (.sy (.out ⟨4399, 16, 22708, 24937, 16, 38560, ⟨[[(10167996658810880, 0), (0,
    17221465120845115), (47367495645, 0)], [(59813366306155456, 0), (0, 10812965706581), (0, 131753095)], [(0,
    32427236345848), (0, 450552431), (0, 87448)]], 2, 2⟩, ⟨[[(0, 12546543735275520), (0, 28059271318728802),
    (438159111147, 0)]], 2, 2⟩, 72057594037927936, 4172033679439, 406111982775, ⟨[], 0, 0⟩, 0, 0, 0, lc0⟩ 0 1
    15292284651) (.sy (.out ⟨6376, 16, 33018, 49935, 16, 77285, ⟨[[(9748758686597120, 0), (0, 12516362857343498),
    (15748298898, 0)], [(86049708139600037, 0), (0, 7872653720216), (0, 50340994)], [(0, 47188776175514), (0,
    335100331), (0, 32686)]], 2, 2⟩, ⟨[[(0, 18597947262894080), (0, 28068000782687849), (218947702974, 0)]], 2, 2⟩,
    72057594037927936, 4325877067502, 101343676508, ⟨[], 0, 0⟩, 0, 0, 0, lc0⟩ 0 1 12521607117) (.out ⟨6388, 16,
    33151, 49965, 16, 77379, ⟨[[(15652051387088896, 0), (0, 12564391314072043), (14811437270, 0)],
    [(85779474081658459, 0), (0, 7912380118524), (0, 52210174)], [(0, 47405301571922), (0, 341617267), (0, 33429)]],
    2, 2⟩, ⟨[[(5422114166276096, 0), (0, 28067973059172510), (218814349545, 0)]], 2, 2⟩, 72057594037927936,
    4354508808947, 101220353331, ⟨[], 0, 0⟩, 0, 0, 0, lc0⟩ 0 1 10708036163))) (.leaf ⟨7039, 16, 14312, 1873, 16,
    8605, ⟨[[(0, 4842761261940736), (0, 21894676886807125), (107789482643, 0), (0, 119301639), (0, 20136)],
    [(36862648501590446, 0), (0, 13659037781450), (0, 349630036), (0, 196093), (0, 34)], [(0, 20234114989195), (0,
    555581007), (0, 217799), (0, 69)], [(5096191644, 0), (504557, 0), (164, 0)]], 3, 4⟩, ⟨[[(12973765673320448, 0),
    (0, 18431114688562035), (0, 314613482320), (0, 197390186), (0, 46679)], [(0, 56594474353598354), (0,
    3740006580490), (0, 1072566028), (0, 298468), (0, 46)], [(7482057600015, 0), (0, 412986820), (0, 382041), (0,
    90)], [(0, 1005337674), (231029, 0), (158, 0)]], 3, 4⟩, 72057594037927936, 1598161832, 1562719232,
    ⟨[[(13221080797312, 0), (585537763, 0), (537786, 0), (732, 0), (2, 0)], [(875662409, 0), (11595, 0), (0, 211),
    (0, 1)], [(0, 132682), (32, 0)], [(24, 0)]], 3, 4⟩, 17592186044416, 70045,
    4798073275710983908829731347953042503666341381530630483308928324282522465504182182060947426499048045408918606006026577360433812,
    lc0⟩)) (.leaf ⟨5732, 16, 11699, 1364, 16, 6314, ⟨[[(0, 29826174260215808), (0, 17806877241821496), (66941434635,
    0), (0, 101587671), (0, 16986)], [(58984934448156361, 0), (0, 22411979476458), (0, 643260990), (0, 336643), (0,
    58)], [(0, 66658932276592), (0, 1968209901), (0, 778572), (0, 242)], [(33692887878, 0), (3444903, 0), (1128,
    0)]], 3, 4⟩, ⟨[[(0, 9881118857740288), (0, 13542645999446843), (0, 260153279988), (0, 154207154), (0, 35865)],
    [(0, 83644575855210222), (0, 5732400185561), (0, 1670651015), (0, 457339), (0, 69)], [(21919775094848, 0), (0,
    1407604216), (0, 1195115), (0, 282)], [(0, 5857634419), (1473795, 0), (976, 0)]], 3, 4⟩, 72057594037927936,
    18081481142, 12434492791, ⟨[[(13189432118688, 0), (777327574, 0), (954455, 0), (1662, 0), (5, 0)], [(1079768505,
    0), (26096, 0), (0, 441), (0, 2)], [(0, 202145), (60, 0)], [(45, 0)]], 3, 4⟩, 17592186044416, 103577,
    3666238312254242264276988971972250022035974685625050918797327671735792556039299260748778268460577337515850428531340621953500571,
    lc0⟩)) (.leaf ⟨3500, 16, 7117, 919, 16, 4282, ⟨[[(0, 29014747440087040), (0, 22053647362058883), (170500504475,
    0), (0, 504192345), (0, 169586)], [(35291998917758519, 0), (0, 27271721569180), (0, 1520271731), (0, 1626174),
    (0, 561)], [(0, 39653290699821), (0, 2147845695), (0, 1711429), (0, 1087)], [(20165249896, 0), (4213008, 0),
    (2818, 0), (2, 0)]], 3, 4⟩, ⟨[[(0, 3322053685280768), (0, 18448762244800935), (0, 719705650415), (0, 840889694),
    (0, 389476)], [(0, 56160872296398821), (0, 7650025304312), (0, 4475301363), (0, 2464078), (0, 752)],
    [(14736780765623, 0), (0, 1701325649), (0, 3043624), (0, 1430), (0, 1)], [(0, 3832697439), (2061576, 0), (2675,
    0), (1, 0)]], 3, 4⟩, 72057594037927936, 14497105694, 17525279573, ⟨[[(13205534914494, 0), (1122824664, 0),
    (1965713, 0), (4662, 0), (22, 0)], [(1760383232, 0), (87064, 0), (0, 1402), (0, 7)], [(0, 539807), (213, 0), (2,
    0)], [(198, 0)]], 3, 4⟩, 17592186044416, 250893,
    3825282123091454814494431650075865158065265181717179850591184600217659553322653626708518587465542999386545397921132633237410968,
    lc0⟩)) (.leaf ⟨2879, 16, 5900, 660, 16, 3127, ⟨[[(0, 21908837215862784), (0, 18108634603299180), (49327174391,
    0), (0, 453336308), (0, 149658)], [(55900246253528594, 0), (0, 45603139669929), (0, 3139887131), (0, 2972466),
    (0, 1014)], [(0, 133514797635942), (0, 8399054551), (0, 6783263), (0, 4117), (0, 1)], [(136826122640, 0),
    (30541492, 0), (20582, 0), (11, 0)]], 3, 4⟩, ⟨[[(34919808296697856, 0), (0, 13523427752262070), (0,
    654175490184), (0, 693788236), (0, 311135)], [(0, 83236810480140562), (0, 12215004008921), (0, 7349418020), (0,
    3921307), (0, 1170)], [(42830423002566, 0), (0, 6586744951), (0, 10108712), (0, 4772), (0, 2)], [(0,
    21905506691), (14109693, 0), (17250, 0), (9, 0)]], 3, 4⟩, 72057594037927936, 143736319361, 108351748718,
    ⟨[[(13140739805505, 0), (1455139448, 0), (3402338, 0), (9126, 0), (66, 0)], [(2157616183, 0), (192534, 0), (0,
    2826), (0, 12)], [(0, 813902), (346, 0), (4, 0)], [(367, 0)]], 3, 4⟩, 17592186044416, 650287,
    3931852432310714358889254105105711611376559929053445750282120932234457746892011576174719900358405047152022723786811553960989663,
    lc0⟩)
theorem c123 : checkR job con2 false ⟨7, 9, 7, 9, 13, 17⟩ 1 34400 t123 489 7 1280 8039 39 8000 = true := by decide +kernel

def t124 : CTree :=
  .sx (.leaf ⟨1785, 16, 3710, 438, 16, 2090, ⟨[[(19313617563303936, 0), (0, 21968550360185859), (0, 162317958047),
    (0, 2415648713), (0, 1545237)], [(34187819308293737, 0), (0, 58053984876492), (0, 10118516217), (0, 16802282),
    (0, 11265)], [(0, 88391342984919), (0, 14604827858), (0, 23458055), (0, 26788), (0, 18)], [(90338065003, 0),
    (41649149, 0), (54912, 0), (57, 0)]], 3, 4⟩, ⟨[[(0, 16957596309069824), (0, 18061372730503115), (0,
    2147915100484), (0, 4218513627), (0, 3666139)], [(0, 57452553589163310), (0, 18496057367394), (0, 22670004417),
    (0, 23182000), (0, 13307)], [(28611494952953, 0), (0, 13211927654), (0, 34119896), (0, 32443), (0, 23)], [(0,
    15118631687), (21251038, 0), (50351, 0), (50, 0)]], 3, 4⟩, 72057594037927936, 150815009852, 257473547027,
    ⟨[[(13045700100259, 0), (2117958948, 0), (7607341, 0), (27915, 0), (330, 0)], [(3537213520, 0), (461177, 0), (0,
    10980), (0, 51), (0, 1)], [(0, 2178757), (1118, 0), (33, 0)], [(1585, 0), (1, 0)]], 3, 4⟩, 17592186044416,
    3667245,
    4499552958134366601051753219189414905548637556522152114094356739752262844906537356051743573794602561022525954699314178136879533,
    lc0⟩) (.leaf ⟨1768, 16, 3660, 425, 16, 2080, ⟨[[(0, 34097571675144192), (0, 22476989336511147), (0,
    304262589998), (0, 2620173836), (0, 1683365)], [(31337503561316009, 0), (0, 57650182074123), (0, 10596834165),
    (0, 17281082), (0, 11586)], [(0, 83495892413279), (0, 12610997841), (0, 20713733), (0, 23898), (0, 16)],
    [(87281334335, 0), (44454449, 0), (61387, 0), (64, 0)]], 3, 4⟩, ⟨[[(0, 26084683245666304), (0,
    18235177144004332), (0, 2460014235195), (0, 4527512966), (0, 3838489)], [(0, 56388870954343607), (0,
    18762582692459), (0, 23481932376), (0, 23944944), (0, 13877)], [(27879727263313, 0), (0, 12185652404), (0,
    31754050), (0, 30101), (0, 22)], [(0, 13306203352), (24640467, 0), (54674, 0), (54, 0)]], 3, 4⟩,
    72057594037927936, 152511537957, 255384718206, ⟨[[(13048520306549, 0), (1974128503, 0), (6894530, 0), (16149, 0),
    (219, 0)], [(3547654129, 0), (708701, 0), (0, 9886), (0, 6), (0, 1)], [(0, 2213096), (476, 0), (33, 0)], [(1597,
    0), (3, 0)]], 3, 4⟩, 17592186044416, 2930031,
    2775160075873786262920315530576238837174470273608595135945990757359516852506538876419384527950890938792074331683126589540866959,
    lc0⟩)
theorem c124 : checkR job con2 false ⟨7, 9, 7, 9, 13, 17⟩ 1 34400 t124 241 7 640 8117 39 8000 = true := by decide +kernel

def t125 : CTree :=
  .sx (.sy (.sx (.sy (.sx (.sy (.out ⟨2156, 16, 12309, 12712, 16, 20051, ⟨[[(4983304689582080, 0), (0,
    16719154280948467), (0, 34477542919)], [(61757575484660526, 0), (0, 24036369107173), (0, 1122967868)], [(0,
    81362746678486), (0, 4376185447), (0, 1696528)]], 2, 2⟩, ⟨[[(0, 32110397578674176), (0, 28042862719669396),
    (858551349223, 0)]], 2, 2⟩, 72057594037927936, 20732306635797, 1561071853446, ⟨[], 0, 0⟩, 0, 0, 0, lc0⟩ 0 1
    25076083343) (.sy (.out ⟨3104, 16, 17831, 25484, 16, 40270, ⟨[[(0, 25347703685611520), (0, 12113572802418229),
    (0, 19739616904)], [(87420306301491675, 0), (0, 17508210513028), (0, 435292070)], [(0, 118242683629520), (0,
    3316970365), (0, 644483)]], 2, 2⟩, ⟨[[(0, 2018401002192896), (0, 28059742188798700), (428766135244, 0)]], 2, 2⟩,
    72057594037927936, 21391112854417, 388875024753, ⟨[], 0, 0⟩, 0, 0, 0, lc0⟩ 0 1 21522030649) (.out ⟨3117, 16,
    17985, 25514, 16, 40366, ⟨[[(16264599263543296, 0), (0, 12221689772759616), (0, 24934839002)],
    [(86795178191248018, 0), (0, 17729457198693), (0, 458911307)], [(0, 119528858797662), (0, 3448648519), (0,
    670947)]], 2, 2⟩, ⟨[[(22592112838311936, 0), (0, 28059706756559445), (428255166383, 0)]], 2, 2⟩,
    72057594037927936, 21686739572550, 387948962700, ⟨[], 0, 0⟩, 0, 0, 0, lc0⟩ 0 1 19896478972))) (.leaf ⟨3701, 16,
    7818, 883, 16, 4163, ⟨[[(0, 14566201101910016), (0, 21672413183812555), (0, 163979448937), (0, 616018264), (0,
    189300)], [(37193443750751840, 0), (0, 30804421050672), (0, 3108714590), (0, 2368258), (0, 779)], [(0,
    50719812098268), (0, 5511781853), (0, 4319564), (0, 2352), (0, 1)], [(25292789548, 0), (5348986, 0), (3264, 0),
    (2, 0)]], 3, 4⟩, ⟨[[(0, 21782320564625408), (0, 17773135949056804), (0, 1160411615758), (0, 1124472361), (0,
    482969)], [(0, 59757873781535561), (0, 10204359983124), (0, 6210647670), (0, 3047517), (0, 829)],
    [(14371824384532, 0), (0, 4803530124), (0, 5518395), (0, 2638), (0, 1)], [(0, 4379081462), (2399896, 0), (3028,
    0), (2, 0)]], 3, 4⟩, 72057594037927936, 14355099773, 24189575853, ⟨[[(12953723101937, 0), (1100805601, 0),
    (2139133, 0), (4812, 0), (28, 0)], [(1740661638, 0), (61124, 0), (0, 1711), (0, 5)], [(0, 521038), (157, 0), (3,
    0)], [(182, 0)]], 3, 4⟩, 17592186044416, 269207,
    4723221080159452211527703923563793760219249256642272777269148443463749772537607423957703239411053321233480574907976985155587821,
    lc0⟩)) (.leaf ⟨3010, 16, 6406, 622, 16, 2979, ⟨[[(26464051565723648, 0), (0, 17609184615667761), (0,
    237303763372), (0, 540073434), (0, 162251)], [(58161858865175067, 0), (0, 51205457083345), (0, 5937407748), (0,
    4237384), (0, 1376)], [(0, 169511148252238), (0, 20818676875), (0, 16306692), (0, 8685), (0, 3)], [(169373690580,
    0), (37408684, 0), (22972, 0), (12, 0)]], 3, 4⟩, ⟨[[(1849825328136192, 0), (0, 12807117071033031), (0,
    997066800253), (0, 901157756), (0, 374642)], [(0, 87000210379233920), (0, 15957686026174), (0, 9829039786), (0,
    4684284), (0, 1242)], [(40220819721308, 0), (0, 16525489292), (0, 17865925), (0, 8544), (0, 3)], [(0,
    24828451541), (15547519, 0), (18750, 0), (9, 0)]], 3, 4⟩, 72057594037927936, 134239364381, 180777231783,
    ⟨[[(12890633936704, 0), (1455342809, 0), (3934792, 0), (9522, 0), (90, 0)], [(2158562423, 0), (173672, 0), (0,
    4071), (0, 8)], [(0, 800766), (126, 0), (9, 0)], [(331, 0), (1, 0)]], 3, 4⟩, 17592186044416, 902369,
    4021616861205287869854933990335895511811172338361069565841428432597911065612410193944478456397040612028088389808380892722476811,
    lc0⟩)) (.leaf ⟨1825, 16, 3857, 421, 16, 2048, ⟨[[(1215276564725760, 0), (0, 22045588348522171), (0,
    613829534447), (0, 2760896467), (0, 1689209)], [(33430544731677385, 0), (0, 61760055668131), (0, 14135408283),
    (0, 20477123), (0, 13398)], [(0, 97377484347113), (0, 21668761512), (0, 34478147), (0, 37224), (0, 25)],
    [(99351385354, 0), (48259142, 0), (62601, 0), (64, 0)]], 3, 4⟩, ⟨[[(0, 5959314964176896), (0, 17804704623747420),
    (0, 2827877444228), (0, 4996578502), (0, 4127794)], [(0, 58616725910163941), (0, 21487548988015), (0,
    26823494032), (0, 25927560), (0, 14124)], [(27393216697143, 0), (0, 19929136012), (0, 44259515), (0, 42267), (0,
    30)], [(0, 15066787896), (24732874, 0), (55808, 0), (55, 0)]], 3, 4⟩, 72057594037927936, 148116173610,
    290217843427, ⟨[[(12922140572643, 0), (2017915216, 0), (7672848, 0), (19861, 0), (295, 0)], [(3526273315, 0),
    (604311, 0), (0, 12614), (0, 9), (0, 1)], [(0, 2154214), (106, 0), (46, 0)], [(1459, 0), (6, 0)]], 3, 4⟩,
    17592186044416, 3669370,
    2047059246059771254139115094343205846393272739552244387372192392123351539721657716404368448406625201382483752472352620740268231,
    lc0⟩)) (.leaf ⟨1516, 16, 3251, 287, 16, 1441, ⟨[[(0, 20935828465467392), (0, 18329242780049897), (0,
    1003704837780), (0, 2660236743), (0, 1557515)], [(50442207056869568, 0), (0, 107835314461964), (0, 31721413643),
    (0, 41137727), (0, 26280)], [(0, 342132116064670), (0, 97721664498), (0, 154277644), (0, 159889), (0, 106)],
    [(702364284690, 0), (375857328, 0), (490948, 0), (492, 0)]], 3, 4⟩, ⟨[[(0, 32065963040477184), (0,
    12780015434744827), (0, 2762321523947), (0, 4358501018), (0, 3385489)], [(0, 85599353952695680), (0,
    36279277918921), (0, 45937500355), (0, 42046515), (0, 21821)], [(72700125529638, 0), (0, 79811508799), (0,
    159783905), (0, 152681), (0, 109)], [(0, 79758010992), (176341967, 0), (370446, 0), (360, 0)]], 3, 4⟩,
    72057594037927936, 990260640518, 1693623739325, ⟨[[(12802586513634, 0), (2556635914, 0), (15216116, 0), (20528,
    0), (713, 0)], [(4309490018, 0), (1731161, 0), (0, 38976), (133, 0), (0, 2)], [(0, 3169673), (0, 4516), (193, 0),
    (0, 1)], [(2128, 0), (41, 0), (0, 1)]], 3, 4⟩, 17592186044416, 16525763,
    2027642376787534346815398888977017300435749853422931654883760392539853013111024508350667762709974249478619185379764920670904955,
    lc0⟩)) (.sy (.leaf ⟨1487, 16, 3126, 293, 16, 1484, ⟨[[(0, 32201805621264384), (0, 18925908346680537), (0,
    749901971924), (0, 2598950862), (0, 1605652)], [(47771009730000183, 0), (0, 101476093595706), (0, 25114933924),
    (0, 35578354), (0, 23312)], [(0, 295653677227452), (0, 59607691862), (0, 97447104), (0, 106069), (0, 71)],
    [(628015106998, 0), (362118076, 0), (502571, 0), (510, 0)]], 3, 4⟩, ⟨[[(0, 18564889618456576), (0,
    13234617761860411), (0, 2471026548241), (0, 4028224732), (0, 3215405)], [(0, 83307864575915447), (0,
    32301147487780), (0, 41453883873), (0, 40036337), (0, 22243)], [(76947767217423, 0), (0, 52596215270), (0,
    117223701), (0, 111675), (0, 81)], [(0, 68618067007), (183528747, 0), (377008, 0), (368, 0)]], 3, 4⟩,
    72057594037927936, 1085407975772, 1258138329485, ⟨[[(12924576913560, 0), (2462448145, 0), (13230028, 0), (16480,
    0), (479, 0)], [(4283141046, 0), (1713295, 0), (0, 29367), (102, 0), (0, 1)], [(0, 3203766), (0, 2519), (139, 0),
    (0, 1)], [(2470, 0), (27, 0), (0, 1)]], 3, 4⟩, 17592186044416, 11882417,
    1512406265862410121798871008567796613810032463485526059751717241061213669173919854193415893495054093122558507282459894599735199,
    lc0⟩) (.leaf ⟨1531, 16, 3265, 268, 16, 1431, ⟨[[(12343981915045888, 0), (0, 19942505589642719), (0,
    1482934691256), (0, 3280102417), (0, 1953634)], [(41449933505033298, 0), (0, 110807093104583), (0, 35872232389),
    (0, 45487613), (0, 29162)], [(0, 314330939053098), (0, 80305626876), (0, 130593012), (0, 136336), (0, 90)],
    [(688901697651, 0), (470549008, 0), (663644, 0), (657, 0)]], 3, 4⟩, ⟨[[(17615328314765312, 0), (0,
    13210717976939069), (0, 3411839947309), (0, 4941499476), (0, 3685893)], [(0, 83024426351988901), (0,
    38130166511714), (0, 49826970838), (0, 45773395), (0, 24549)], [(69501811239514, 0), (0, 70473378396), (0,
    141298790), (0, 134861), (0, 97)], [(0, 49974075755), (240640108, 0), (455925, 0), (438, 0)]], 3, 4⟩,
    72057594037927936, 922922692437, 1428776080041, ⟨[[(12798989244379, 0), (2083967975, 0), (14774607, 0), (0,
    1621), (66, 0)], [(4198671314, 0), (3027515, 0), (0, 43817), (137, 0), (1, 0)], [(0, 2973449), (0, 10140), (209,
    0)], [(1361, 0), (61, 0), (0, 1)]], 3, 4⟩, 17592186044416, 9162603,
    4168350268673504583385383605392450007442953169164464408838461048580543385959718464951423346600003432997222235335039205064564878,
    lc0⟩))
theorem c125 : checkR job con2 false ⟨7, 9, 7, 9, 13, 17⟩ 1 34400 t125 117 7 320 4117 39 4000 = true := by decide +kernel

def t126 : CTree :=
  .sx (.sy (.sx (.sx (.leaf ⟨1729, 16, 3518, 441, 16, 2118, ⟨[[(0, 14636952833572864), (0, 22361579858677123),
    (144585960935, 0), (0, 2245165429), (0, 1499672)], [(32212823836175717, 0), (0, 54350152768191), (0, 7074652817),
    (0, 13933968), (0, 9556)], [(0, 76064506625711), (0, 7910000661), (0, 13012099), (0, 16461), (0, 11)],
    [(78984703279, 0), (36710048, 0), (51301, 0), (54, 0)]], 3, 4⟩, ⟨[[(35932194299703296, 0), (0,
    18477237242564782), (0, 1826722488676), (0, 3791497882), (0, 3378243)], [(0, 55255028423249353), (0,
    16004419695594), (0, 19396501341), (0, 20934177), (0, 12702)], [(28565660003380, 0), (0, 7100049088), (0,
    23996514), (0, 22497), (0, 16)], [(0, 13793581552), (19913226, 0), (47316, 0), (47, 0)]], 3, 4⟩,
    72057594037927936, 149083613175, 228512714707, ⟨[[(13172286550906, 0), (2069295118, 0), (6836693, 0), (22038, 0),
    (244, 0)], [(3559389212, 0), (622732, 0), (0, 8777), (0, 38), (0, 1)], [(0, 2234044), (1115, 0), (23, 0)],
    [(1665, 0)]], 3, 4⟩, 17592186044416, 2480979,
    4943496270226554705373535018487535864190587308059169912338529904092612489613511208441978885844719263839470119910314956787781891,
    lc0⟩) (.leaf ⟨1712, 16, 3472, 429, 16, 2111, ⟨[[(12056416721616896, 0), (0, 22821570704454147), (42570587823, 0),
    (0, 2411366975), (0, 1614114)], [(29735139283051182, 0), (0, 53836378535021), (0, 7311002501), (0, 14174164), (0,
    9711)], [(0, 71834439433033), (0, 6243020682), (0, 10614442), (0, 13892), (0, 9)], [(76127345689, 0), (38198307,
    0), (55380, 0), (58, 0)]], 3, 4⟩, ⟨[[(30009909695971328, 0), (0, 18640822182093253), (0, 2095895070967), (0,
    4075339987), (0, 3547442)], [(0, 54283043030985646), (0, 16137544016764), (0, 19973780980), (0, 21464478), (0,
    13099)], [(27921071407213, 0), (0, 6194779917), (0, 21876566), (0, 20380), (0, 15)], [(0, 12469921846),
    (22091727, 0), (49939, 0), (50, 0)]], 3, 4⟩, 72057594037927936, 150680130744, 228830751798, ⟨[[(13171249959334,
    0), (1941990539, 0), (6278580, 0), (13526, 0), (166, 0)], [(3573243210, 0), (820565, 0), (0, 8048), (0, 5), (0,
    1)], [(0, 2274314), (664, 0), (23, 0)], [(1694, 0), (2, 0)]], 3, 4⟩, 17592186044416, 2591277,
    4033839024160062185711806574153837164244565101381439318122720639843546154391827994683370924267929252712137846281571585264152638,
    lc0⟩)) (.leaf ⟨1420, 16, 2865, 307, 16, 1568, ⟨[[(0, 26665463037394944), (0, 19766624959300375), (0,
    94988211292), (0, 2240009832), (0, 1503213)], [(44258359327281847, 0), (0, 89195972742699), (0, 12675675518), (0,
    24222937), (0, 16568)], [(0, 221550180253780), (0, 12382659775), (0, 22837753), (0, 33038), (0, 21)],
    [(485054822098, 0), (269519325, 0), (407858, 0), (427, 0)]], 3, 4⟩, ⟨[[(24165089513644032, 0), (0,
    14099544361173839), (0, 1875153540090), (0, 3368200406), (0, 2843940)], [(0, 78921539602913920), (0,
    24314306412372), (0, 30936533594), (0, 33057919), (0, 20324)], [(80786159452478, 0), (0, 13997405180), (0,
    55321265), (0, 50908), (0, 38)], [(0, 63932445540), (147948839, 0), (316680, 0), (315, 0)]], 3, 4⟩,
    72057594037927936, 1096530320554, 730982187700, ⟨[[(13173610339520, 0), (2372623184, 0), (10457615, 0), (14673,
    0), (272, 0)], [(4263863569, 0), (1754891, 0), (0, 17610), (52, 0), (0, 1)], [(0, 3283088), (0, 30), (66, 0)],
    [(2859, 0), (10, 0)]], 3, 4⟩, 17592186044416, 6421231,
    3967350662444304735058189132088582563967978951194330072050437100294781333457125241990846648767214726258119531192283044399518159,
    lc0⟩)) (.leaf ⟨1102, 16, 2265, 192, 16, 1004, ⟨[[(29641883077640192, 0), (0, 15166961777624504), (0,
    431781096527), (0, 2012123034), (0, 1303584)], [(63885691460578770, 0), (0, 144464778770904), (0, 29211365208),
    (0, 46289338), (0, 31015)], [(0, 738290543121863), (0, 74621528354), (0, 132672061), (0, 161966), (0, 107)],
    [(3284400209060, 0), (2058301030, 0), (3067104, 0), (3146, 0), (2, 0)]], 3, 4⟩, ⟨[[(0, 1865388861884416), (0,
    9125614698282457), (0, 1601732420734), (0, 2606558161), (0, 2099388)], [(0, 105190953064966235), (0,
    37680392377649), (0, 49218892839), (0, 49895068), (0, 29473)], [(206092463795587, 0), (0, 71139143695), (0,
    197072820), (0, 185040), (0, 136)], [(0, 296294192386), (976569313, 0), (1962778, 0), (1925, 0), (1, 0)]], 3, 4⟩,
    72057594037927936, 12473374652292, 7957107742753, ⟨[[(13044061871961, 0), (3391427533, 0), (26253379, 0), (25291,
    0), (975, 0)], [(5599998021, 0), (4159130, 0), (0, 72597), (402, 0)], [(0, 5603509), (0, 6419), (416, 0), (0,
    2)], [(5881, 0), (81, 0), (0, 2)]], 3, 4⟩, 17592186044416, 48949977,
    4551013958328603109857585247875579440140746118936329989643567134380675686116809509966643264547856584703880837252100340953638927,
    lc0⟩)) (.sy (.sx (.leaf ⟨1419, 16, 2848, 293, 16, 1570, ⟨[[(12487197469114368, 0), (0, 20892333693908844), (0,
    274133966367), (0, 2569064737), (0, 1728158)], [(38108236679086263, 0), (0, 88849945629208), (0, 12988064568),
    (0, 24739441), (0, 16877)], [(0, 200457726080328), (0, 649670770), (0, 4658155), (0, 13996), (0, 8)],
    [(459735216148, 0), (286372119, 0), (451923, 0), (471, 0)]], 3, 4⟩, ⟨[[(0, 29405246043815936), (0,
    14460690823096158), (0, 2321181534589), (0, 3845010391), (0, 3139272)], [(0, 76792589760162551), (0,
    24647097230753), (0, 32336492834), (0, 34338317), (0, 21278)], [(78449093027001, 0), (0, 7424809511), (0,
    41659036), (0, 37357), (0, 28)], [(0, 52570509089), (164646139, 0), (335339, 0), (332, 0)]], 3, 4⟩,
    72057594037927936, 1060700799951, 629822985900, ⟨[[(13173088065674, 0), (2092938552, 0), (9897173, 0), (5611, 0),
    (78, 0)], [(4211432089, 0), (2280499, 0), (0, 19224), (59, 0)], [(0, 3247523), (0, 1737), (72, 0)], [(2655, 0),
    (18, 0)]], 3, 4⟩, 17592186044416, 4131342,
    3550810465752465594593753664639073474776744571013404377997984789532389712497506609762513402153828725047694103739311425776979645,
    lc0⟩) (.leaf ⟨1413, 16, 2822, 278, 16, 1572, ⟨[[(2207891442089984, 0), (0, 21933484268130941), (0, 451454040094),
    (0, 2890214006), (0, 1947105)], [(32462336664074080, 0), (0, 87887246576896), (0, 12728079128), (0, 24620402),
    (0, 16742)], [(0, 179953395194344), (11557534345, 0), (14958473, 0), (6477, 0), (7, 0)], [(433761197359, 0),
    (296241495, 0), (482332, 0), (500, 0)]], 3, 4⟩, ⟨[[(17108727770169344, 0), (0, 14825607344612729), (0,
    2784671978893), (0, 4337669833), (0, 3446491)], [(0, 74720078414459383), (0, 24787369461552), (0, 33345902192),
    (0, 35232062), (0, 21966)], [(76539642912617, 0), (0, 268521541), (0, 27378738), (0, 23252), (0, 19)], [(0,
    43398032609), (175434264, 0), (345421, 0), (340, 0)]], 3, 4⟩, 72057594037927936, 1037347844998, 540256957091,
    ⟨[[(13172391191862, 0), (1810221766, 0), (9521083, 0), (4568, 0), (0, 21)], [(4165096426, 0), (2876138, 0), (0,
    20403), (27, 0), (1, 0)], [(0, 3212979), (0, 3581), (73, 0)], [(2368, 0), (26, 0)]], 3, 4⟩, 17592186044416,
    2616534,
    4041719737953680526851992113387819523993123934666399380696160684420112815482228544970813464590288498922325355925042506708011815,
    lc0⟩)) (.leaf ⟨1174, 16, 2389, 175, 16, 1020, ⟨[[(0, 9578850869264384), (0, 18139710172518843), (0,
    904702689245), (0, 2829586514), (0, 1848273)], [(47561428733368878, 0), (0, 153221425278708), (0, 32654443414),
    (0, 51487982), (0, 34399)], [(0, 639077795856210), (20647522248, 0), (13719103, 0), (0, 14144), (0, 4)],
    [(3185620897044, 0), (2526625662, 0), (4018209, 0), (4080, 0), (3, 0)]], 3, 4⟩, ⟨[[(0, 12262997976729600), (0,
    9818242923405809), (0, 2360862471434), (0, 3389046609), (0, 2575414)], [(0, 101152534313911168), (0,
    39672739237883), (0, 54378759606), (0, 54751153), (0, 33003)], [(199757275029847, 0), (0, 25710209069), (0,
    110675572), (0, 100589), (0, 79)], [(0, 167048657853), (1197836215, 0), (2230210, 0), (2169, 0), (1, 0)]], 3, 4⟩,
    72057594037927936, 12574123858571, 5151821724251, ⟨[[(13047279205523, 0), (2411938495, 0), (23741335, 0), (20983,
    0), (0, 399)], [(5092083587, 0), (6452073, 0), (0, 71020), (0, 7), (6, 0)], [(0, 4660098), (0, 16887), (337, 0),
    (1, 0)], [(3180, 0), (123, 0), (0, 2)]], 3, 4⟩, 17592186044416, 12185968,
    4460247687198997783794422532673928841737928547968924559679298916800526786501895464424495427255512123674031376143846852938174161,
    lc0⟩))
theorem c126 : checkR job con2 false ⟨7, 9, 7, 9, 13, 17⟩ 1 34400 t126 69 7 160 4039 39 4000 = true := by decide +kernel

def t127 : CTree :=
  .sx (.leaf ⟨1162, 16, 2424, 176, 16, 971, ⟨[[(12609845604368384, 0), (0, 16345814780042506), (0, 1019864201569),
    (0, 2626969815), (0, 1646183)], [(56096130656258834, 0), (0, 160453126750524), (0, 44144760646), (0, 60922949),
    (0, 39972)], [(0, 797297133952442), (0, 105401749719), (0, 187017884), (0, 212933), (0, 141)], [(3708435919492,
    0), (2780938413, 0), (4161013, 0), (4169, 0), (3, 0)]], 3, 4⟩, ⟨[[(0, 2721672028221440), (0, 9117375612243957),
    (0, 2217829050785), (0, 3215711257), (0, 2431208)], [(0, 104889541611128521), (0, 44804619490027), (0,
    59987273411), (0, 57847281), (0, 33082)], [(192702411799252, 0), (0, 102065736500), (0, 237680407), (0, 225240),
    (0, 166)], [(0, 200405145876), (1277122146, 0), (2383656, 0), (2302, 0), (2, 0)]], 3, 4⟩, 72057594037927936,
    11799339914426, 8918276265043, ⟨[[(12921202408166, 0), (2867030178, 0), (29206543, 0), (5702, 0), (0, 211)],
    [(5356589100, 0), (6129982, 0), (0, 100621), (299, 0), (9, 0)], [(0, 4992983), (0, 20905), (576, 0), (0, 1)],
    [(3496, 0), (161, 0), (0, 3)]], 3, 4⟩, 17592186044416, 34650738,
    4100042619107055236521836726440620729269453715250237292848290797998981784588022408174317686233362867771472412020834338913710380,
    lc0⟩) (.sy (.sx (.leaf ⟨2504, 16, 5170, 337, 16, 2002, ⟨[[(6101278713544704, 0), (0, 19178559762224030), (0,
    699268117188), (0, 833496226), (0, 265614)], [(46597216055572123, 0), (0, 85288325545428), (0, 11452171994), (0,
    8095318), (0, 2667)], [(0, 364281229811562), (0, 2534340378), (0, 5172832), (0, 4377), (0, 1)], [(923204364642,
    0), (399133118, 0), (311497, 0), (156, 0)]], 3, 4⟩, ⟨[[(15248685342359552, 0), (0, 9783064217314127), (0,
    1367174511606), (0, 936005647), (0, 344965)], [(0, 103102453030562981), (0, 22714893132640), (0, 15624876787),
    (0, 7606915), (0, 2234)], [(97618047840589, 0), (0, 13522395104), (0, 19332048), (0, 9042), (0, 3)], [(0,
    29225286990), (176794925, 0), (159437, 0), (77, 0)]], 3, 4⟩, 72057594037927936, 1548652009945, 728107932498,
    ⟨[[(12952411390140, 0), (1086532096, 0), (6438320, 0), (3780, 0), (0, 39)], [(2415779561, 0), (1811648, 0), (0,
    9982), (0, 8)], [(0, 1008335), (0, 2953), (24, 0)], [(193, 0), (9, 0)]], 3, 4⟩, 17592186044416, 729104,
    2108149342983664160396123842695141191313384328083300937445378640252356058371563317248319212325466052815258012351365540109711556,
    lc0⟩) (.sy (.leaf ⟨4046, 16, 8308, 395, 16, 2473, ⟨[[(0, 11807072877707264), (0, 16342432662647979), (0,
    323406229765), (0, 185576818), (0, 29795)], [(62010899842326555, 0), (0, 68042092644389), (0, 4394902665), (0,
    1590442), (0, 262)], [(0, 524720546367358), (11568847280, 0), (3331826, 0), (471, 0)], [(1413639401666, 0),
    (328065226, 0), (130722, 0), (33, 0)]], 3, 4⟩, ⟨[[(35676385941721088, 0), (0, 6202529341345911), (0,
    472194320525), (0, 156721688), (0, 28471)], [(0, 123453864308844983), (0, 13816220579876), (0, 4823548266), (0,
    1179005), (0, 175)], [(119580451268914, 0), (0, 3342947191), (0, 3766973), (0, 863)], [(0, 23367824485),
    (110707951, 0), (49188, 0), (12, 0)]], 3, 4⟩, 72057594037927936, 2554460237027, 655045169570, ⟨[[(12968246828818,
    0), (726752026, 0), (3964250, 0), (3320, 0), (0, 16)], [(1465781609, 0), (1031353, 0), (0, 3517), (0, 7)], [(0,
    367466), (0, 1027), (5, 0)], [(17, 0), (2, 0)]], 3, 4⟩, 17592186044416, 164427,
    2430785233583168577662804733550984117888070472448267740459697854054025069276343399600195039266623551789308617957503057417879275,
    lc0⟩) (.sx (.leaf ⟨5239, 16, 10813, 643, 16, 4026, ⟨[[(0, 2750674203443200), (0, 21026709881140191), (0,
    457065912977), (0, 246260035), (0, 39217)], [(39303064943612562, 0), (0, 44791127799069), (0, 3120934234), (0,
    1090971), (0, 179)], [(0, 175377217328143), (2750175607, 0), (651212, 0), (46, 0)], [(236607959616, 0),
    (56155821, 0), (22201, 0), (6, 0)]], 3, 4⟩, ⟨[[(0, 18392024482275328), (0, 10139225036752318), (0, 801133099506),
    (0, 262902015), (0, 47357)], [(0, 102072118494989147), (0, 11850551617731), (0, 4131965309), (0, 999483), (0,
    147)], [(48622928464824, 0), (0, 2110913962), (0, 1839870), (0, 428)], [(0, 3725201732), (23918262, 0), (10541,
    0), (3, 0)]], 3, 4⟩, 72057594037927936, 201642905093, 72812357732, ⟨[[(12937730538236, 0), (432858967, 0),
    (1523863, 0), (805, 0), (0, 2)], [(1137882966, 0), (508151, 0), (0, 1077), (0, 1)], [(0, 217311), (0, 419), (1,
    0)], [(2, 0), (1, 0)]], 3, 4⟩, 17592186044416, 110218,
    3389997673263054925534553534614087203909681279417105910888726633274186728901010011544182100969641796559798998073651841253884316,
    lc0⟩) (.sy (.leaf ⟨8574, 16, 17652, 770, 16, 4952, ⟨[[(0, 17244079481290752), (0, 17658420964869054), (0,
    198087710275), (0, 52703053), (0, 4212)], [(57791119071132462, 0), (0, 36372945940230), (0, 1235118420), (0,
    218869), (0, 18)], [(0, 270399375618200), (4140594159, 0), (645448, 0), (57, 0)], [(376790222782, 0), (46083052,
    0), (9193, 0), (1, 0)]], 3, 4⟩, ⟨[[(0, 16308561953415168), (0, 6317478870784451), (0, 259291744850), (0,
    41994873), (0, 3760)], [(0, 123593575710393472), (0, 7216280858097), (0, 1266450601), (0, 153499), (0, 11)],
    [(59679935326364, 0), (0, 641737900), (0, 423317), (0, 49)], [(0, 3291394639), (14698697, 0), (3221, 0)]], 3, 4⟩,
    72057594037927936, 336764308474, 75296389857, ⟨[[(12945604324761, 0), (316172921, 0), (968814, 0), (508, 0), (0,
    1)], [(688174514, 0), (264870, 0), (0, 394), (0, 1)], [(0, 78857), (0, 131)], [(0, 1)]], 3, 4⟩, 17592186044416,
    63398,
    3801588558172643430803986017824285084520850463465160338356151314181044186382139028001830510326331318071946845322601832450208485,
    lc0⟩) (.out ⟨3285, 16, 17601, 25514, 16, 40366, ⟨[[(0, 13331163836710912), (0, 17639181986286041), (0,
    209966670082)], [(54787659618385079, 0), (0, 36463996823933), (0, 1283276790)], [(0, 269292164372597),
    (4230071265, 0), (656995, 0)]], 2, 2⟩, ⟨[[(22592112838311936, 0), (0, 28059706756559445), (428255166383, 0)]], 2,
    2⟩, 72057594037927936, 134545336581204, 387948962700, ⟨[], 0, 0⟩, 0, 0, 0, lc0⟩ 3 1 2250))))) (.sx (.sy (.leaf
    ⟨3987, 16, 8283, 393, 16, 2393, ⟨[[(0, 10016024141627392), (0, 15435817116394309), (0, 340899536664), (0,
    179768201), (0, 28321)], [(66595647534756334, 0), (0, 69463061393901), (0, 5178464941), (0, 1750683), (0, 286)],
    [(0, 583892355557949), (0, 2551871505), (0, 2390973), (0, 943)], [(1518258689089, 0), (350242456, 0), (136167,
    0), (34, 0)]], 3, 4⟩, ⟨[[(35759962603053056, 0), (0, 5948382514609171), (0, 459798571653), (0, 152311079), (0,
    27487)], [(0, 124892960078852590), (0, 14715944086275), (0, 5082032876), (0, 1216971), (0, 177)],
    [(115656459583368, 0), (0, 9490669730), (0, 6273051), (0, 1478)], [(0, 21899727818), (117294687, 0), (51837, 0),
    (12, 0)]], 3, 4⟩, 72057594037927936, 2327805129786, 885491455330, ⟨[[(12906638967649, 0), (795053345, 0),
    (4538284, 0), (3135, 0), (0, 22)], [(1517124234, 0), (1088180, 0), (0, 4547), (0, 7)], [(0, 384260), (0, 1251),
    (7, 0)], [(12, 0), (2, 0)]], 3, 4⟩, 17592186044416, 242320,
    4359330212706856689347500712242365252303666070296631026479932569581623203638085234912953599053424283589487333013254145366560899,
    lc0⟩) (.sy (.out ⟨2120, 16, 11661, 25606, 16, 40655, ⟨[[(10943460157947904, 0), (0, 10894842070462198), (0,
    131292356304)], [(88008638271539035, 0), (0, 49335157585063), (0, 1932821174)], [(0, 822239188869606), (0,
    2000102446), (0, 900815)]], 2, 2⟩, ⟨[[(0, 33429638890913792), (0, 28059817858661583), (426732839460, 0)]], 2, 2⟩,
    72057594037927936, 752880885602364, 385193625208, ⟨[], 0, 0⟩, 0, 0, 0, lc0⟩ 3 1 2316) (.out ⟨2160, 16, 11946,
    25636, 16, 40751, ⟨[[(0, 8921004072730624), (0, 11182717711680148), (0, 142465538744)], [(86205212455402185, 0),
    (0, 50855855977958), (0, 2057772760)], [(0, 842500598054817), (0, 2196191351), (0, 964590)]], 2, 2⟩, ⟨[[(0,
    29559294097096704), (0, 28059467462552573), (426221917011, 0)]], 2, 2⟩, 72057594037927936, 778571573304579,
    384276051319, ⟨[], 0, 0⟩, 0, 0, 0, lc0⟩ 3 1 2944))) (.sy (.sy (.out ⟨2326, 16, 12559, 25545, 16, 40462,
    ⟨[[(34207176086159360, 0), (0, 12427034184627817), (0, 152231546738)], [(79570259070575973, 0), (0,
    52404895470760), (0, 1918438908)], [(0, 790724326849369), (9452315123, 0), (1336163, 0)]], 2, 2⟩, ⟨[[(0,
    30054265828147200), (0, 28059592149774247), (427744205701, 0)]], 2, 2⟩, 72057594037927936, 768277147507251,
    387025015535, ⟨[], 0, 0⟩, 0, 0, 0, lc0⟩ 3 1 2443) (.out ⟨2373, 16, 12884, 25575, 16, 40558, ⟨[[(0,
    9692636569042944), (0, 12773704159620124), (0, 165469433811)], [(77423872232014857, 0), (0, 54074250750049), (0,
    2048010865)], [(0, 810421829478825), (9912631800, 0), (1394907, 0)]], 2, 2⟩, ⟨[[(0, 15823824391241728), (0,
    28059398932588511), (427233261760, 0)]], 2, 2⟩, 72057594037927936, 796013756848824, 386103439202, ⟨[], 0, 0⟩, 0,
    0, 0, lc0⟩ 3 1 3077)) (.out ⟨1643, 16, 8999, 12802, 16, 20339, ⟨[[(0, 10804413799153664), (0, 17900350123202406),
    (0, 502484668852)], [(49638795715359506, 0), (0, 76227305418244), (0, 6067636444)], [(0, 565226314745971),
    (14309289887, 0), (4002290, 0)]], 2, 2⟩, ⟨[[(30103563071389696, 0), (0, 28042417923720245), (852430857638, 0)]],
    2, 2⟩, 72057594037927936, 581108728522547, 1538905233303, ⟨[], 0, 0⟩, 0, 0, 0, lc0⟩ 3 1 3967))))
theorem c127 : checkR job con2 false ⟨7, 9, 7, 9, 13, 17⟩ 1 34400 t127 69 7 160 8195 39 8000 = true := by decide +kernel

def t128 : CTree :=
  .sx (.sy (.sx (.leaf ⟨2482, 16, 5248, 341, 16, 1907, ⟨[[(5799873472167936, 0), (0, 17226200036165547), (0,
    716708562900), (0, 755412701), (0, 229811)], [(56635037716332800, 0), (0, 89442409173759), (0, 14594107591), (0,
    9341411), (0, 3016)], [(0, 457478240129094), (0, 44194880247), (0, 37545634), (0, 20155), (0, 7)],
    [(1065412659970, 0), (420398031, 0), (309366, 0), (153, 0)]], 3, 4⟩, ⟨[[(11408065803595776, 0), (0,
    9063671327716285), (0, 1271626731465), (0, 882573375), (0, 323462)], [(0, 107068835574144384), (0,
    25266835711699), (0, 16884259606), (0, 7863143), (0, 2177)], [(91999282362324, 0), (0, 36427725241), (0,
    38020709), (0, 18118), (0, 7)], [(0, 41856898163), (181089079, 0), (164810, 0), (79, 0)]], 3, 4⟩,
    72057594037927936, 1279072707660, 1275388383363, ⟨[[(12830092745189, 0), (1333597972, 0), (8012933, 0), (696, 0),
    (0, 38)], [(2539271179, 0), (1761859, 0), (0, 14723), (13, 0)], [(0, 1080528), (0, 3617), (41, 0)], [(211, 0),
    (12, 0)]], 3, 4⟩, 17592186044416, 1410142,
    3799281584055653978008499319125517499897446725491159082269712255130173867168060261841651558255611070341965562586089071086797951,
    lc0⟩) (.sy (.sy (.leaf ⟨5207, 16, 10934, 440, 16, 2585, ⟨[[(24856737546698752, 0), (0, 9601554947055593), (0,
    110790242627), (0, 27938494), (0, 2157)], [(98086391093107511, 0), (0, 46639608211497), (0, 1902270579), (0,
    307514), (0, 25)], [(0, 859604143304425), (0, 12523753200), (0, 2909850), (0, 414)], [(2133998976628, 0),
    (236017991, 0), (44733, 0), (6, 0)]], 3, 4⟩, ⟨[[(0, 17876529077428224), (0, 3164464895357862), (0, 121099961709),
    (0, 20228597), (0, 1823)], [(0, 140652414076537454), (0, 8523664378171), (0, 1451291007), (0, 170540), (0, 12)],
    [(124145083948520, 0), (0, 8990193026), (0, 2499281), (0, 297)], [(0, 31008505213), (65991761, 0), (14631, 0),
    (2, 0)]], 3, 4⟩, 72057594037927936, 2690747429378, 1291071934484, ⟨[[(12853195627690, 0), (818429993, 0),
    (4166585, 0), (1622, 0), (0, 17)], [(1186307241, 0), (740608, 0), (0, 3522), (0, 2)], [(0, 232346), (0, 717), (4,
    0)], [(8, 0), (1, 0)]], 3, 4⟩, 17592186044416, 171125,
    4334408131047969868505182652340835826265275554610768340358024043872453152769395572461538713282230131388722358512596073501375717,
    lc0⟩) (.out ⟨1945, 16, 10969, 25697, 16, 40945, ⟨[[(0, 13288547397812224), (0, 9650144054915860), (0,
    117782959751)], [(94739075814019803, 0), (0, 47092285348305), (0, 1981468912)], [(0, 863353695473859), (0,
    13026883430), (0, 3017685)]], 2, 2⟩, ⟨[[(0, 18789332403879936), (0, 28059907024810650), (425220976599, 0)]], 2,
    2⟩, 72057594037927936, 749365358493954, 382466817620, ⟨[], 0, 0⟩, 0, 0, 0, lc0⟩ 3 1 2638)) (.sy (.out ⟨1980, 16,
    11225, 25727, 16, 41042, ⟨[[(0, 35702357430190080), (0, 9894707459613890), (0, 127489827886)],
    [(93178727253190491, 0), (0, 48513631562624), (0, 2104441598)], [(0, 884561882780949), (0, 13820690811), (0,
    3191553)]], 2, 2⟩, ⟨[[(14821228512804864, 0), (0, 28060007916846313), (424720479465, 0)]], 2, 2⟩,
    72057594037927936, 773702162637425, 381565453354, ⟨[], 0, 0⟩, 0, 0, 0, lc0⟩ 3 1 3303) (.out ⟨2016, 16, 11494,
    25758, 16, 41139, ⟨[[(0, 2630129302618112), (0, 10152759780327196), (0, 137842142444)], [(91523677751866478, 0),
    (0, 50018648339575), (0, 2235443942)], [(0, 906883796344555), (0, 14670148858), (0, 3376710)]], 2, 2⟩, ⟨[[(0,
    28803411194150912), (0, 28060030294319360), (424219975725, 0)]], 2, 2⟩, 72057594037927936, 799464264118869,
    380666035937, ⟨[], 0, 0⟩, 0, 0, 0, lc0⟩ 3 1 3828)))) (.sy (.sy (.out ⟨1088, 16, 6268, 25788, 16, 41236,
    ⟨[[(27223827683459072, 0), (0, 5356793315701972), (0, 70498565393)], [(109790175306000768, 0), (0,
    54664332478880), (0, 2466671970)], [(0, 2087898030868244), (0, 45615581928), (0, 9947348)]], 2, 2⟩, ⟨[[(0,
    5529768295399424), (0, 28059974710928079), (423719473762, 0)]], 2, 2⟩, 72057594037927936, 3563040506602002,
    379768818247, ⟨[], 0, 0⟩, 0, 0, 0, lc0⟩ 3 1 3566) (.out ⟨1112, 16, 6440, 25818, 16, 41333, ⟨[[(20179760246636544,
    0), (0, 5515396052280961), (0, 76391813980)], [(108406496726880640, 0), (0, 56566950304018), (0, 2627252092)],
    [(0, 2148910466201104), (0, 48487007353), (0, 10546339)]], 2, 2⟩, ⟨[[(12602772231290880, 0), (0,
    28059841716466639), (423218981863, 0)]], 2, 2⟩, 72057594037927936, 3692552660151887, 378873779186, ⟨[], 0, 0⟩, 0,
    0, 0, lc0⟩ 3 1 4193)) (.out ⟨943, 16, 5502, 12924, 16, 20727, ⟨[[(0, 28078796963577856), (0, 9455892735208110),
    (0, 281958868198)], [(86931214884419419, 0), (0, 97734730196843), (0, 9469640989)], [(0, 1840888974402310), (0,
    87166652467), (0, 37766966)]], 2, 2⟩, ⟨[[(5132373685174272, 0), (0, 28042924439756265), (844437485012, 0)]], 2,
    2⟩, 72057594037927936, 3223428728126350, 1510135311464, ⟨[], 0, 0⟩, 0, 0, 0, lc0⟩ 3 1 5170))) (.sy (.sy (.out
    ⟨1132, 16, 6292, 12833, 16, 20436, ⟨[[(0, 11180179793281024), (0, 12195257882113910), (0, 358283513833)],
    [(72432284732310418, 0), (0, 108170151270610), (0, 9203798600)], [(0, 1675769569379687), (15407834092, 0),
    (1283463, 0)]], 2, 2⟩, ⟨[[(3383575500947456, 0), (0, 28043017069423202), (850432663212, 0)]], 2, 2⟩,
    72057594037927936, 3313598819541857, 1531661980688, ⟨[], 0, 0⟩, 0, 0, 0, lc0⟩ 3 1 4460) (.out ⟨1180, 16, 6636,
    12864, 16, 20533, ⟨[[(0, 16572702390517760), (0, 12924100044123325), (0, 418555050149)], [(67433230095088293, 0),
    (0, 115656293076135), (0, 10455688243)], [(0, 1766112858399152), (16447410105, 0), (1173186, 0)]], 2, 2⟩, ⟨[[(0,
    33753082468368384), (0, 28043298236814713), (848434279394, 0)]], 2, 2⟩, 72057594037927936, 3568947772812817,
    1524452654351, ⟨[], 0, 0⟩, 0, 0, 0, lc0⟩ 3 1 5449)) (.out ⟨820, 16, 4696, 6447, 16, 10327, ⟨[[(0,
    2794480347750400), (0, 18440836509225807), (0, 1368248534570)], [(38038562912217504, 0), (0, 167347872631946),
    (0, 32981653762)], [(0, 1248426741142832), (23619938173, 0), (2511927, 0)]], 2, 2⟩, ⟨[[(0, 10986678061891584),
    (0, 28009907873648446), (1688869935101, 0)]], 2, 2⟩, 72057594037927936, 2712016241137150, 6054761018651, ⟨[], 0,
    0⟩, 0, 0, 0, lc0⟩ 3 1 6856))
theorem c128 : checkR job con2 false ⟨7, 9, 7, 9, 13, 17⟩ 1 34400 t128 69 7 160 8273 39 8000 = true := by decide +kernel

def t129 : CTree :=
  .sx (.leaf ⟨1164, 16, 2310, 176, 16, 1074, ⟨[[(0, 32451832577458176), (0, 19458393929829481), (0, 579213632161),
    (0, 2782860457), (0, 1876556)], [(41687790527734171, 0), (0, 142439526291989), (0, 18738320661), (0, 38752448),
    (0, 26180)], [(0, 503090173571079), (99909369408, 0), (151959250, 0), (127817, 0), (96, 0)], [(2627694099456, 0),
    (1984806970, 0), (3350045, 0), (3462, 0), (2, 0)]], 3, 4⟩, ⟨[[(0, 33684474752581632), (0, 10483533986164022), (0,
    2386984821282), (0, 3473854131), (0, 2673959)], [(0, 97777558034775515), (0, 33562685379034), (0, 46508420350),
    (0, 48858698), (0, 30661)], [(202634147025992, 0), (30154765720, 0), (0, 15088624), (0, 4785), (0, 11)], [(0,
    181485002799), (992448002, 0), (1890379, 0), (1856, 0), (1, 0)]], 3, 4⟩, 72057594037927936, 12499532020631,
    2906851985880, ⟨[[(13176001768239, 0), (2139762808, 0), (19187015, 0), (26592, 0), (0, 288)], [(4938284380, 0),
    (6458417, 0), (0, 50379), (0, 95), (3, 0)], [(0, 4570964), (0, 12003), (186, 0), (1, 0)], [(3264, 0), (88, 0),
    (0, 1)]], 3, 4⟩, 17592186044416, 4932360,
    4198484155559823602640657887465241175858056536549688923364515932750553596280848576264435880355062589007637347598692533565584733,
    lc0⟩) (.leaf ⟨1189, 16, 2346, 160, 16, 1094, ⟨[[(0, 27548388563746816), (0, 21761481588943885), (0,
    815030864492), (0, 3342082555), (0, 2252070)], [(29543530368633609, 0), (0, 140642631216155), (0, 12697398334),
    (0, 33644360), (0, 22393)], [(0, 404974324013811), (184792266597, 0), (297870259, 0), (277986, 0), (202, 0)],
    [(2375416524519, 0), (1922856553, 0), (3380322, 0), (3487, 0), (2, 0)]], 3, 4⟩, ⟨[[(384469378121728, 0), (0,
    11148599469800658), (0, 3092461236000), (0, 4231129047), (0, 3159565)], [(0, 93917465655219950), (0,
    32736394770844), (0, 46689392917), (0, 48811061), (0, 30777)], [(199676338550632, 0), (72681935939, 0),
    (63489128, 0), (72423, 0), (43, 0)], [(0, 141133202762), (973402568, 0), (1809542, 0), (1771, 0), (1, 0)]], 3,
    4⟩, 72057594037927936, 13404915191341, 1632647593843, ⟨[[(13174380279310, 0), (1477136817, 0), (16177767, 0),
    (43973, 0), (0, 221)], [(4668585620, 0), (7695022, 0), (0, 35658), (0, 247), (1, 0)], [(0, 4127614), (0, 14443),
    (74, 0), (2, 0)], [(1550, 0), (96, 0)]], 3, 4⟩, 17592186044416, 4939996,
    5040033048387193034330532952456899137829187105142202209916420772299309414496524530680606481821976826507102194369598457615026648,
    lc0⟩)
theorem c129 : checkR job con2 false ⟨7, 9, 7, 9, 13, 17⟩ 1 34400 t129 83 7 160 8039 39 8000 = true := by decide +kernel

def t130 : CTree :=
  .sx (.sy (.leaf ⟨1942, 16, 3908, 201, 16, 1294, ⟨[[(0, 23171738074480640), (0, 16542418697088637), (0,
    468599100966), (0, 687957473), (0, 227161)], [(56307135630373047, 0), (0, 122697258389488), (0, 11040457194), (0,
    9588871), (0, 3198)], [(0, 840302361239748), (100728940708, 0), (74634781, 0), (32149, 0), (12, 0)],
    [(4662518891869, 0), (2042251056, 0), (1696069, 0), (862, 0)]], 3, 4⟩, ⟨[[(6173895284357120, 0), (0,
    6506563732899977), (0, 919955491068), (0, 624276269), (0, 231156)], [(0, 120376083013194789), (0,
    23814374930471), (0, 16789345047), (0, 8508789), (0, 2613)], [(246203949308211, 0), (17067176970, 0), (0,
    4871811), (0, 1169), (0, 1)], [(0, 140448819142), (743234475, 0), (675871, 0), (328, 0)]], 3, 4⟩,
    72057594037927936, 20900521225937, 3354902847347, ⟨[[(13078352164820, 0), (1388348662, 0), (13150009, 0), (23671,
    0), (0, 164)], [(2967115097, 0), (3887743, 0), (0, 20985), (0, 92), (1, 0)], [(0, 1588080), (0, 6093), (46, 0)],
    [(343, 0), (25, 0)]], 3, 4⟩, 17592186044416, 1872231,
    3128489295492956666709254298174567481763954479593788096511405565828425699969682058716619989260929787580552347496578246012752555,
    lc0⟩) (.sx (.leaf ⟨2539, 16, 5165, 320, 16, 2068, ⟨[[(21912360942436352, 0), (0, 21398973512103079), (0,
    780139065093), (0, 957462332), (0, 311548)], [(34804141939256498, 0), (0, 82805473260181), (0, 9194093855), (0,
    7171424), (0, 2375)], [(0, 291867187502748), (29287675529, 0), (20708146, 0), (8579, 0), (3, 0)], [(817984937897,
    0), (381823570, 0), (311328, 0), (157, 0)]], 3, 4⟩, ⟨[[(0, 33053685002366976), (0, 10497702544754918), (0,
    1612134374923), (0, 1065957723), (0, 387955)], [(0, 99145359492467182), (0, 21316422438002), (0, 15033945494),
    (0, 7458483), (0, 2254)], [(99255618196716, 0), (2921203706, 0), (0, 5258079), (0, 2163), (0, 1)], [(0,
    19585226590), (170454774, 0), (151942, 0), (73, 0)]], 3, 4⟩, 72057594037927936, 1690554044524, 398306326669,
    ⟨[[(13014608746260, 0), (802982518, 0), (5305366, 0), (6455, 0), (0, 28)], [(2293120918, 0), (1994514, 0), (0,
    6768), (0, 21)], [(0, 915052), (0, 2836), (12, 0)], [(62, 0), (9, 0)]], 3, 4⟩, 17592186044416, 500803,
    3017393170773940627929839654604607534213668876693866770740205871688561379582904557982964794417204229803116628983007331580036798,
    lc0⟩) (.sy (.leaf ⟨4289, 16, 8682, 381, 16, 2597, ⟨[[(0, 19809334608199680), (0, 18925078786163597), (0,
    354237113282), (0, 216253038), (0, 35355)], [(48236473520189010, 0), (0, 68446695613023), (0, 3376431798), (0,
    1400312), (0, 231)], [(0, 435715849113404), (37052460978, 0), (13893836, 0), (3113, 0), (1, 0)], [(1295892647887,
    0), (312166590, 0), (129585, 0), (33, 0)]], 3, 4⟩, ⟨[[(6150592957444096, 0), (0, 6734435939326707), (0,
    551201502929), (0, 178672864), (0, 32223)], [(0, 120519046503526619), (0, 12905973931428), (0, 4602488140), (0,
    1146046), (0, 175)], [(123568718206774, 0), (6307798554, 0), (325094, 0), (142, 0)], [(0, 19631310581),
    (103222562, 0), (45723, 0), (11, 0)]], 3, 4⟩, 72057594037927936, 2948452199408, 332796071987, ⟨[[(13030941706055,
    0), (525355601, 0), (3089277, 0), (3941, 0), (0, 9)], [(1330493943, 0), (1006320, 0), (0, 2017), (0, 8)], [(0,
    306902), (0, 801), (2, 0)], [(0, 7), (1, 0)]], 3, 4⟩, 17592186044416, 187349,
    2824683114750073242381479901029165782496777785495590677610506283657325244732878588429499205895083675813229334597815176181199725,
    lc0⟩) (.sy (.leaf ⟨6715, 16, 13643, 424, 16, 2930, ⟨[[(13221031997603840, 0), (0, 14903880098755062), (0,
    154361213133), (0, 44130084), (0, 3589)], [(69488635426522615, 0), (0, 54100813489508), (0, 1424876361), (0,
    285888), (0, 24)], [(0, 681207313348054), (30415033080, 0), (5677385, 0), (637, 0)], [(2065785385735, 0),
    (257450451, 0), (53204, 0), (7, 0)]], 3, 4⟩, ⟨[[(0, 17908407685738496), (0, 3836408487690495), (0, 164502962533),
    (0, 26278971), (0, 2348)], [(0, 136842427046152046), (0, 7590906855119), (0, 1355912109), (0, 167475), (0, 13)],
    [(139830910785098, 0), (3580583031, 0), (98687, 0), (20, 0)], [(0, 15156664500), (61311734, 0), (13454, 0), (2,
    0)]], 3, 4⟩, 72057594037927936, 4634180394738, 370599620794, ⟨[[(13007320043305, 0), (422982434, 0), (2401502,
    0), (2953, 0), (0, 5)], [(849399083, 0), (594227, 0), (0, 971), (0, 4)], [(0, 122226), (0, 319)], [(0, 6)]], 3,
    4⟩, 17592186044416, 113750,
    4386824178880789747995463608442612230983061685798239228624701193467472645844583877969516763272331914784339246532351778232548941,
    lc0⟩) (.sy (.out ⟨3628, 16, 18767, 50786, 16, 79941, ⟨[[(2381997307068416, 0), (0, 10263454215523740), (0,
    55772828949)], [(91226636037424896, 0), (0, 37326616680462), (0, 507428515)], [(0, 934578822330075),
    (21380511794, 0), (1991290, 0)]], 2, 2⟩, ⟨[[(0, 28586155437981696), (0, 28068081398497995), (215280692431, 0)]],
    2, 2⟩, 72057594037927936, 991759682560960, 97977212155, ⟨[], 0, 0⟩, 0, 0, 0, lc0⟩ 3 1 1631) (.out ⟨3685, 16,
    19118, 50816, 16, 80036, ⟨[[(0, 31285878054551552), (0, 10464419727837176), (0, 58671179265)],
    [(89963752893308654, 0), (0, 38106313122765), (0, 528941873)], [(0, 950347023349108), (22098933649, 0), (2055390,
    0)]], 2, 2⟩, ⟨[[(0, 32065776823828480), (0, 28067843295909934), (215150151360, 0)]], 2, 2⟩, 72057594037927936,
    1015346589164547, 97858538357, ⟨[], 0, 0⟩, 0, 0, 0, lc0⟩ 3 1 1934)))))) (.sy (.leaf ⟨2122, 16, 4252, 184, 16,
    1336, ⟨[[(14262732455804928, 0), (0, 19839965912184241), (0, 657012895032), (0, 885134632), (0, 292467)],
    [(38542544106966263, 0), (0, 129129801894876), (0, 8647543725), (0, 8899527), (0, 2930)], [(0, 712448342455735),
    (201783986030, 0), (159046182, 0), (74496, 0), (26, 0)], [(4531478608554, 0), (2135236432, 0), (1832927, 0),
    (930, 0)]], 3, 4⟩, ⟨[[(10957870191489024, 0), (0, 7056422983117916), (0, 1191586016880), (0, 766845042), (0,
    276345)], [(0, 117238847364412983), (0, 23645996088399), (0, 17070973474), (0, 8622628), (0, 2664)],
    [(249322165274526, 0), (49390889996, 0), (23539615, 0), (12652, 0), (4, 0)], [(0, 94798753136), (735361172, 0),
    (655418, 0), (318, 0)]], 3, 4⟩, 72057594037927936, 24675181937573, 1499254093160, ⟨[[(13077005430431, 0),
    (843999824, 0), (10301730, 0), (31261, 0), (0, 76)], [(2614878416, 0), (4050492, 0), (0, 10796), (0, 110)], [(0,
    1213677), (0, 5485), (7, 0)], [(0, 129), (20, 0)]], 3, 4⟩, 17592186044416, 1810873,
    5007627106204403818018831232101146867762731490346987770720343721801843017747760027842352320741209766741040086007828224258526236,
    lc0⟩) (.sy (.sx (.sy (.leaf ⟨7040, 16, 14207, 419, 16, 3021, ⟨[[(16770981395234816, 0), (0, 16249149500386511),
    (0, 157402338594), (0, 47490341), (0, 3891)], [(62337214815800073, 0), (0, 54912113095215), (0, 1160164253), (0,
    261300), (0, 21)], [(0, 627893980485777), (40352966784, 0), (7804191, 0), (905, 0)], [(1996776885855, 0),
    (246696538, 0), (52054, 0), (7, 0)]], 3, 4⟩, ⟨[[(0, 26824413967556608), (0, 4007344125193215), (0, 175693537799),
    (0, 27914120), (0, 2493)], [(0, 135897376430981577), (0, 7265871107167), (0, 1308877737), (0, 163175), (0, 12)],
    [(142698733496998, 0), (6116513236, 0), (634942, 0), (86, 0)], [(0, 18356347622), (57704038, 0), (12703, 0), (2,
    0)]], 3, 4⟩, 72057594037927936, 5031763927651, 235729890215, ⟨[[(13038529148344, 0), (357877879, 0), (2071725,
    0), (2818, 0), (0, 3)], [(795106670, 0), (555903, 0), (0, 673), (0, 3)], [(0, 108657), (0, 255)], [(0, 7)]], 3,
    4⟩, 17592186044416, 78105,
    3954458891600498173854498293629070104097051189085247746738160404821567884218863145203840835187746549825090623207200566843417318,
    lc0⟩) (.sy (.out ⟨3976, 16, 20220, 50664, 16, 79559, ⟨[[(0, 28152092600303616), (0, 11576690992822050), (0,
    58999516536)], [(84143256744111726, 0), (0, 39175130836160), (0, 429273414)], [(0, 890247079413619),
    (29372448738, 0), (2833886, 0)]], 2, 2⟩, ⟨[[(11787531440357376, 0), (0, 28068132054010788), (215797489402, 0)]],
    2, 2⟩, 72057594037927936, 992619173191205, 98447431450, ⟨[], 0, 0⟩, 0, 0, 0, lc0⟩ 3 1 1428) (.out ⟨4041, 16,
    20618, 50694, 16, 79654, ⟨[[(5761310204133376, 0), (0, 11814106633620268), (0, 62228885288)],
    [(82680996649780114, 0), (0, 40015404349498), (0, 449103103)], [(0, 905416434147057), (30404460367, 0), (2929136,
    0)]], 2, 2⟩, ⟨[[(18726476697305088, 0), (0, 28067973403783588), (215666936139, 0)]], 2, 2⟩, 72057594037927936,
    1017176683530410, 98329056269, ⟨[], 0, 0⟩, 0, 0, 0, lc0⟩ 3 1 1680))) (.sy (.sy (.out ⟨4449, 16, 22400, 50603, 16,
    79368, ⟨[[(0, 12635292102426624), (0, 13403964685436670), (0, 66615683827)], [(74029954989359424, 0), (0,
    42258075763192), (0, 353852654)], [(0, 863221973134343), (39522406433, 0), (3901259, 0)]], 2, 2⟩,
    ⟨[[(16212408981782528, 0), (0, 28068036144054387), (216055885522, 0)]], 2, 2⟩, 72057594037927936,
    1025010169058572, 98683614286, ⟨[], 0, 0⟩, 0, 0, 0, lc0⟩ 3 1 1612) (.out ⟨4529, 16, 22876, 50633, 16, 79463,
    ⟨[[(0, 33241373202448384), (0, 13699598599928998), (0, 70431087703)], [(72234698172764224, 0), (0,
    43213284913025), (0, 372305509)], [(0, 878392832303388), (40988100678, 0), (4039596, 0)]], 2, 2⟩,
    ⟨[[(28388850546507776, 0), (0, 28067917652824097), (215925329473, 0)]], 2, 2⟩, 72057594037927936,
    1051977222297942, 98564693905, ⟨[], 0, 0⟩, 0, 0, 0, lc0⟩ 3 1 1882)) (.out ⟨3070, 16, 15585, 25332, 16, 39791,
    ⟨[[(3369383218085888, 0), (0, 18689608927003149), (0, 201901267066)], [(45764124610010423, 0), (0,
    59002193581358), (0, 1059988505)], [(0, 595127860631223), (57150308296, 0), (11238925, 0)]], 2, 2⟩, ⟨[[(0,
    13726417272963072), (0, 28059416871651079), (431331635307, 0)]], 2, 2⟩, 72057594037927936, 727457400235716,
    393548656501, ⟨[], 0, 0⟩, 0, 0, 0, lc0⟩ 3 1 2206))) (.sy (.sy (.out ⟨2758, 16, 14093, 50725, 16, 79750,
    ⟨[[(23257204381450240, 0), (0, 8272754201030395), (0, 46066807090)], [(92062924932127214, 0), (0,
    54171770141411), (0, 568897594)], [(0, 2302175225833168), (95183540407, 0), (9254328, 0)]], 2, 2⟩, ⟨[[(0,
    3157911345823744), (0, 28068146945336448), (215539090217, 0)]], 2, 2⟩, 72057594037927936, 5467976746624137,
    98211578025, ⟨[], 0, 0⟩, 0, 0, 0, lc0⟩ 3 1 2264) (.out ⟨2826, 16, 14486, 50755, 16, 79845, ⟨[[(2385633876082688,
    0), (0, 8510956938231632), (0, 48897814903)], [(90283391231857792, 0), (0, 55774847082876), (0, 600308930)], [(0,
    2358684618518801), (99331995222, 0), (9643659, 0)]], 2, 2⟩, ⟨[[(0, 1437623684431872), (0, 28067948425348598),
    (215408541956, 0)]], 2, 2⟩, 72057594037927936, 5649281034689337, 98093680466, ⟨[], 0, 0⟩, 0, 0, 0, lc0⟩ 3 1
    2531)) (.out ⟨2204, 16, 11352, 25393, 16, 39982, ⟨[[(0, 14920081625219072), (0, 13357641022227249), (0,
    160662954339)], [(65630490800540535, 0), (0, 87640767101090), (0, 1956009072)], [(0, 1839179048769775),
    (159257078611, 0), (30856935, 0)]], 2, 2⟩, ⟨[[(0, 35174714133446656), (0, 28059367735910236), (430299003756,
    0)]], 2, 2⟩, 72057594037927936, 4478432730255482, 391666680939, ⟨[], 0, 0⟩, 0, 0, 0, lc0⟩ 3 1 2884))))
theorem c130 : checkR job con2 false ⟨7, 9, 7, 9, 13, 17⟩ 1 34400 t130 83 7 160 8117 39 8000 = true := by decide +kernel

def t131 : CTree :=
  .sy (.sx (.leaf ⟨2056, 16, 4021, 190, 16, 1432, ⟨[[(25135589282283520, 0), (0, 20274038000296028), (0,
    304930471670), (0, 762120208), (0, 257634)], [(37984813106325440, 0), (0, 115105686952291), (0, 453165182), (0,
    4861892), (0, 1566)], [(0, 542407598674134), (209221714619, 0), (175774349, 0), (84764, 0), (31, 0)],
    [(3497858365326, 0), (1323149487, 0), (1232188, 0), (640, 0)]], 3, 4⟩, ⟨[[(24506749537050624, 0), (0,
    7493856234050466), (0, 1129135481365), (0, 756370396), (0, 279601)], [(0, 114970767799341257), (0,
    18644304426184), (0, 13506197007), (0, 7129568), (0, 2265)], [(251357527967048, 0), (69610674729, 0), (41581044,
    0), (22183, 0), (7, 0)], [(0, 186235324327), (525816220, 0), (491685, 0), (241, 0)]], 3, 4⟩, 72057594037927936,
    22873744471781, 612284406875, ⟨[[(13203386417328, 0), (853580759, 0), (8007643, 0), (22907, 0), (0, 40)],
    [(2605113183, 0), (3692746, 0), (0, 8080), (0, 64)], [(0, 1324271), (0, 3240), (0, 2)], [(141, 0), (13, 0)]], 3,
    4⟩, 17592186044416, 994140,
    3640884443272534374110247710379306883134868965065754557882954238357460375257987541600850601535649966005716663799414863112344335,
    lc0⟩) (.leaf ⟨2139, 16, 4171, 175, 16, 1485, ⟨[[(22852357375950848, 0), (0, 22655850121287424), (0,
    283790683621), (0, 842175957), (0, 283141)], [(25675502543119150, 0), (0, 112578461901163), (5343385526, 0), (0,
    2212929), (0, 604)], [(0, 421602897733778), (267757695607, 0), (231187617, 0), (113366, 0), (41, 0)],
    [(3086437389176, 0), (1024311883, 0), (1031726, 0), (539, 0)]], 3, 4⟩, ⟨[[(0, 5606418984542208), (0,
    8026312494881423), (0, 1357220154006), (0, 882707997), (0, 321160)], [(0, 112040669219841573), (0,
    17010997775395), (0, 12516121610), (0, 6610957), (0, 2094)], [(252547169799110, 0), (93059015119, 0), (62658363,
    0), (32569, 0), (11, 0)], [(0, 196998184752), (444368271, 0), (417604, 0), (204, 0)]], 3, 4⟩, 72057594037927936,
    24227750291463, 913608839631, ⟨[[(13203926568667, 0), (549116773, 0), (5993778, 0), (21925, 0), (0, 5)],
    [(2418106109, 0), (3642159, 0), (0, 3910), (0, 46)], [(0, 1171581), (0, 2327), (0, 15)], [(0, 61), (9, 0)]], 3,
    4⟩, 17592186044416, 992873,
    3717588306636039498370183154868139714270677786982188557441942727117956039470490317874702036888470549126081420935591891108728042,
    lc0⟩)) (.sx (.leaf ⟨2152, 16, 4253, 179, 16, 1407, ⟨[[(0, 18066159508193280), (0, 21509347070369369), (0,
    521412501398), (0, 895183674), (0, 298941)], [(30674745199024489, 0), (0, 121918803475984), (0, 1745090378), (0,
    5684899), (0, 1823)], [(0, 555267187194299), (251995523678, 0), (208117855, 0), (100280, 0), (36, 0)],
    [(3817094417862, 0), (1615625836, 0), (1470736, 0), (756, 0)]], 3, 4⟩, ⟨[[(0, 3734337461964800), (0,
    7550195698490355), (0, 1293667249930), (0, 832942566), (0, 301073)], [(0, 114476609009519817), (0,
    20521166778123), (0, 14993197786), (0, 7729860), (0, 2423)], [(252563314270777, 0), (75180216812, 0), (46218718,
    0), (24079, 0), (8, 0)], [(0, 139631757710), (596479989, 0), (541584, 0), (264, 0)]], 3, 4⟩, 72057594037927936,
    25346136474452, 339042413858, ⟨[[(13141497472479, 0), (661146297, 0), (7866142, 0), (26813, 0), (0, 27)],
    [(2487797426, 0), (3811651, 0), (0, 6073), (0, 75)], [(0, 1158682), (0, 3706), (0, 9)], [(0, 121), (14, 0)]], 3,
    4⟩, 17592186044416, 1238618,
    4082363430112404651977714022958273012795471559027875450208115124854317375436600425442406888973292726387784513983903373338152912,
    lc0⟩) (.leaf ⟨2234, 16, 4407, 163, 16, 1458, ⟨[[(30193104252338176, 0), (0, 24001343046809314), (0,
    519334953652), (0, 987642091), (0, 328232)], [(17883501117616491, 0), (0, 118111465150408), (5074557402, 0), (0,
    2546756), (0, 699)], [(0, 421846274791396), (323283722925, 0), (273923634, 0), (133917, 0), (48, 0)],
    [(3352398705246, 0), (1263116502, 0), (1231054, 0), (636, 0)]], 3, 4⟩, ⟨[[(6712519809826816, 0), (0,
    8104687063584272), (0, 1547210960301), (0, 969667144), (0, 345334)], [(0, 111384220460653440), (0,
    18741177276940), (0, 13884599982), (0, 7160053), (0, 2237)], [(255471885391148, 0), (101568095140, 0), (69397722,
    0), (35413, 0), (12, 0)], [(0, 156793541957), (504047307, 0), (459579, 0), (223, 0)]], 3, 4⟩, 72057594037927936,
    27244671191388, 1331712714398, ⟨[[(13140013031100, 0), (360771097, 0), (5661572, 0), (24294, 0), (12, 0)],
    [(2310725734, 0), (3681273, 0), (0, 1672), (0, 49)], [(0, 1014783), (0, 2533), (0, 21)], [(0, 329), (10, 0)]], 3,
    4⟩, 17592186044416, 1147800,
    4446689486216431330803130346056634424858769402193074759708001577481289069232596464689746043733108673735169834878337103661931274,
    lc0⟩))
theorem c131 : checkR job con2 false ⟨7, 9, 7, 9, 13, 17⟩ 1 34400 t131 97 7 160 8039 39 8000 = true := by decide +kernel

def t132 : CTree :=
  .sx (.sy (.sx (.leaf ⟨4541, 16, 9054, 352, 16, 2778, ⟨[[(0, 8283397787418624), (0, 22511341838343020), (0,
    357838463879), (0, 251430535), (0, 41625)], [(29228752828917321, 0), (0, 66025018821999), (0, 1146007810), (0,
    912670), (0, 147)], [(0, 309584005840939), (68682376188, 0), (27844209, 0), (6666, 0), (1, 0)], [(1081390331684,
    0), (250047746, 0), (110800, 0), (28, 0)]], 3, 4⟩, ⟨[[(19776099327610880, 0), (0, 7533514996780767), (0,
    685208405445), (0, 216301516), (0, 38613)], [(0, 116029995969609307), (0, 11302492147325), (0, 4129700160), (0,
    1047161), (0, 162)], [(127448829326917, 0), (18201214840, 0), (5465318, 0), (1411, 0)], [(0, 25305059365),
    (84899843, 0), (37817, 0), (9, 0)]], 3, 4⟩, 72057594037927936, 3384329146575, 34521698521, ⟨[[(13093586859602,
    0), (291812036, 0), (2030806, 0), (3690, 0), (0, 2)], [(1187779945, 0), (945947, 0), (0, 669), (0, 5)], [(0,
    252387), (0, 510), (0, 1)], [(0, 32), (1, 0)]], 3, 4⟩, 17592186044416, 132708,
    3535103448377488410068593719360494361225832612029400453799857726507899050133428946864283254766560482552934086530692440677553748,
    lc0⟩) (.sx (.leaf ⟨5084, 16, 10129, 536, 16, 4436, ⟨[[(20732356217208832, 0), (0, 25950944992709550), (0,
    410211119985), (0, 291145939), (0, 48148)], [(12909442264796537, 0), (0, 36080113988491), (0, 293802918), (0,
    427076), (0, 68)], [(0, 77316712945206), (21338700871, 0), (8738830, 0), (2107, 0)], [(142991977372, 0),
    (32561520, 0), (14674, 0), (4, 0)]], 3, 4⟩, ⟨[[(0, 11855835417149440), (0, 12215906511923989), (0,
    1162373381779), (0, 362689672), (0, 64343)], [(0, 90510002864545042), (0, 8696905469747), (0, 3195783951), (0,
    810045), (0, 126)], [(50559701319387, 0), (8304166182, 0), (2643881, 0), (675, 0)], [(0, 5108418663), (15987339,
    0), (7113, 0), (2, 0)]], 3, 4⟩, 72057594037927936, 242122003471, 6897532408, ⟨[[(13093363915896, 0), (145124402,
    0), (724245, 0), (917, 0)], [(1046268655, 0), (537598, 0), (0, 149), (0, 1)], [(0, 195519), (0, 238)], [(0,
    32)]], 3, 4⟩, 17592186044416, 72074,
    4357490468114898842652047032345996371375892988814546714637230415336914540155964346774153261672686059409378786372346428343238673,
    lc0⟩) (.leaf ⟨5066, 16, 10088, 521, 16, 4457, ⟨[[(111693209534464, 0), (0, 26344724930764121), (0, 410901710047),
    (0, 295500934), (0, 48824)], [(10783736000932016, 0), (0, 35320285335478), (0, 40445619), (0, 364436), (0, 57)],
    [(0, 71138826343873), (22576595713, 0), (9304044, 0), (2251, 0)], [(136857611614, 0), (30600791, 0), (13972, 0),
    (4, 0)]], 3, 4⟩, ⟨[[(0, 11403821415784448), (0, 12394390697669780), (0, 1212288777661), (0, 375663319), (0,
    66393)], [(0, 89519146847136750), (0, 8495150928064), (0, 3132392206), (0, 793885), (0, 123)], [(50580591317698,
    0), (9003378301, 0), (2950008, 0), (749, 0)], [(0, 5284443267), (15352342, 0), (6832, 0), (2, 0)]], 3, 4⟩,
    72057594037927936, 244365150368, 10664357520, ⟨[[(13093730113636, 0), (121506034, 0), (669616, 0), (901, 0)],
    [(1040062672, 0), (540337, 0), (0, 97), (0, 1)], [(0, 193322), (0, 224)], [(0, 38)]], 3, 4⟩, 17592186044416,
    75484,
    5145008472346872080592747070946314616096787740497145853690657103553618733222363317230544263431812246808847604289469073422833110,
    lc0⟩))) (.sx (.sy (.sy (.out ⟨4748, 16, 23521, 50482, 16, 78987, ⟨[[(0, 20420205226819584), (0,
    14644149620089836), (0, 64168598450)], [(67563002246517303, 0), (0, 42957733506024), (0, 208089977)], [(0,
    795382819733118), (46401151261, 0), (4682011, 0)]], 2, 2⟩, ⟨[[(0, 32656210938822656), (0, 28067954274429125),
    (216575392360, 0)]], 2, 2⟩, 72057594037927936, 987020893039044, 99159114669, ⟨[], 0, 0⟩, 0, 0, 0, lc0⟩ 3 1 1181)
    (.out ⟨4834, 16, 24031, 50512, 16, 79082, ⟨[[(33077306227228672, 0), (0, 14972099825770910), (0, 68096089197)],
    [(65603286296707840, 0), (0, 43923057204948), (0, 221799836)], [(0, 808901902613797), (48158733262, 0), (4850950,
    0)]], 2, 2⟩, ⟨[[(0, 9975597818183680), (0, 28067916549935600), (216444832545, 0)]], 2, 2⟩, 72057594037927936,
    1013197644802969, 99039690950, ⟨[], 0, 0⟩, 0, 0, 0, lc0⟩ 3 1 1407)) (.sy (.out ⟨4925, 16, 24564, 50542, 16,
    79177, ⟨[[(8185242841776128, 0), (0, 15315239263812611), (0, 72232337582)], [(63554961858777883, 0), (0,
    44933366038918), (0, 236240138)], [(0, 822973086143176), (50005848601, 0), (5028410, 0)]], 2, 2⟩,
    ⟨[[(10078775729979392, 0), (0, 28067858630809479), (216314274061, 0)]], 2, 2⟩, 72057594037927936,
    1040635422847571, 98920548336, ⟨[], 0, 0⟩, 0, 0, 0, lc0⟩ 3 1 1672) (.out ⟨5020, 16, 25121, 50572, 16, 79272,
    ⟨[[(0, 12081989127897088), (0, 15674254831442846), (0, 76590338524)], [(61410334485405714, 0), (0,
    45990707372148), (0, 251456823)], [(0, 837614045673837), (51947610799, 0), (5214869, 0)]], 2, 2⟩,
    ⟨[[(27511643017052160, 0), (0, 28067780589904791), (216183717467, 0)]], 2, 2⟩, 72057594037927936,
    1069397499208939, 98801356047, ⟨[], 0, 0⟩, 0, 0, 0, lc0⟩ 3 1 1927))) (.sy (.sy (.out ⟨5385, 16, 26618, 50482, 16,
    78987, ⟨[[(26911476561346560, 0), (0, 17242126820557571), (0, 74818981812)], [(53101097616849472, 0), (0,
    47034152226681), (0, 74988112)], [(0, 769955341109719), (60206997844, 0), (6155050, 0)]], 2, 2⟩, ⟨[[(0,
    32656210938822656), (0, 28067954274429125), (216575392360, 0)]], 2, 2⟩, 72057594037927936, 1036439547499245,
    99159114669, ⟨[], 0, 0⟩, 0, 0, 0, lc0⟩ 3 1 1626) (.out ⟨5495, 16, 27252, 50512, 16, 79082, ⟨[[(0,
    33890170816757760), (0, 17664991628634040), (0, 79607298375)], [(50609355140313024, 0), (0, 48167041311835), (0,
    84878258)], [(0, 783447977173604), (62631065209, 0), (6391228, 0)]], 2, 2⟩, ⟨[[(0, 9975597818183680), (0,
    28067916549935600), (216444832545, 0)]], 2, 2⟩, 72057594037927936, 1066057727329554, 99039690950, ⟨[], 0, 0⟩, 0,
    0, 0, lc0⟩ 3 1 1887)) (.out ⟨3402, 16, 16961, 25271, 16, 39600, ⟨[[(0, 14104368908664832), (0,
    22012398241157136), (0, 209590356803)], [(27989878015711182, 0), (0, 59982568548778), (0, 242034472)], [(0,
    482983975634032), (79841610421, 0), (16251265, 0)]], 2, 2⟩, ⟨[[(0, 13306954736205824), (0, 28059142209620480),
    (432364241947, 0)]], 2, 2⟩, 72057594037927936, 673681845317663, 395439623519, ⟨[], 0, 0⟩, 0, 0, 0, lc0⟩ 3 1
    2194)))) (.sy (.sy (.sy (.out ⟨4310, 16, 20953, 50360, 16, 78607, ⟨[[(0, 3190261754953728), (0,
    14294782916080771), (0, 48524728719)], [(60433793514085138, 0), (0, 69939088383569), (351469525, 0)], [(0,
    1935660700983070), (206885440191, 0), (21700529, 0)]], 2, 2⟩, ⟨[[(0, 5620937096953856), (0, 28067901759751204),
    (217097633635, 0)]], 2, 2⟩, 72057594037927936, 5706305983807115, 99638141317, ⟨[], 0, 0⟩, 0, 0, 0, lc0⟩ 3 1 1291)
    (.out ⟨4452, 16, 21720, 50390, 16, 78702, ⟨[[(0, 23025585564155904), (0, 14826085634054216), (0, 52674065232)],
    [(56993279120427109, 0), (0, 72442895173628), (358282832, 0)], [(0, 1989651701231227), (217992990228, 0),
    (22818106, 0)]], 2, 2⟩, ⟨[[(27612195986079744, 0), (0, 28067945547614690), (216967074152, 0)]], 2, 2⟩,
    72057594037927936, 5939389606711354, 99518391391, ⟨[], 0, 0⟩, 0, 0, 0, lc0⟩ 3 1 1522)) (.sy (.out ⟨4604, 16,
    22545, 50421, 16, 78797, ⟨[[(7746210059714560, 0), (0, 15397954620067804), (0, 57169871324)],
    [(53295155922791817, 0), (0, 75137003811603), (365541454, 0)], [(0, 2047431399749477), (229994411614, 0),
    (24024949, 0)]], 2, 2⟩, ⟨[[(0, 13857552151347200), (0, 28067968846783626), (216836513730, 0)]], 2, 2⟩,
    72057594037927936, 6190573547388978, 99398336031, ⟨[], 0, 0⟩, 0, 0, 0, lc0⟩ 3 1 1682) (.out ⟨4768, 16, 23434,
    50451, 16, 78892, ⟨[[(23611744757415936, 0), (0, 16014605205364772), (0, 62051169544)], [(49307215485448530, 0),
    (0, 78041071078833), (373283731, 0)], [(0, 2109366602288360), (242987181768, 0), (25330741, 0)]], 2, 2⟩,
    ⟨[[(14089785692389376, 0), (0, 28067971731172513), (216705952943, 0)]], 2, 2⟩, 72057594037927936,
    6461768216817333, 99278893457, ⟨[], 0, 0⟩, 0, 0, 0, lc0⟩ 3 1 1877))) (.sy (.out ⟨3095, 16, 15296, 25241, 16,
    39505, ⟨[[(31318448115351552, 0), (0, 20925889023575099), (0, 172464218948)], [(26227525202458505, 0), (0,
    101766514112896), (948126513, 0)], [(0, 1358055475272614), (325029685370, 0), (67564242, 0)]], 2, 2⟩, ⟨[[(0,
    34039767746740224), (0, 28059237127132357), (432885992180, 0)]], 2, 2⟩, 72057594037927936, 4259883084082265,
    396393523745, ⟨[], 0, 0⟩, 0, 0, 0, lc0⟩ 3 1 2106) (.out ⟨3237, 16, 16116, 25271, 16, 39600,
    ⟨[[(35700574480334848, 0), (0, 22077213767694306), (0, 196728805158)], [(19276228885898119, 0), (0,
    107069202919989), (961044815, 0)], [(0, 1403710523232121), (353718731708, 0), (73241017, 0)]], 2, 2⟩, ⟨[[(0,
    13306954736205824), (0, 28059142209620480), (432364241947, 0)]], 2, 2⟩, 72057594037927936, 4528064738327202,
    395439623519, ⟨[], 0, 0⟩, 0, 0, 0, lc0⟩ 3 1 2473)))
theorem c132 : checkR job con2 false ⟨7, 9, 7, 9, 13, 17⟩ 1 34400 t132 97 7 160 16195 39 16000 = true := by decide +kernel

def t133 : CTree :=
  .sx (.sy (.sy (.out ⟨2634, 16, 13237, 25302, 16, 39696, ⟨[[(18581510460243968, 0), (0, 16874761524724647), (0,
    173535846556)], [(47250578637707913, 0), (0, 95434180168892), (0, 795982679)], [(0, 1617726012104820),
    (241124642195, 0), (48609289, 0)]], 2, 2⟩, ⟨[[(0, 23943167593152512), (0, 28059673738823542), (431853385746,
    0)]], 2, 2⟩, 72057594037927936, 4433838554640290, 394498024903, ⟨[], 0, 0⟩, 0, 0, 0, lc0⟩ 3 1 2408) (.out ⟨2746,
    16, 13896, 25332, 16, 39791, ⟨[[(15282510961344512, 0), (0, 17744280522397867), (0, 194983656326)],
    [(41783230800714981, 0), (0, 100321977266175), (0, 916462124)], [(0, 1678206560629887), (261202309726, 0),
    (52481804, 0)]], 2, 2⟩, ⟨[[(0, 13726417272963072), (0, 28059416871651079), (431331635307, 0)]], 2, 2⟩,
    72057594037927936, 4701706203923046, 393548656501, ⟨[], 0, 0⟩, 0, 0, 0, lc0⟩ 3 1 2833)) (.sy (.out ⟨2870, 16,
    14624, 25363, 16, 39887, ⟨[[(0, 10643698141528064), (0, 18706973697650123), (0, 219025608622)],
    [(35731110688237481, 0), (0, 105734996367120), (0, 1051696651)], [(0, 1744346084013810), (283624527995, 0),
    (56802036, 0)]], 2, 2⟩, ⟨[[(0, 34950961184899072), (0, 28059784229058074), (430820718691, 0)]], 2, 2⟩,
    72057594037927936, 4999335169774316, 392611536364, ⟨[], 0, 0⟩, 0, 0, 0, lc0⟩ 3 1 3231) (.out ⟨3007, 16, 15434,
    25393, 16, 39982, ⟨[[(30091196424192000, 0), (0, 19780346154643833), (0, 246124915777)], [(28999120593781486, 0),
    (0, 111771970526070), (0, 1204307105)], [(0, 1817246416421086), (308818217969, 0), (61651534, 0)]], 2, 2⟩, ⟨[[(0,
    35174714133446656), (0, 28059367735910236), (430299003756, 0)]], 2, 2⟩, 72057594037927936, 5332252355672333,
    391666680939, ⟨[], 0, 0⟩, 0, 0, 0, lc0⟩ 3 1 3563))) (.sy (.sy (.out ⟨3395, 16, 17027, 25302, 16, 39696,
    ⟨[[(17061277585637376, 0), (0, 23358876118926241), (0, 224127374103)], [(11548481318704169, 0), (0,
    112966358708474), (974447657, 0)], [(0, 1453434070990231), (385958313106, 0), (79612099, 0)]], 2, 2⟩, ⟨[[(0,
    23943167593152512), (0, 28059673738823542), (431853385746, 0)]], 2, 2⟩, 72057594037927936, 4827634363405009,
    394498024903, ⟨[], 0, 0⟩, 0, 0, 0, lc0⟩ 3 1 2810) (.out ⟨3571, 16, 18044, 25332, 16, 39791,
    ⟨[[(15399597340098560, 0), (0, 24792497184253410), (0, 255208768100)], [(2906782257028614, 0), (0,
    119556038982307), (988340608, 0)], [(0, 1507824701041017), (422361010589, 0), (86796627, 0)]], 2, 2⟩, ⟨[[(0,
    13726417272963072), (0, 28059416871651079), (431331635307, 0)]], 2, 2⟩, 72057594037927936, 5163880837448869,
    393548656501, ⟨[], 0, 0⟩, 0, 0, 0, lc0⟩ 3 1 3127)) (.sy (.out ⟨3467, 16, 17648, 25363, 16, 39887, ⟨[[(0,
    31062044670296064), (0, 24288709819829842), (0, 267358576842)], [(0, 6271932382055712), (0, 116784863867034),
    (922371154, 0)], [(0, 1441990893476890), (426524413777, 0), (87333207, 0)]], 2, 2⟩, ⟨[[(0, 34950961184899072),
    (0, 28059784229058074), (430820718691, 0)]], 2, 2⟩, 72057594037927936, 5099097066411301, 392611536364, ⟨[], 0,
    0⟩, 0, 0, 0, lc0⟩ 3 1 3431) (.out ⟨3251, 16, 16677, 25393, 16, 39982, ⟨[[(0, 2165073152475136), (0,
    22993084700617403), (0, 269851990824)], [(0, 14529657945814576), (0, 110226663768448), (828869769, 0)], [(0,
    1330706667704059), (416115313129, 0), (84898511, 0)]], 2, 2⟩, ⟨[[(0, 35174714133446656), (0, 28059367735910236),
    (430299003756, 0)]], 2, 2⟩, 72057594037927936, 4866068437770854, 391666680939, ⟨[], 0, 0⟩, 0, 0, 0, lc0⟩ 3 1
    3672)))
theorem c133 : checkR job con2 false ⟨7, 9, 7, 9, 13, 17⟩ 1 34400 t133 97 7 160 16273 39 16000 = true := by decide +kernel

def t134 : CTree :=
  .sy (.sy (.sx (.sx (.sy (.sx (.leaf ⟨5258, 16, 10776, 625, 16, 4091, ⟨[[(29749108484669440, 0), (0,
    22121691803134878), (0, 478658430476), (0, 262248419), (0, 42196)], [(33369820533389701, 0), (0, 43898871586803),
    (0, 2776440998), (0, 1017936), (0, 168)], [(0, 155937135582252), (7146481719, 0), (2441664, 0), (493, 0)],
    [(221924818319, 0), (54477213, 0), (21971, 0), (5, 0)]], 3, 4⟩, ⟨[[(0, 14615412179935232), (0,
    10501015266302408), (0, 865511703433), (0, 279873080), (0, 50171)], [(0, 100041129647806830), (0,
    11455413866238), (0, 4041652776), (0, 986933), (0, 147)], [(49216258363809, 0), (74395153, 0), (0, 914681), (0,
    202)], [(0, 2811979602), (23303632, 0), (10228, 0), (2, 0)]], 3, 4⟩, 72057594037927936, 214068972578,
    52694110552, ⟨[[(12968135456977, 0), (364250166, 0), (1367191, 0), (951, 0), (0, 2)], [(1111458887, 0), (525414,
    0), (0, 852), (0, 2)], [(0, 207380), (0, 403), (1, 0)], [(0, 6), (1, 0)]], 3, 4⟩, 17592186044416, 100050,
    4127596228905459800268776825421141594420465444067073692533526077038823945463144668987893572288824071476287025953993492167368182,
    lc0⟩) (.sy (.leaf ⟨8835, 16, 18064, 754, 16, 5073, ⟨[[(18079559563870208, 0), (0, 19038675508302999), (0,
    209926110981), (0, 57190480), (0, 4614)], [(50262005640838738, 0), (0, 36512428169347), (0, 1105071136), (0,
    207053), (0, 17)], [(0, 246257687892822), (7807369955, 0), (1395619, 0), (150, 0)], [(361834521125, 0),
    (45335233, 0), (9220, 0), (1, 0)]], 3, 4⟩, ⟨[[(29398170222206976, 0), (0, 6588128371245433), (0, 280615280252),
    (0, 44900247), (0, 4006)], [(0, 122073133273863077), (0, 6995271539653), (0, 1241157547), (0, 151846), (0, 11)],
    [(60886970507839, 0), (666187015, 0), (0, 148721), (0, 15)], [(0, 2704462050), (14263235, 0), (3119, 0)]], 3, 4⟩,
    72057594037927936, 367230524187, 53433014604, ⟨[[(12976074153927, 0), (262556191, 0), (849488, 0), (550, 0), (0,
    1)], [(654593280, 0), (260969, 0), (0, 290), (0, 1)], [(0, 71482), (0, 116)], [(0, 3)]], 3, 4⟩, 17592186044416,
    75323,
    4329296139198186107945386758765089389475475243100575118263502267678785642731950542581525529248428324780647540348743413050500230,
    lc0⟩) (.out ⟨3422, 16, 18012, 25454, 16, 40174, ⟨[[(0, 23504881161502720), (0, 19017573573839038), (0,
    222835030126)], [(47270745148540855, 0), (0, 36583017071482), (0, 1150826017)], [(0, 244933037555069),
    (8004737828, 0), (1427056, 0)]], 2, 2⟩, ⟨[[(0, 31846826266853376), (0, 28059697878301092), (429277103623, 0)]],
    2, 2⟩, 72057594037927936, 129697876103233, 389803326388, ⟨[], 0, 0⟩, 0, 0, 0, lc0⟩ 3 1 2174))) (.sy (.out ⟨2524,
    16, 13386, 25484, 16, 40270, ⟨[[(17683793484906496, 0), (0, 13968393738341863), (0, 169603517955)],
    [(71173030538642459, 0), (0, 54808278045862), (0, 1813473657)], [(0, 749335463340413), (21464752729, 0),
    (3744263, 0)]], 2, 2⟩, ⟨[[(0, 2018401002192896), (0, 28059742188798700), (428766135244, 0)]], 2, 2⟩,
    72057594037927936, 770917225667551, 388875024753, ⟨[], 0, 0⟩, 0, 0, 0, lc0⟩ 3 1 2467) (.out ⟨2577, 16, 13749,
    25514, 16, 40366, ⟨[[(10970063350366208, 0), (0, 14375183557937744), (0, 184771042944)], [(68700624368585947, 0),
    (0, 56591300460789), (0, 1942018405)], [(0, 767912611672860), (22654232278, 0), (3941833, 0)]], 2, 2⟩,
    ⟨[[(22592112838311936, 0), (0, 28059706756559445), (428255166383, 0)]], 2, 2⟩, 72057594037927936,
    799975307637837, 387948962700, ⟨[], 0, 0⟩, 0, 0, 0, lc0⟩ 3 1 3044))) (.sy (.sy (.out ⟨2707, 16, 14110, 25423, 16,
    40078, ⟨[[(0, 11708074431447040), (0, 15467238401107328), (0, 181554859689)], [(63101613342903360, 0), (0,
    56434424445173), (0, 1615638933)], [(0, 699472455570824), (33337142061, 0), (6188892, 0)]], 2, 2⟩,
    ⟨[[(5145729176436736, 0), (0, 28059573252797929), (429788062751, 0)]], 2, 2⟩, 72057594037927936, 760060768114987,
    390734164234, ⟨[], 0, 0⟩, 0, 0, 0, lc0⟩ 3 1 2351) (.out ⟨2765, 16, 14504, 25454, 16, 40174,
    ⟨[[(14080077767639040, 0), (0, 15929158941930663), (0, 198318781959)], [(60328570842270016, 0), (0,
    58275235723071), (0, 1736582396)], [(0, 716292192594794), (35273644250, 0), (6531552, 0)]], 2, 2⟩, ⟨[[(0,
    31846826266853376), (0, 28059697878301092), (429277103623, 0)]], 2, 2⟩, 72057594037927936, 789441546064842,
    389803326388, ⟨[], 0, 0⟩, 0, 0, 0, lc0⟩ 3 1 2826)) (.out ⟨1776, 16, 9402, 12742, 16, 20147, ⟨[[(0,
    21248132180623360), (0, 20714569006689047), (0, 561164137221)], [(34671538008111438, 0), (0, 76096625291426), (0,
    4807360714)], [(0, 461591640649048), (47752436914, 0), (17619454, 0)]], 2, 2⟩, ⟨[[(0, 973685364752384), (0,
    28043031353529613), (856511143628, 0)]], 2, 2⟩, 72057594037927936, 538364556946453, 1553647728358, ⟨[], 0, 0⟩, 0,
    0, 0, lc0⟩ 3 1 3651))) (.sy (.sy (.out ⟨2288, 16, 11866, 25423, 16, 40078, ⟨[[(32332874705207296, 0), (0,
    13989469014622475), (0, 178463838040)], [(61443977820073929, 0), (0, 91936172128207), (0, 2150417291)], [(0,
    1909271528078722), (171569190920, 0), (33150123, 0)]], 2, 2⟩, ⟨[[(5145729176436736, 0), (0, 28059573252797929),
    (429788062751, 0)]], 2, 2⟩, 72057594037927936, 4731301077722377, 390734164234, ⟨[], 0, 0⟩, 0, 0, 0, lc0⟩ 3 1
    3321) (.out ⟨2381, 16, 12430, 25454, 16, 40174, ⟨[[(24600812102090752, 0), (0, 14684441100654914), (0,
    198254843766)], [(56838657107564919, 0), (0, 96666211182642), (0, 2366350887)], [(0, 1985788968542358),
    (185216110759, 0), (35690188, 0)]], 2, 2⟩, ⟨[[(0, 31846826266853376), (0, 28059697878301092), (429277103623,
    0)]], 2, 2⟩, 72057594037927936, 5010390868729991, 389803326388, ⟨[], 0, 0⟩, 0, 0, 0, lc0⟩ 3 1 3742)) (.out ⟨1594,
    16, 8406, 12742, 16, 20147, ⟨[[(19620491421614080, 0), (0, 19926707652059550), (0, 583644883802)],
    [(30767124267370903, 0), (0, 131520976110863), (0, 6877430511)], [(0, 1327933867943197), (262042013053, 0),
    (100592116, 0)]], 2, 2⟩, ⟨[[(0, 973685364752384), (0, 28043031353529613), (856511143628, 0)]], 2, 2⟩,
    72057594037927936, 3484917215053924, 1553647728358, ⟨[], 0, 0⟩, 0, 0, 0, lc0⟩ 3 1 4382))) (.sy (.out ⟨1021, 16,
    5466, 12772, 16, 20243, ⟨[[(0, 20612143842852864), (0, 12407910633787207), (0, 384978267865)],
    [(52368081113114030, 0), (0, 176984516247266), (0, 11501181589)], [(0, 3964055540541115), (555592247444, 0),
    (207435120, 0)]], 2, 2⟩, ⟨[[(19739587158736896, 0), (0, 28042881581997450), (854470933971, 0)]], 2, 2⟩,
    72057594037927936, 19752463119737638, 1546258888554, ⟨[], 0, 0⟩, 0, 0, 0, lc0⟩ 3 1 4906) (.out ⟨1104, 16, 5993,
    12802, 16, 20339, ⟨[[(26102175482871808, 0), (0, 13673595726234375), (0, 467850792996)], [(42202417567361454, 0),
    (0, 196100487602874), (0, 13708822367)], [(0, 4297323548264070), (645608412236, 0), (239974251, 0)]], 2, 2⟩,
    ⟨[[(30103563071389696, 0), (0, 28042417923720245), (852430857638, 0)]], 2, 2⟩, 72057594037927936,
    22170168203836330, 1538905233303, ⟨[], 0, 0⟩, 0, 0, 0, lc0⟩ 3 1 5606))) (.sy (.sy (.out ⟨1207, 16, 6638, 12833,
    16, 20436, ⟨[[(0, 15823629907607552), (0, 15230182958643607), (0, 571448599036)], [(29707471270917006, 0), (0,
    219673652445439), (0, 16464172714)], [(0, 4702401756721390), (757690000070, 0), (280451508, 0)]], 2, 2⟩,
    ⟨[[(3383575500947456, 0), (0, 28043017069423202), (850432663212, 0)]], 2, 2⟩, 72057594037927936,
    25161603462149879, 1531661980688, ⟨[], 0, 0⟩, 0, 0, 0, lc0⟩ 3 1 6381) (.out ⟨1336, 16, 7449, 12864, 16, 20533,
    ⟨[[(0, 24286587659599872), (0, 17195828386086794), (0, 704020811276)], [(13993597536090297, 0), (0,
    249511382021061), (0, 19985938087)], [(0, 5208649573116266), (900696890648, 0), (332050276, 0)]], 2, 2⟩, ⟨[[(0,
    33753082468368384), (0, 28043298236814713), (848434279394, 0)]], 2, 2⟩, 72057594037927936, 28958808752842999,
    1524452654351, ⟨[], 0, 0⟩, 0, 0, 0, lc0⟩ 3 1 6984)) (.out ⟨769, 16, 4380, 6447, 16, 10327, ⟨[[(0,
    9516625848557568), (0, 20429573155403835), (0, 1891179761727)], [(0, 9104344191664808), (0, 299252069884978), (0,
    52679077151)], [(0, 2997967619973448), (1154362613682, 0), (846302910, 0)]], 2, 2⟩, ⟨[[(0, 10986678061891584),
    (0, 28009907873648446), (1688869935101, 0)]], 2, 2⟩, 72057594037927936, 18090273646195233, 6054761018651, ⟨[], 0,
    0⟩, 0, 0, 0, lc0⟩ 3 1 7810))
theorem c134 : checkR job con2 false ⟨7, 9, 7, 9, 13, 17⟩ 1 34400 t134 83 7 160 4117 39 4000 = true := by decide +kernel

def t135 : CTree :=
  .sy (.sy (.sy (.out ⟨1540, 16, 7988, 12712, 16, 20051, ⟨[[(5594671787606016, 0), (0, 21332274082278574), (0,
    570235097342)], [(0, 7055598680104407), (0, 222004467694306), (0, 1590228895)], [(0, 3042886611154128),
    (1516616305454, 0), (609459843, 0)]], 2, 2⟩, ⟨[[(0, 32110397578674176), (0, 28042862719669396), (858551349223,
    0)]], 2, 2⟩, 72057594037927936, 21321948264278803, 1561071853446, ⟨[], 0, 0⟩, 0, 0, 0, lc0⟩ 3 1 4097) (.out
    ⟨1368, 16, 7203, 12742, 16, 20147, ⟨[[(0, 9863783653326848), (0, 19320955314207074), (0, 576777487598)], [(0,
    21986685276312978), (0, 200453877553387), (0, 1984816351)], [(0, 2633776882207171), (1455761914127, 0),
    (581321659, 0)]], 2, 2⟩, ⟨[[(0, 973685364752384), (0, 28043031353529613), (856511143628, 0)]], 2, 2⟩,
    72057594037927936, 19667032887673092, 1553647728358, ⟨[], 0, 0⟩, 0, 0, 0, lc0⟩ 3 1 4676)) (.sy (.out ⟨1226, 16,
    6557, 12772, 16, 20243, ⟨[[(7343031499948032, 0), (0, 17674698507635853), (0, 584938623543)], [(0,
    34260002705600677), (0, 182798754567682), (0, 2332651013)], [(0, 2290920633528084), (1410112664323, 0),
    (559682124, 0)]], 2, 2⟩, ⟨[[(19739587158736896, 0), (0, 28042881581997450), (854470933971, 0)]], 2, 2⟩,
    72057594037927936, 18331888173260664, 1546258888554, ⟨[], 0, 0⟩, 0, 0, 0, lc0⟩ 3 1 5091) (.out ⟨210, 16, 347,
    12817, 16, 12468, ⟨[[(26571237801484288, 0)], [(156274907069756197, 0)]], 2, 2⟩, ⟨[[(35569429856911360, 0),
    (28075440077027673, 0)]], 2, 2⟩, 72057594037927936, 1738, 60854, ⟨[], 0, 0⟩, 0, 0, 0, lc0⟩ 2 1 25608))) (.out
    ⟨210, 16, 347, 3223, 16, 3117, ⟨[[(26571237801484288, 0)], [(156274907069756197, 0)]], 2, 2⟩,
    ⟨[[(26490173008183296, 0), (28075440077027673, 0)]], 2, 2⟩, 72057594037927936, 1738, 9998, ⟨[], 0, 0⟩, 0, 0, 0,
    lc0⟩ 2 1 48477)
theorem c135 : checkR job con2 false ⟨7, 9, 7, 9, 13, 17⟩ 1 34400 t135 97 7 160 4117 39 4000 = true := by decide +kernel

def t136 : CTree :=
  .sy (.leaf ⟨1919, 16, 3732, 89, 16, 917, ⟨[[(0, 9313784167956480), (0, 22273826441786473), (0, 54737884854), (0,
    746416670), (0, 247187)], [(20921475241790112, 0), (0, 179426645946162), (28996984632, 0), (5643192, 0), (2371,
    0)], [(0, 904980399519496), (1113685136067, 0), (1003777046, 0), (498881, 0), (179, 0)], [(16274104685873, 0),
    (2329538398, 0), (3633642, 0), (1965, 0), (1, 0)]], 3, 4⟩, ⟨[[(0, 15059507709156352), (0, 5149277855701734), (0,
    981170556570), (0, 620879748), (0, 222185)], [(0, 125610983996981394), (0, 15552772751713), (0, 11610287524), (0,
    6183220), (0, 1929)], [(590542289535882, 0), (284959928045, 0), (207471073, 0), (106215, 0), (35, 0)], [(0,
    1162322695936), (1281967292, 0), (1270157, 0), (621, 0)]], 3, 4⟩, 72057594037927936, 345148269681629,
    17461852859341, ⟨[[(13205214338725, 0), (425611691, 0), (10486717, 0), (86106, 0), (176, 0)], [(2559693505, 0),
    (6808382, 0), (0, 2947), (0, 97), (0, 2)], [(0, 1403159), (0, 1766), (0, 87)], [(0, 348), (13, 0)]], 3, 4⟩,
    17592186044416, 4173982,
    3108949998906468960141435379624334467283552992439765790825467801828698404627150380973290146903374616615482155212324873774056764,
    lc0⟩) (.sx (.leaf ⟨2271, 16, 4475, 148, 16, 1514, ⟨[[(27586090141351936, 0), (0, 25983246184148546), (0,
    397517984717), (0, 1010789519), (0, 333186)], [(8045066530243183, 0), (0, 110088730800920), (13601656992, 0),
    (1564096, 0), (764, 0)], [(0, 298467946263063), (371175394191, 0), (322515532, 0), (159047, 0), (56, 0)],
    [(2780466901541, 0), (743158328, 0), (847773, 0), (445, 0)]], 3, 4⟩, ⟨[[(0, 28783057160841216), (0,
    8666417171692267), (0, 1793134446317), (0, 1103196688), (0, 388566)], [(0, 108335823035934446), (0,
    16226883489448), (0, 12142607381), (0, 6280229), (0, 1945)], [(257806220424558, 0), (124553051024, 0), (89612730,
    0), (45304, 0), (15, 0)], [(0, 195969417001), (382711603, 0), (356767, 0), (173, 0)]], 3, 4⟩, 72057594037927936,
    27948877065220, 2067817170827, ⟨[[(13140355615183, 0), (161843922, 0), (3915490, 0), (19870, 0), (29, 0)],
    [(2196283656, 0), (3499095, 0), (505, 0), (0, 24)], [(0, 947551), (0, 1309), (0, 27)], [(0, 466), (7, 0)]], 3,
    4⟩, 17592186044416, 907372,
    5094650746459049581198531488694910128034841508625787619380651825864620081771508236111694388787712082996218034432928327570429666,
    lc0⟩) (.leaf ⟨2270, 16, 4471, 132, 16, 1574, ⟨[[(14625749999190016, 0), (0, 27425576113840325), (0,
    141742167579), (0, 955799806), (0, 310758)], [(1200120686977897, 0), (0, 99288893296258), (23019822931, 0),
    (6228365, 0), (2421, 0)], [(0, 194524659367967), (389187183624, 0), (348049618, 0), (172699, 0), (61, 0)],
    [(2161965047261, 0), (120740924, 0), (373661, 0), (208, 0)]], 3, 4⟩, ⟨[[(20768569158852608, 0), (0,
    9219682501274923), (0, 2021741789885), (0, 1228641593), (0, 429076)], [(0, 105253131176908251), (0,
    13040784178083), (0, 9822781532), (0, 5116805), (0, 1555)], [(258507084846375, 0), (142924472357, 0), (105989183,
    0), (53333, 0), (18, 0)], [(0, 250865085747), (241089026, 0), (239475, 0), (116, 0)]], 3, 4⟩, 72057594037927936,
    27352047919259, 2502197597603, ⟨[[(13140692766238, 0), (24870732, 0), (2546798, 0), (15015, 0), (35, 0)],
    [(2123066350, 0), (3325670, 0), (1249, 0), (0, 4)], [(0, 936179), (0, 55), (0, 29)], [(0, 573), (4, 0)]], 3, 4⟩,
    17592186044416, 755791,
    4605321327634605216418231305016461692324523876088682619044963280186199888633063049965775989227374112416172776077862056993423422,
    lc0⟩))
theorem c136 : checkR job con2 false ⟨7, 9, 7, 9, 13, 17⟩ 1 34400 t136 111 7 160 8039 39 8000 = true := by decide +kernel

def t137 : CTree :=
  .sx (.sy (.sy (.sy (.out ⟨6039, 16, 29310, 50360, 16, 78607, ⟨[[(0, 11292196314939392), (0, 21306306652219015), (0,
    54698193262)], [(21229228666330514, 0), (0, 89146521027321), (1413975941, 0)], [(0, 1844061630510083),
    (327824971383, 0), (35216498, 0)]], 2, 2⟩, ⟨[[(0, 5620937096953856), (0, 28067901759751204), (217097633635, 0)]],
    2, 2⟩, 72057594037927936, 6520924355720386, 99638141317, ⟨[], 0, 0⟩, 0, 0, 0, lc0⟩ 3 1 1631) (.out ⟨6301, 16,
    30700, 50390, 16, 78702, ⟨[[(4888780607324160, 0), (0, 22325939375997985), (0, 60671088789)],
    [(14961838289991605, 0), (0, 93142753448708), (1486419814, 0)], [(0, 1904506074195135), (349167662628, 0),
    (37420914, 0)]], 2, 2⟩, ⟨[[(27612195986079744, 0), (0, 28067945547614690), (216967074152, 0)]], 2, 2⟩,
    72057594037927936, 6851225213504055, 99518391391, ⟨[], 0, 0⟩, 0, 0, 0, lc0⟩ 3 1 1793)) (.out ⟨3582, 16, 17554,
    25210, 16, 39410, ⟨[[(11719233956806656, 0), (0, 25548488446350382), (0, 150543353810)], [(2335494637629444, 0),
    (0, 106117610127399), (3418604192, 0)], [(0, 1065326244328016), (409424721658, 0), (87452689, 0)]], 2, 2⟩,
    ⟨[[(12026153224110080, 0), (0, 28059251044151115), (433407748477, 0)]], 2, 2⟩, 72057594037927936,
    3948299553798916, 397349629041, ⟨[], 0, 0⟩, 0, 0, 0, lc0⟩ 3 1 2007)) (.sy (.out ⟨3477, 16, 17172, 25241, 16,
    39505, ⟨[[(10320449175650304, 0), (0, 25016710829874209), (0, 162976423015)], [(0, 5791982197001782), (0,
    103284668084175), (3369687793, 0)], [(0, 1010377554150020), (414054240392, 0), (88041046, 0)]], 2, 2⟩, ⟨[[(0,
    34039767746740224), (0, 28059237127132357), (432885992180, 0)]], 2, 2⟩, 72057594037927936, 3887838399623169,
    396393523745, ⟨[], 0, 0⟩, 0, 0, 0, lc0⟩ 3 1 2247) (.out ⟨3283, 16, 16342, 25271, 16, 39600,
    ⟨[[(21101391520530432, 0), (0, 23832927136422653), (0, 170433276501)], [(0, 13159280376142688), (0,
    97790242839336), (3231960003, 0)], [(0, 930291593791471), (407300897662, 0), (86222405, 0)]], 2, 2⟩, ⟨[[(0,
    13306954736205824), (0, 28059142209620480), (432364241947, 0)]], 2, 2⟩, 72057594037927936, 3725179968347047,
    395439623519, ⟨[], 0, 0⟩, 0, 0, 0, lc0⟩ 3 1 2510))) (.sy (.sx (.sy (.sy (.out ⟨7075, 16, 34337, 50360, 16, 78607,
    ⟨[[(16179850317070336, 0), (0, 26014042676062405), (0, 42024457688)], [(0, 6882600396895856), (0,
    48080981968867), (1277029773, 0)], [(0, 384695859233650), (100371048563, 0), (10997647, 0)]], 2, 2⟩, ⟨[[(0,
    5620937096953856), (0, 28067901759751204), (217097633635, 0)]], 2, 2⟩, 72057594037927936, 781596292706759,
    99638141317, ⟨[], 0, 0⟩, 0, 0, 0, lc0⟩ 3 1 1638) (.out ⟨6883, 16, 33540, 50390, 16, 78702, ⟨[[(35408472182161408,
    0), (0, 25416908803911391), (0, 44612613904)], [(0, 10378507233236123), (0, 46769652092129), (1256696139, 0)],
    [(0, 368053744159323), (99729300017, 0), (10898688, 0)]], 2, 2⟩, ⟨[[(27612195986079744, 0), (0,
    28067945547614690), (216967074152, 0)]], 2, 2⟩, 72057594037927936, 764659565660196, 99518391391, ⟨[], 0, 0⟩, 0,
    0, 0, lc0⟩ 3 1 1767)) (.out ⟨3505, 16, 17179, 25210, 16, 39410, ⟨[[(0, 32915749415682048), (0,
    26048139211217080), (0, 102527276693)], [(0, 8109721903041976), (0, 47607369400174), (2603845612, 0)], [(0,
    182461642490684), (104802558924, 0), (22817683, 0)]], 2, 2⟩, ⟨[[(12026153224110080, 0), (0, 28059251044151115),
    (433407748477, 0)]], 2, 2⟩, 72057594037927936, 396583305424680, 397349629041, ⟨[], 0, 0⟩, 0, 0, 0, lc0⟩ 3 1
    1980)) (.sy (.leaf ⟨8592, 16, 17062, 293, 16, 3817, ⟨[[(0, 12395731759267840), (0, 26503770782307824), (0,
    47120649095), (0, 59172088), (0, 4755)], [(0, 9025087468652337), (0, 44851458543929), (3172012055, 0), (239066,
    0), (23, 0)], [(0, 145744902036239), (101396585670, 0), (22524191, 0), (2788, 0)], [(958892978501, 0), (0,
    2067369), (8061, 0), (1, 0)]], 3, 4⟩, ⟨[[(10392892158115840, 0), (0, 5743078879050059), (0, 340009723670), (0,
    50507601), (0, 4347)], [(0, 126176383044609609), (0, 3925812400622), (0, 741630043), (0, 95206), (0, 7)],
    [(159537011731476, 0), (23675472410, 0), (4416585, 0), (550, 0)], [(0, 76815433622), (16854274, 0), (4202, 0),
    (1, 0)]], 3, 4⟩, 72057594037927936, 6543535958663, 402731779838, ⟨[[(13101770879542, 0), (0, 36076985), (346208,
    0), (936, 0), (1, 0)], [(555565722, 0), (354187, 0), (109, 0)], [(0, 61675), (12, 0)], [(0, 16)]], 3, 4⟩,
    17592186044416, 50855,
    4802991907653789441529567324691850383257075358640048322790077121044332896404406160251681914029049905948241346634117417322214994,
    lc0⟩) (.sy (.out ⟨6242, 16, 30554, 50421, 16, 78797, ⟨[[(21628595112509440, 0), (0, 23736471069596383), (0,
    25788574862)], [(0, 20840890647938807), (0, 39824655631387), (1439073533, 0)], [(0, 250233279567772),
    (93174067580, 0), (10305227, 0)]], 2, 2⟩, ⟨[[(0, 13857552151347200), (0, 28067968846783626), (216836513730, 0)]],
    2, 2⟩, 72057594037927936, 601935535058334, 99398336031, ⟨[], 0, 0⟩, 0, 0, 0, lc0⟩ 3 1 1763) (.out ⟨1009, 16,
    1389, 50467, 16, 49874, ⟨[[(14073748835532800, 0)], [(156387497060440466, 0)]], 2, 2⟩, ⟨[[(0, 25696413574234112),
    (28076565976934515, 0)]], 2, 2⟩, 72057594037927936, 54, 364917, ⟨[], 0, 0⟩, 0, 0, 0, lc0⟩ 2 1 6901)))) (.sy (.sx
    (.out ⟨3395, 16, 16779, 25241, 16, 39505, ⟨[[(28388192499007488, 0), (0, 25458400401987463), (0, 114952672273)],
    [(0, 11532253458222983), (0, 46099100047029), (2582208542, 0)], [(0, 170091997742242), (105889603545, 0),
    (22938290, 0)]], 2, 2⟩, ⟨[[(0, 34039767746740224), (0, 28059237127132357), (432885992180, 0)]], 2, 2⟩,
    72057594037927936, 388767534526300, 396393523745, ⟨[], 0, 0⟩, 0, 0, 0, lc0⟩ 3 1 2102) (.out ⟨1009, 16, 1389,
    25256, 16, 24937, ⟨[[(14073748835532800, 0)], [(156387497060440466, 0)]], 2, 2⟩, ⟨[[(8335037010542592, 0),
    (28076565976934515, 0)]], 2, 2⟩, 72057594037927936, 54, 186659, ⟨[], 0, 0⟩, 0, 0, 0, lc0⟩ 2 1 10369)) (.out ⟨497,
    16, 694, 25287, 16, 24937, ⟨[[(0, 25670517876015104)], [(156274907069756197, 0)]], 2, 2⟩, ⟨[[(0,
    35478231964450816), (28076565976934515, 0)]], 2, 2⟩, 72057594037927936, 3377, 67122, ⟨[], 0, 0⟩, 0, 0, 0, lc0⟩ 2
    1 12134)))
theorem c137 : checkR job con2 false ⟨7, 9, 7, 9, 13, 17⟩ 1 34400 t137 111 7 160 16195 39 16000 = true := by decide +kernel

def t138 : CTree :=
  .sy (.sy (.out ⟨2240, 16, 11247, 25302, 16, 39696, ⟨[[(7863218782863360, 0), (0, 16875881442638467), (0,
    109380790093)], [(0, 43841780925507328), (0, 125636255958378), (6237820208, 0)], [(0, 1899385939439796),
    (1200990373617, 0), (256074777, 0)]], 2, 2⟩, ⟨[[(0, 23943167593152512), (0, 28059673738823542), (431853385746,
    0)]], 2, 2⟩, 72057594037927936, 18793814386697841, 394498024903, ⟨[], 0, 0⟩, 0, 0, 0, lc0⟩ 3 1 2585) (.out ⟨2099,
    16, 10624, 25332, 16, 39791, ⟨[[(0, 17361964868796416), (0, 15958000015641374), (0, 113601359809)], [(0,
    50634058321917486), (0, 117751287506164), (5975518971, 0)], [(0, 1704200053436727), (1172745553584, 0),
    (248925035, 0)]], 2, 2⟩, ⟨[[(0, 13726417272963072), (0, 28059416871651079), (431331635307, 0)]], 2, 2⟩,
    72057594037927936, 17859021227471777, 393548656501, ⟨[], 0, 0⟩, 0, 0, 0, lc0⟩ 3 1 2793)) (.out ⟨241, 16, 347,
    12696, 16, 12468, ⟨[[(0, 19365478397693952)], [(156274907069756197, 0)]], 2, 2⟩, ⟨[[(0, 4998995586318336),
    (28075440077027673, 0)]], 2, 2⟩, 72057594037927936, 919, 62952, ⟨[], 0, 0⟩, 0, 0, 0, lc0⟩ 2 1 21739)
theorem c138 : checkR job con2 false ⟨7, 9, 7, 9, 13, 17⟩ 1 34400 t138 111 7 160 16273 39 16000 = true := by decide +kernel

def t139 : CTree :=
  .sy (.leaf ⟨1046, 16, 2047, 57, 16, 831, ⟨[[(28324018058493952, 0), (0, 26904740578566400), (1066348607790, 0), (0,
    2609053944), (0, 1629135)], [(0, 1097564668758768), (0, 157691669529667), (132782994205, 0), (93920499, 0),
    (70300, 0)], [(0, 182671360632302), (1242602340660, 0), (2401314572, 0), (2407127, 0), (1733, 0)],
    [(4887251301564, 0), (0, 6171629639), (0, 5446065), (0, 4915), (0, 3)]], 3, 4⟩, ⟨[[(9724977179874816, 0), (0,
    9782676301450174), (0, 4287250964202), (0, 5247822574), (0, 3666004)], [(0, 99787344871611721), (0,
    13588473905600), (0, 20375708520), (0, 22349824), (0, 12662)], [(495270666333727, 0), (599785114075, 0),
    (915420291, 0), (925285, 0), (619, 0)], [(0, 1393307237221), (43160732, 0), (754724, 0), (739, 0), (1, 0)]], 3,
    4⟩, 72057594037927936, 182678481300391, 21707029912534, ⟨[[(13171093748533, 0), (0, 48085897), (5733761, 0),
    (78963, 0), (470, 0)], [(4402443855, 0), (13685839, 0), (1099, 0), (165, 0), (0, 4)], [(0, 4652602), (12447, 0),
    (0, 458)], [(0, 4604), (0, 3), (3, 0)]], 3, 4⟩, 17592186044416, 10518340,
    3516962938782598681611771841424144550300439050948963024913933648237521673062503806460643270588346434977816789329947718553596695,
    lc0⟩) (.out ⟨271, 16, 347, 3163, 16, 3117, ⟨[[(6755399441055744, 0)], [(156274907069756197, 0)]], 2, 2⟩, ⟨[[(0,
    29822836732428288), (28075440077027673, 0)]], 2, 2⟩, 72057594037927936, 100, 19174, ⟨[], 0, 0⟩, 0, 0, 0, lc0⟩ 2 1
    32063)
theorem c139 : checkR job con2 false ⟨7, 9, 7, 9, 13, 17⟩ 1 34400 t139 125 7 160 4039 39 4000 = true := by decide +kernel

def t140 : CTree :=
  .sy (.sy (.leaf ⟨1776, 16, 3451, 27, 16, 657, ⟨[[(5200860606578688, 0), (0, 25240277111902313), (2022312969094, 0),
    (61142428, 0), (54228, 0)], [(0, 7011352119837213), (0, 215148019548767), (174847023271, 0), (71423205, 0),
    (26637, 0)], [(0, 212178771987301), (1370064306752, 0), (2299532777, 0), (1172723, 0), (446, 0)],
    [(14055530475613, 0), (0, 113862157841), (0, 74704066), (0, 37388), (0, 13)]], 3, 4⟩, ⟨[[(0, 35893318392887040),
    (0, 3814071741063525), (0, 793475572539), (0, 497603974), (0, 173230)], [(0, 128490469400682551), (7584290068571,
    0), (6260769914, 0), (2813759, 0), (1159, 0)], [(1207187580680502, 0), (748577425576, 0), (595288216, 0),
    (304732, 0), (103, 0)], [(0, 11409567871260), (0, 8553294186), (0, 6058806), (0, 2964), (0, 1)]], 3, 4⟩,
    72057594037927936, 2440304285792351, 128350870350717, ⟨[[(13204555436065, 0), (0, 129741917), (2606745, 0),
    (80020, 0), (1067, 0)], [(2378624605, 0), (10866703, 0), (0, 22231), (387, 0)], [(0, 1835168), (13028, 0), (0,
    185), (0, 1)], [(0, 267), (0, 31), (1, 0)]], 3, 4⟩, 17592186044416, 6492590,
    2983501128330527144214358730793158897002378420150849151865998008684990083648205607211927731088826425134338370310963188326802027,
    lc0⟩) (.out ⟨158, 16, 173, 6280, 16, 6234, ⟨[[(0, 9907919180216320)], [(155824547107019154, 0)]], 2, 2⟩, ⟨[[(0,
    29822836732395520), (28075440077027673, 0)]], 2, 2⟩, 72057594037927936, 1282, 51942, ⟨[], 0, 0⟩, 0, 0, 0, lc0⟩ 2
    1 24723)) (.out ⟨158, 16, 173, 3163, 16, 3117, ⟨[[(0, 9907919180216320)], [(155824547107019154, 0)]], 2, 2⟩,
    ⟨[[(0, 29822836732428288), (28075440077027673, 0)]], 2, 2⟩, 72057594037927936, 1282, 19174, ⟨[], 0, 0⟩, 0, 0, 0,
    lc0⟩ 2 1 53343)
theorem c140 : checkR job con2 false ⟨7, 9, 7, 9, 13, 17⟩ 1 34400 t140 73 7 80 4039 39 4000 = true := by decide +kernel

def t141 : CTree :=
  .out ⟨71, 16, 86, 1604, 16, 1558, ⟨[[(0, 3602879701896192)], [(154923827181545051, 0)]], 2, 2⟩, ⟨[[(0,
    30876679045251072), (28066432877772931, 0)]], 2, 2⟩, 72057594037927936, 285, 1052, ⟨[], 0, 0⟩, 0, 0, 0, lc0⟩ 2 1
    98396
theorem c141 : checkR job con2 false ⟨7, 9, 7, 9, 13, 17⟩ 1 34400 t141 33 7 40 4117 39 4000 = true := by decide +kernel

end PyX.Kron.T3b
