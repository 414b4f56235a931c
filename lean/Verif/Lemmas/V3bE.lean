import Verif.Lemmas.V3bJob

/-!
# The volume from pressure and enthalpy in subregion 3b, part E of the certificate
-/

namespace PyX.Kron.V3b

set_option Elab.async false

def t123 : CTree :=
  .sx (.sy (.sx (.sy (.leaf ⟨849, 16, 2160, 108, 16, 3217, ⟨[[(28367362678136832, 0), (0, 3118600755484939),
    (40733591836, 0), (538176, 0), (42, 0)], [(14754334872668495, 0), (0, 2635839341684), (43699759, 0), (535, 0)],
    [(16661938206505, 0), (0, 1472977565), (0, 34517), (0, 4)], [(21816790182, 0), (0, 820928), (0, 19)]], 3, 4⟩,
    ⟨[[(32912350092622848, 0), (0, 1895787577278223), (1762817533, 0), (0, 834936), (0, 48)], [(0,
    30271322832988849), (225998424860, 0), (29429183, 0), (1953, 0)], [(8372820990415, 0), (0, 111082904), (0,
    9395)], [(0, 4243478425), (0, 408776), (0, 39)]], 3, 4⟩, 72057594037927936, 2850565975433, 719497414927,
    ⟨[[(5025255473876, 0), (5823958116, 0), (5319169, 0), (0, 2684), (3, 0)], [(0, 3544906725), (0, 11877779), (0,
    8112), (9, 0)], [(6243078, 0), (23165, 0), (0, 5)], [(0, 12967), (0, 38)]], 3, 4⟩, 17592186044416, 3103601,
    3490724235938741846398216962289092530149407839142210028789334548611771202820194872007881009433251428707074038205990001576349835,
    lc0⟩) (.leaf ⟨857, 16, 2237, 95, 16, 3225, ⟨[[(23119150829027328, 0), (0, 3186974702553253), (43093129455, 0),
    (649133, 0), (48, 0)], [(13921418217881384, 0), (0, 2683911540756), (46192154, 0), (690, 0)], [(16480626717474,
    0), (0, 1564242381), (0, 41539), (0, 4)], [(22162454906, 0), (0, 871726), (0, 23)]], 3, 4⟩,
    ⟨[[(35380017664774144, 0), (0, 1899385257472636), (432190719, 0), (0, 937404), (0, 52)], [(0, 30225179007117739),
    (257712929162, 0), (32607489, 0), (2169, 0)], [(8335323980362, 0), (0, 121070646), (0, 9929)], [(0, 4470023764),
    (0, 451498), (0, 44)]], 3, 4⟩, 72057594037927936, 3010433221817, 755888177083, ⟨[[(5024845792955, 0),
    (5928779039, 0), (5580832, 0), (0, 3035), (3, 0)], [(0, 3536715612), (0, 12248687), (0, 7875), (10, 0)],
    [(6360478, 0), (24185, 0), (0, 9)], [(0, 13633), (0, 40)]], 3, 4⟩, 17592186044416, 3337236,
    4869798178384608093941316088914654975329534252546360876006620340328591098745648708463071673492286280011283138106843544245152797,
    lc0⟩)) (.out ⟨388, 16, 1189, 1671, 16, 1599, ⟨[[(0, 17193823290363904), (0, 3534541906941113), (94550385539, 0)],
    [(8577633683152090, 0), (0, 3020136302931), (90075091, 0)], [(10552221187454, 0), (0, 1750085215), (0, 86084)]],
    2, 2⟩, ⟨[[(0, 32139135120179200), (0, 2623650944461330), (6667048841, 0)], [(0, 20551508466838229),
    (319045516490, 0), (83276556, 0)], [(5451943759584, 0), (0, 231526838), (0, 40399)]], 2, 2⟩, 72057594037927936,
    171044399186949, 102886707413542, ⟨[], 0, 0⟩, 0, 0, 0, lc0⟩ 2 1 26478527574111)) (.out ⟨335, 16, 1101, 1179, 16,
    1137, ⟨[[(0, 20665421718425600), (0, 3126791469968747), (89999080528, 0)], [(12400509932010069, 0), (0,
    5281745204174), (180413893, 0)], [(32824741652332, 0), (0, 6651593676), (0, 415762)]], 2, 2⟩,
    ⟨[[(9947937645264896, 0), (0, 1869648191944993), (0, 2133094711)], [(0, 29291004219504518), (600764609009, 0),
    (147605638, 0)], [(15684549948077, 0), (0, 665359209), (0, 109460)]], 2, 2⟩, 72057594037927936, 930342310713170,
    256965985912667, ⟨[], 0, 0⟩, 0, 0, 0, lc0⟩ 2 1 36874799071376)) (.out ⟨178, 16, 552, 835, 16, 812, ⟨[[(0,
    14418432477313024), (0, 3418109342258050), (189499656346, 0)], [(8601334824101521, 0), (0, 5961099895882),
    (291618877, 0)], [(23763167526196, 0), (0, 7180619593), (0, 740781)]], 2, 2⟩, ⟨[[(0, 17472455212236800), (0,
    2640083138214882), (17735442375, 0)], [(0, 20126452496854010), (660127718851, 0), (347272160, 0)],
    [(10029675391889, 0), (0, 1410185515), (0, 501596)]], 2, 2⟩, 72057594037927936, 760582137233339, 418709228723192,
    ⟨[], 0, 0⟩, 0, 0, 0, lc0⟩ 2 1 58882123030541)
theorem c123 : checkR job con0 true ⟨7, 9, 7, 9, 13, 17⟩ 1 28336 t123 411 21 320 30745 251 32000 = true := by decide +kernel

def t124 : CTree :=
  .sx (.sy (.sy (.sx (.leaf ⟨505, 16, 1476, 53, 16, 1511, ⟨[[(15712891840249856, 0), (0, 3554090836126334),
    (102121790119, 0), (3959257, 0), (486, 0)], [(8579061807509615, 0), (0, 5470649308071), (353716848, 0), (27151,
    0), (3, 0)], [(16902626882114, 0), (0, 6410199602), (0, 386466), (0, 65)], [(66500837415, 0), (0, 14906141), (0,
    1928)]], 3, 4⟩, ⟨[[(0, 27156124865321984), (0, 1843221055715357), (0, 23276632296), (0, 6779864), (0, 682)], [(0,
    30400295362242749), (740152134455, 0), (169223420, 0), (21523, 0), (2, 0)], [(20652646805402, 0), (656829769, 0),
    (158131, 0), (27, 0)], [(0, 29161040322), (0, 6385013), (0, 1243)]], 3, 4⟩, 72057594037927936, 22903626061394,
    5513773422579, ⟨[[(5549541015673, 0), (16022558504, 0), (27118365, 0), (0, 33905), (98, 0)], [(0, 8325356969),
    (0, 57991120), (0, 22230), (57, 0), (0, 1)], [(29835197, 0), (173534, 0), (0, 442), (2, 0)], [(0, 118103), (0,
    317), (3, 0)]], 3, 4⟩, 17592186044416, 63561539,
    1933490868441818603327358569889781708792602421280836667641925482929477512728885931317305758316002276645007876225386920959823392,
    lc0⟩) (.leaf ⟨466, 16, 1346, 37, 16, 1572, ⟨[[(0, 19825109301526528), (0, 3461877536186177), (105931461806, 0),
    (4527756, 0), (556, 0)], [(9471338787351209, 0), (0, 5548577127091), (284477295, 0), (18507, 0), (2, 0)],
    [(24236605371760, 0), (0, 7438401622), (0, 543463), (0, 88)], [(80398703332, 0), (0, 11522396), (0, 1240)]], 3,
    4⟩, ⟨[[(0, 13768993449546240), (0, 1884566245349113), (0, 16625593448), (0, 6075442), (0, 616)], [(0,
    29974788115063052), (793480025971, 0), (183232214, 0), (23896, 0), (2, 0)], [(17970956241972, 0), (0, 108231371),
    (9298, 0), (8, 0)], [(0, 25327956050), (0, 5843348), (0, 1154)]], 3, 4⟩, 72057594037927936, 28113439900442,
    6792800238309, ⟨[[(5235564832705, 0), (14136637383, 0), (26696045, 0), (0, 35634), (81, 0)], [(0, 7689963516),
    (0, 57876001), (0, 32798), (120, 0), (0, 1)], [(29762394, 0), (210840, 0), (0, 501), (1, 0)], [(0, 133612), (0,
    551), (4, 0)]], 3, 4⟩, 17592186044416, 86956984,
    3881221142299181732592658516162268609895802571478128475087775946654168914652819512048378478088331819065212560875070952392202544,
    lc0⟩)) (.sx (.leaf ⟨520, 16, 1597, 40, 16, 1511, ⟨[[(17258920583987200, 0), (0, 3730997443978781), (117786627068,
    0), (5434091, 0), (623, 0)], [(6411347869143959, 0), (0, 5510841690649), (432499055, 0), (36956, 0), (4, 0)],
    [(14691969283200, 0), (0, 7411257908), (0, 531978), (0, 81)], [(63289399660, 0), (0, 18471963), (0, 2599)]], 3,
    4⟩, ⟨[[(0, 22472572495067136), (0, 1872075472579936), (0, 34574050069), (0, 8261385), (0, 796)], [(0,
    29983236458481908), (927407471024, 0), (204922078, 0), (26014, 0), (2, 0)], [(21025857083973, 0), (837656426, 0),
    (203525, 0), (33, 0)], [(0, 32701230862), (0, 7764717), (0, 1514)]], 3, 4⟩, 72057594037927936, 26283655508462,
    5957742594719, ⟨[[(5548930805956, 0), (16815819175, 0), (28796733, 0), (0, 40261), (120, 0)], [(0, 8455740876),
    (0, 62068645), (6514, 0), (0, 10), (0, 1)], [(32161560, 0), (183192, 0), (0, 724), (3, 0)], [(0, 132304), (0,
    283), (5, 0)]], 3, 4⟩, 17592186044416, 69850970,
    2441355486752533836799690764140289381800534776671452655176382706235822716328928936825800734828594474520897525283213611126776430,
    lc0⟩) (.out ⟨376, 16, 1433, 1136, 16, 1104, ⟨[[(0, 12033202843004928), (0, 3568452678104017), (120986247080, 0)],
    [(7197092081854635, 0), (0, 5586873332715), (336690587, 0)], [(21669520503656, 0), (0, 8575222995), (0,
    732380)]], 2, 2⟩, ⟨[[(3309091991519232, 0), (0, 1874163510986438), (0, 26307113092)], [(0, 29031237376902242),
    (979980438141, 0), (219139388, 0)], [(17619059018196, 0), (0, 91012096), (22028, 0)]], 2, 2⟩, 72057594037927936,
    907390627365697, 415683821015921, ⟨[], 0, 0⟩, 0, 0, 0, lc0⟩ 2 1 41424356584270))) (.sy (.sx (.sx (.leaf ⟨580, 16,
    1873, 43, 16, 2092, ⟨[[(0, 33451771890515968), (0, 4170764379868037), (142736766612, 0), (7394070, 0), (804, 0)],
    [(2080892986274758, 0), (0, 2864884279548), (297656724, 0), (28011, 0), (3, 0)], [(2706805411959, 0), (0,
    2147835427), (0, 164225), (0, 23)], [(7045426668, 0), (0, 3234737), (0, 495)]], 3, 4⟩, ⟨[[(0, 22073182818748416),
    (0, 2665798942298018), (0, 70407774430), (0, 14270781), (0, 1317)], [(0, 20716825682901733), (781225092517, 0),
    (167500653, 0), (21064, 0), (2, 0)], [(7852623363589, 0), (473722000, 0), (109544, 0), (16, 0)], [(0,
    6613470492), (0, 1660983), (0, 322)]], 3, 4⟩, 72057594037927936, 1879205533872, 586484543881, ⟨[[(5624210331504,
    0), (13006723115, 0), (15211243, 0), (0, 16176), (39, 0)], [(0, 8304626868), (0, 44885364), (26216, 0), (0, 54)],
    [(30938002, 0), (116546, 0), (0, 497), (1, 0)], [(0, 118313), (0, 117), (3, 0)]], 3, 4⟩, 17592186044416,
    50163654,
    3288348861268283969777305402625918404087887060503651823892344998727001047917288098998899303995422275962711800723298772810765503,
    lc0⟩) (.out ⟨433, 16, 1774, 1538, 16, 1495, ⟨[[(0, 10018216104009728), (0, 4068090126563527), (146724720958, 0)],
    [(2224145387408879, 0), (0, 2900217875844), (266456053, 0)], [(3498152025640, 0), (0, 2408018910), (0, 211734)]],
    2, 2⟩, ⟨[[(0, 15940286847090688), (0, 2633532197284056), (0, 63233436070)], [(0, 20101070702236690),
    (812710818209, 0), (175096233, 0)], [(7049377082197, 0), (268132775, 0), (69550, 0)]], 2, 2⟩, 72057594037927936,
    225934417961729, 287977864197417, ⟨[], 0, 0⟩, 0, 0, 0, lc0⟩ 2 1 36741902497845)) (.out ⟨384, 16, 1564, 1124, 16,
    1105, ⟨[[(0, 33736409049657344), (0, 3756642324430722), (143326706125, 0)], [(4890357034787911, 0), (0,
    5705945641217), (414577430, 0)], [(18734849936836, 0), (0, 10258002857), (0, 996519)]], 2, 2⟩, ⟨[[(0,
    7137298334957568), (0, 1908182576557793), (0, 38437000603)], [(0, 28506090962544652), (1223991775551, 0),
    (266432940, 0)], [(17596118936741, 0), (0, 61212781), (38009, 0)]], 2, 2⟩, 72057594037927936, 953807876268103,
    483805000354952, ⟨[], 0, 0⟩, 0, 0, 0, lc0⟩ 2 1 60285896701414)) (.out ⟨379, 16, 1661, 698, 16, 689,
    ⟨[[(35299439175491584, 0), (0, 3717382502069763), (156003520819, 0)], [(3526527247722590, 0), (0,
    10218149361631), (1107275916, 0)], [(40174631318550, 0), (0, 42681645726), (0, 4377846)]], 2, 2⟩, ⟨[[(0,
    34021732310933504), (0, 1238126763084839), (0, 37254564927)], [(0, 35676336294365385), (1877421143174, 0),
    (396425075, 0)], [(49891472160997, 0), (1666604705, 0), (475426, 0)]], 2, 2⟩, 72057594037927936,
    5535141712371200, 2229501856709723, ⟨[], 0, 0⟩, 0, 0, 0, lc0⟩ 2 1 63601489042543))) (.out ⟨84, 16, 325, 396, 16,
    396, ⟨[[(0, 6676108703732736), (0, 3525675111797967), (525169982969, 0)], [(4236978672042449, 0), (0,
    12141139468262), (1721110127, 0)], [(34422576492306, 0), (0, 40349396521), (0, 15031160)]], 2, 2⟩,
    ⟨[[(31332288653168640, 0), (0, 2614003241916167), (0, 98071746679)], [(0, 19277428346067346), (2876722553109, 0),
    (2625786499, 0)], [(18466946475554, 0), (0, 7579599137), (0, 5007787)]], 2, 2⟩, 72057594037927936,
    4742546009612506, 3831299505650736, ⟨[], 0, 0⟩, 0, 0, 0, lc0⟩ 2 1 98304373944592)
theorem c124 : checkR job con0 true ⟨7, 9, 7, 9, 13, 17⟩ 1 28336 t124 195 21 160 15749 251 16000 = true := by decide +kernel

def t125 : CTree :=
  .sy (.sx (.sy (.leaf ⟨327, 16, 484, 150, 16, 1620, ⟨[[(0, 6017567469858816), (0, 2051871100548293), (43111369832,
    0), (0, 429809), (5, 0)], [(26630889984756587, 0), (0, 3647393641870), (86123691, 0), (0, 555)],
    [(44208889675588, 0), (0, 3092985344), (5693, 0), (4, 0)], [(70948879138, 0), (0, 1690079), (0, 160)]], 3, 4⟩,
    ⟨[[(17156485917145088, 0), (0, 2080735727491585), (25412007218, 0), (0, 461787), (24, 0)], [(0,
    27843555874294754), (0, 131187782621), (27287233, 0), (0, 180)], [(16267845524906, 0), (0, 319808879), (0, 4324),
    (0, 6)], [(0, 2253751641), (0, 789618), (28, 0)]], 3, 4⟩, 72057594037927936, 11146707141762, 3437549134792,
    ⟨[[(4487787787214, 0), (6661720561, 0), (7504437, 0), (754, 0), (0, 3)], [(0, 6747841494), (0, 28516492), (0,
    42238), (28, 0)], [(23133093, 0), (120681, 0), (155, 0)], [(0, 87221), (0, 473)]], 3, 4⟩, 17592186044416,
    84155096,
    3109632622945736042286178140011823139776368864904605542509825995021436830921741610087248830267295633166771320166881766363854803,
    lc0⟩) (.leaf ⟨327, 16, 506, 137, 16, 1628, ⟨[[(0, 810806838075392), (0, 2100222628706743), (44406609342, 0), (0,
    430188), (14, 0)], [(25949769300827499, 0), (0, 3723334076598), (88838549, 0), (0, 1009)], [(44597143545109, 0),
    (0, 3224652409), (11327, 0), (3, 0)], [(73248236006, 0), (0, 1913828), (0, 126)]], 3, 4⟩, ⟨[[(0,
    35943350677831680), (0, 2065711425546639), (24869253748, 0), (0, 427265), (12, 0)], [(0, 28040335508709388), (0,
    104333117178), (27478160, 0), (275, 0)], [(16184942635329, 0), (0, 330626898), (0, 14296), (0, 7)], [(0,
    2656330426), (0, 766774), (24, 0)]], 3, 4⟩, 72057594037927936, 11945325883638, 3526806853120, ⟨[[(4493202035906,
    0), (6836882103, 0), (8042501, 0), (418, 0), (0, 1)], [(0, 6724729790), (0, 29462115), (0, 45796), (33, 0)],
    [(23210486, 0), (125848, 0), (168, 0)], [(0, 88305), (0, 498)]], 3, 4⟩, 17592186044416, 86335050,
    2654854783508554168152958674118944482015032339405656025286348334889943444042294112219010164354119291639809744574816455710555887,
    lc0⟩)) (.sy (.leaf ⟨307, 16, 432, 138, 16, 1660, ⟨[[(0, 22981478911815680), (0, 1973126422966705), (41705332678,
    0), (0, 395732), (0, 5)], [(27434298742238638, 0), (0, 3494496214298), (76425903, 0), (0, 33)], [(47972554590838,
    0), (0, 2917273237), (0, 17192), (7, 0)], [(71888000562, 0), (0, 944214), (0, 215)]], 3, 4⟩, ⟨[[(0,
    19864090295805952), (0, 2138394335997513), (27208548248, 0), (0, 492061), (32, 0)], [(0, 27137804251991430), (0,
    166091979725), (27778618, 0), (0, 714)], [(16565206105761, 0), (0, 424626731), (482, 0), (0, 6)], [(651985708,
    0), (0, 733169), (48, 0)]], 3, 4⟩, 72057594037927936, 10567764214761, 3497834049652, ⟨[[(4286054436896, 0),
    (5857641119, 0), (6451063, 0), (1203, 0), (0, 1)], [(0, 6342967699), (0, 25848164), (0, 40898), (22, 0)],
    [(22241839, 0), (116547, 0), (170, 0)], [(0, 87835), (0, 491), (0, 1)]], 3, 4⟩, 17592186044416, 100442619,
    2686054729290600905047105989770260013508838452931343408082645466168200440524459957345985830519095237334445077527240657801069261,
    lc0⟩) (.leaf ⟨307, 16, 452, 124, 16, 1668, ⟨[[(0, 25316016415961088), (0, 2020978715700521), (43009051901, 0),
    (0, 416148), (3, 0)], [(26889083361190677, 0), (0, 3576155407734), (79509826, 0), (0, 567)], [(48657610085125,
    0), (0, 3065080119), (0, 7857), (6, 0)], [(74667533457, 0), (0, 1189809), (0, 177)]], 3, 4⟩, ⟨[[(0,
    35049095985333248), (0, 2121609434434747), (26639248782, 0), (0, 438945), (23, 0)], [(0, 27345414604496052), (0,
    139322174099), (27103057, 0), (0, 340)], [(16430141623472, 0), (0, 431211204), (0, 9808), (0, 7)], [(297694053,
    0), (0, 686860), (51, 0)]], 3, 4⟩, 72057594037927936, 11424120958093, 3573767233707, ⟨[[(4287103407911, 0),
    (5997741867, 0), (6934767, 0), (827, 0), (1, 0)], [(0, 6290510019), (0, 26586227), (0, 44579), (27, 0)],
    [(22161257, 0), (120994, 0), (186, 0)], [(0, 88091), (0, 516), (0, 1)]], 3, 4⟩, 17592186044416, 101989467,
    2177141549798104342193758196473890951868589633376591837947128448427318933821837528861557514715238750828028031974438283930879320,
    lc0⟩))) (.sx (.sy (.leaf ⟨328, 16, 531, 123, 16, 1636, ⟨[[(0, 3451648570466304), (0, 2157534315966563),
    (45947494673, 0), (0, 412529), (25, 0)], [(25293757521898490, 0), (0, 3814601222326), (91311584, 0), (0, 1481)],
    [(45105072095111, 0), (0, 3370556927), (14276, 0)], [(75829314768, 0), (0, 2119598), (0, 90)]], 3, 4⟩, ⟨[[(0,
    14641797768029184), (0, 2051091028297462), (24356437132, 0), (0, 418903), (0, 2)], [(0, 28223747757207064), (0,
    76775228815), (28450396, 0), (858, 0)], [(16093131018181, 0), (0, 352321837), (0, 25880), (0, 8)], [(0,
    3050594757), (0, 749418), (17, 0)]], 3, 4⟩, 72057594037927936, 12808961405337, 3638707565017, ⟨[[(4490863223194,
    0), (7000510701, 0), (8660239, 0), (0, 149), (2, 0)], [(0, 6649120563), (0, 30267560), (0, 49781), (40, 0)],
    [(23023872, 0), (130384, 0), (181, 0)], [(0, 88271), (0, 522)]], 3, 4⟩, 17592186044416, 87289609,
    1620785002292255345327096951178437658058658118485786032137599400922871940651185159917688306237502225228972177264991579963182376,
    lc0⟩) (.leaf ⟨328, 16, 557, 109, 16, 1644, ⟨[[(29621750970400768, 0), (0, 2215098845220528), (47590550205, 0),
    (0, 368876), (38, 0)], [(24547481403119579, 0), (0, 3906495184561), (93127956, 0), (0, 1966)], [(45542493245748,
    0), (0, 3520833790), (13783, 0), (0, 2)], [(78406107633, 0), (0, 2295689), (0, 50)]], 3, 4⟩,
    ⟨[[(8864845436017664, 0), (0, 2036869028479703), (23829143201, 0), (0, 443559), (0, 21)], [(0,
    28393155366946048), (0, 47620090589), (30420044, 0), (1595, 0)], [(15986464932332, 0), (0, 386665716), (0,
    39277), (0, 9)], [(0, 3439992521), (0, 740604), (7, 0)]], 3, 4⟩, 72057594037927936, 13691805612149,
    3777881886356, ⟨[[(4491473706572, 0), (7185670831, 0), (9414694, 0), (0, 1039), (5, 0)], [(0, 6606393380), (0,
    31314683), (0, 54631), (49, 0)], [(23058983, 0), (136858, 0), (196, 0)], [(0, 89638), (0, 558)]], 3, 4⟩,
    17592186044416, 90586616,
    1805553492219092956265551218668322543547359487171971124582814288882202702124352294229218128454486560246629937131363986190345376,
    lc0⟩)) (.sy (.leaf ⟨306, 16, 473, 109, 16, 1676, ⟨[[(22963228076462080, 0), (0, 2070013010642236), (44360580958,
    0), (0, 420178), (12, 0)], [(26280593490620888, 0), (0, 3659354350604), (81898037, 0), (0, 1139)],
    [(49306730634474, 0), (0, 3211630740), (0, 541), (4, 0)], [(77469036611, 0), (0, 1406134), (0, 135)]], 3, 4⟩,
    ⟨[[(25035928778346496, 0), (0, 2105234323595219), (26131307661, 0), (0, 407318), (10, 0)], [(0,
    27540008664912408), (0, 112789183379), (27077200, 0), (155, 0)], [(16287972701311, 0), (0, 449114335), (0,
    22008), (0, 9)], [(0, 34276389), (0, 637878), (53, 0)]], 3, 4⟩, 72057594037927936, 12295589699802, 3664293971810,
    ⟨[[(4286164263519, 0), (6146981467, 0), (7540201, 0), (195, 0), (4, 0)], [(0, 6247049047), (0, 27468110), (0,
    49309), (35, 0)], [(22187348, 0), (126902, 0), (207, 0)], [(0, 89224), (0, 552), (0, 1)]], 3, 4⟩, 17592186044416,
    105832567,
    1279038859355359043971640018031287565050954156475010929998243849577894371591594872210896812330242060445127471193808985865790970,
    lc0⟩) (.leaf ⟨306, 16, 495, 95, 16, 1685, ⟨[[(0, 26239409632186368), (0, 2120007590913548), (45786878809, 0), (0,
    402377), (24, 0)], [(25601939181155563, 0), (0, 3744549043029), (83491167, 0), (0, 1749)], [(49913169159481, 0),
    (0, 3358901480), (4198, 0), (2, 0)], [(80302309756, 0), (0, 1587046), (0, 88)]], 3, 4⟩, ⟨[[(20220108091856896,
    0), (0, 2090468702466323), (25663333702, 0), (0, 403467), (0, 5)], [(0, 27737922033638827), (0, 85793994783),
    (27919021, 0), (793, 0)], [(16142043152683, 0), (0, 480720283), (0, 36393), (0, 10)], [(0, 343020286), (0,
    588037), (53, 0)]], 3, 4⟩, 72057594037927936, 13181726237662, 3779776657857, ⟨[[(4282245216320, 0), (6272139692,
    0), (8183886, 0), (0, 646), (6, 0)], [(0, 6175212290), (0, 28150005), (0, 54159), (44, 0)], [(22022569, 0),
    (131837, 0), (228, 0)], [(0, 89361), (0, 585), (0, 1)]], 3, 4⟩, 17592186044416, 107897264,
    1396740015850577311954244953274842399451441134108114276966409292266110335876835872093660907939727525414216311977218359918241578,
    lc0⟩)))
theorem c125 : checkR job con0 true ⟨7, 9, 7, 9, 13, 17⟩ 1 28336 t125 453 21 320 14243 251 16000 = true := by decide +kernel

def t126 : CTree :=
  .sy (.sx (.sy (.leaf ⟨289, 16, 385, 125, 16, 1701, ⟨[[(0, 23010640873857024), (0, 1893895338672244), (39985906654,
    0), (0, 340366), (0, 15)], [(28393835924507234, 0), (0, 3336018196474), (65666859, 0), (668, 0)],
    [(51326121411834, 0), (0, 2664372201), (0, 44704), (10, 0)], [(72056475693, 0), (0, 147701), (0, 279)]], 3, 4⟩,
    ⟨[[(24106773080999936, 0), (0, 2199180339861378), (29080863607, 0), (0, 545982), (39, 0)], [(0,
    26373347256548413), (0, 210615155737), (28791155, 0), (0, 1250)], [(17249531940573, 0), (0, 526180956), (7540,
    0), (0, 6)], [(3701055236, 0), (0, 698572), (61, 0)]], 3, 4⟩, 72057594037927936, 9797950681397, 3581588618345,
    ⟨[[(4096976320183, 0), (5132324832, 0), (5446198, 0), (1405, 0), (1, 0)], [(0, 5946614299), (0, 23075264), (0,
    38784), (17, 0)], [(21122622, 0), (110072, 0), (180, 0)], [(0, 86851), (0, 495), (0, 1)]], 3, 4⟩, 17592186044416,
    118310608,
    2189846614749051948984481539628344215274046496570845652698189802076456744822408707692536876006487627226847615297252250368604300,
    lc0⟩) (.leaf ⟨288, 16, 402, 111, 16, 1709, ⟨[[(0, 14679641674129408), (0, 1935879113088300), (41196038875, 0),
    (0, 379958), (0, 9)], [(27916309680732355, 0), (0, 3414107857473), (69159798, 0), (91, 0)], [(52185435895804, 0),
    (0, 2821194901), (0, 31755), (9, 0)], [(75091714530, 0), (0, 420775), (0, 240)]], 3, 4⟩, ⟨[[(0,
    26496394850499584), (0, 2180584699425121), (28446902882, 0), (0, 477540), (31, 0)], [(0, 26596471320744597), (0,
    183446658597), (27238963, 0), (0, 969)], [(17066401706859, 0), (0, 525791432), (0, 2176), (0, 7)], [(3382497890,
    0), (0, 635059), (71, 0)]], 3, 4⟩, 72057594037927936, 10673248398364, 3632375786409, ⟨[[(4101255962206, 0),
    (5258775680, 0), (5887107, 0), (1008, 0), (3, 0)], [(0, 5918925250), (0, 23798273), (0, 42601), (22, 0)],
    [(21185275, 0), (114875, 0), (200, 0)], [(0, 87785), (0, 524), (0, 1)]], 3, 4⟩, 17592186044416, 121783542,
    1549199208736325472412544769780238563864286082937563271833533974393771301850664392899281955236120148281270910905045475416971093,
    lc0⟩)) (.sy (.sx (.leaf ⟨394, 16, 502, 155, 16, 2306, ⟨[[(0, 31906075001507840), (0, 2609908905983449),
    (54764601864, 0), (0, 401754), (0, 32)], [(20763203020726565, 0), (0, 2284221388302), (40383988, 0), (921, 0)],
    [(19044903282949, 0), (0, 863162534), (0, 24375), (4, 0)], [(12743704427, 0), (84342, 0), (0, 59)]], 3, 4⟩,
    ⟨[[(0, 28283268490893312), (0, 2991100866834283), (40666438966, 0), (0, 801106), (57, 0)], [(0,
    17131198581943171), (0, 166624508837), (19965181, 0), (0, 1082)], [(6001252901239, 0), (0, 200306876), (4600, 0),
    (0, 2)], [(1014094372, 0), (0, 114554), (11, 0)]], 3, 4⟩, 72057594037927936, 834349368812, 313635717019,
    ⟨[[(3971000484704, 0), (3497192167, 0), (2674213, 0), (613, 0), (1, 0)], [(0, 4002234675), (0, 11131497), (0,
    14528), (4, 0)], [(10037266, 0), (38714, 0), (51, 0)], [(0, 29796), (0, 127)]], 3, 4⟩, 17592186044416, 18792355,
    1056592505554025639883879174437881715206662681022042385440421190200112695758465498893811154360082447207925492191284731312681224,
    lc0⟩) (.leaf ⟨385, 16, 476, 146, 16, 2324, ⟨[[(7481124583804928, 0), (0, 2567139173119361), (53491404450, 0), (0,
    336487), (0, 40)], [(21269800750480926, 0), (0, 2234104704075), (36040084, 0), (1254, 0)], [(19621088878105, 0),
    (0, 803415150), (0, 30714), (5, 0)], [(12719168143, 0), (160458, 0), (0, 65)]], 3, 4⟩, ⟨[[(0, 7181375995394048),
    (0, 3021866054356827), (41837959070, 0), (0, 856144), (59, 0)], [(0, 16751011168885958), (0, 185490500477),
    (20569612, 0), (0, 1230)], [(6193311491165, 0), (0, 216325525), (6044, 0), (0, 2)], [(1283161278, 0), (0,
    114157), (11, 0)]], 3, 4⟩, 72057594037927936, 793516328893, 317124439911, ⟨[[(3890387528209, 0), (3292388859, 0),
    (2448631, 0), (612, 0), (1, 0)], [(0, 3871091534), (0, 10444389), (0, 13989), (3, 0)], [(9666258, 0), (36990, 0),
    (51, 0)], [(0, 29044), (0, 124)]], 3, 4⟩, 17592186044416, 19348215,
    2394906256910170332598804280267618072232918865360868567739125651378943262620582454509720445479026933732542387963855117534293873,
    lc0⟩)) (.sx (.leaf ⟨389, 16, 520, 135, 16, 2324, ⟨[[(2319247435427840, 0), (0, 2646866614277202), (56055204913,
    0), (0, 474661), (0, 24)], [(20330553385112899, 0), (0, 2323519659762), (42926266, 0), (499, 0)],
    [(19273140942955, 0), (0, 916146814), (0, 18768), (4, 0)], [(13229962681, 0), (30958, 0), (0, 52)]], 3, 4⟩,
    ⟨[[(0, 3194271503667200), (0, 2973883096147728), (39850784147, 0), (0, 700179), (49, 0)], [(0,
    17344281891543732), (0, 148516208277), (18577880, 0), (0, 948)], [(5947692003444, 0), (0, 198642094), (1692, 0),
    (0, 2)], [(967058671, 0), (0, 103099), (13, 0)]], 3, 4⟩, 72057594037927936, 905960309148, 320103307854,
    ⟨[[(3971608773683, 0), (3565011188, 0), (2884633, 0), (436, 0), (1, 0)], [(0, 4002363414), (0, 11492863), (0,
    16083), (5, 0)], [(10190060, 0), (40782, 0), (58, 0)], [(0, 30694), (0, 138)]], 3, 4⟩, 17592186044416, 20165874,
    1851994105833438627255358702705191694994003661210570758600568315590718164355887842107046666718359119167803842169597392278690043,
    lc0⟩) (.out ⟨341, 16, 483, 1777, 16, 1640, ⟨[[(0, 8456709883932672), (0, 2550673626853501), (53706816114, 0)],
    [(20453940562470897, 0), (0, 2229397425309), (38138277, 0)], [(19493148003831, 0), (0, 842884929), (0, 24037)]],
    2, 2⟩, ⟨[[(0, 28319771382562816), (0, 2944569402720820), (40145465396, 0)], [(0, 16636215774625118), (0,
    163747681617), (18565528, 0)], [(6012705153155, 0), (0, 208979241), (3371, 0)]], 2, 2⟩, 72057594037927936,
    129357319503526, 24002923694350, ⟨[], 0, 0⟩, 0, 0, 0, lc0⟩ 2 1 33281968495848)))) (.sx (.sy (.leaf ⟨286, 16, 419,
    96, 16, 1718, ⟨[[(4273936271208448, 0), (0, 1974937677638977), (42332209498, 0), (0, 405861), (0, 1)],
    [(27328647990448610, 0), (0, 3486200114518), (71752309, 0), (0, 535)], [(52908960357013, 0), (0, 2966970290), (0,
    20064), (8, 0)], [(77988607588, 0), (0, 662437), (0, 196)]], 3, 4⟩, ⟨[[(3078832778486784, 0), (0,
    2163705231712541), (27916654420, 0), (0, 426452), (21, 0)], [(0, 26822321191374376), (0, 157564846948),
    (26198727, 0), (0, 578)], [(16889444388393, 0), (0, 536486283), (0, 13946), (0, 9)], [(3098670965, 0), (0,
    561789), (81, 0)]], 3, 4⟩, 72057594037927936, 11529098675433, 3704025723124, ⟨[[(4100595655231, 0), (5375583704,
    0), (6412752, 0), (399, 0), (5, 0)], [(0, 5888529301), (0, 24542038), (0, 47370), (29, 0)], [(21284564, 0),
    (120518, 0), (227, 0)], [(0, 89229), (0, 563), (0, 1)]], 3, 4⟩, 17592186044416, 127598639,
    1475369921959972042154422628095813700706827356500626415718048528600697110123163717469478891781157088594009364024299258160941746,
    lc0⟩) (.leaf ⟨285, 16, 438, 81, 16, 1727, ⟨[[(0, 14239219813163008), (0, 2020384316336140), (43616952241, 0), (0,
    415404), (10, 0)], [(26757273433542787, 0), (0, 3569568242357), (73668415, 0), (0, 1217)], [(53746900894360, 0),
    (0, 3116881584), (0, 10120), (6, 0)], [(81130712490, 0), (0, 869028), (0, 147)]], 3, 4⟩, ⟨[[(35346189728443392,
    0), (0, 2147179671063956), (27443799226, 0), (0, 397752), (9, 0)], [(0, 27035767326504597), (0, 132264891668),
    (25838120, 0), (0, 57)], [(16702533215223, 0), (0, 560217512), (0, 28048), (0, 10)], [(2852695657, 0), (0,
    478379), (91, 0)]], 3, 4⟩, 72057594037927936, 12418969606942, 3786432253410, ⟨[[(4096682601877, 0), (5479034377,
    0), (7025285, 0), (0, 431), (7, 0)], [(0, 5824733772), (0, 25123827), (0, 52744), (38, 0)], [(21163309, 0),
    (125376, 0), (255, 0)], [(0, 89457), (0, 601), (0, 1)]], 3, 4⟩, 17592186044416, 131141438,
    2283780952397785623956471843148036820119275406956673611957948015486221255310342961764134358050642815286137925449917309816795665,
    lc0⟩)) (.sy (.out ⟨239, 16, 363, 1325, 16, 1234, ⟨[[(0, 12499854864928768), (0, 1842400655570691), (39240489264,
    0)], [(27898878694598485, 0), (0, 3238117655739), (59654822, 0)], [(54882273972050, 0), (0, 2602551584), (0,
    44245)]], 2, 2⟩, ⟨[[(10806898486820864, 0), (0, 2183442872977605), (29160793684, 0)], [(0, 25523543078560710),
    (0, 206649133700), (25630656, 0)], [(17573767894117, 0), (0, 607251959), (0, 2664)]], 2, 2⟩, 72057594037927936,
    727198493595422, 70773119155952, ⟨[], 0, 0⟩, 0, 0, 0, lc0⟩ 2 1 43495926213568) (.out ⟨236, 16, 379, 1316, 16,
    1240, ⟨[[(6833350788859904, 0), (0, 1882761932818138), (40392578950, 0)], [(27447107878651221, 0), (0,
    3318267734919), (62195085, 0)], [(55927027202701, 0), (0, 2755324459), (0, 29999)]], 2, 2⟩,
    ⟨[[(29515135366987776, 0), (0, 2164980895882719), (28635192512, 0)], [(0, 25745545074586054), (0, 182659824201),
    (24133145, 0)], [(17351220299625, 0), (0, 618951724), (0, 15130)]], 2, 2⟩, 72057594037927936, 759164762016983,
    67769795895192, ⟨[], 0, 0⟩, 0, 0, 0, lc0⟩ 2 1 61235805326688)))
theorem c126 : checkR job con0 true ⟨7, 9, 7, 9, 13, 17⟩ 1 28336 t126 495 21 320 14243 251 16000 = true := by decide +kernel

def t127 : CTree :=
  .sy (.sx (.sy (.leaf ⟨329, 16, 585, 96, 16, 1653, ⟨[[(0, 8165815612833792), (0, 2276538273152409), (49467384710,
    0), (0, 292106), (55, 0)], [(23746198671021903, 0), (0, 4006334378539), (94397210, 0), (0, 2460)],
    [(45978854079255, 0), (0, 3685679244), (8973, 0), (0, 5)], [(81127742273, 0), (0, 2440960), (0, 7)]], 3, 4⟩,
    ⟨[[(0, 33466042259033088), (0, 2024314634141450), (23246016971, 0), (0, 508967), (0, 43)], [(0,
    28564690664343564), (0, 15741834540), (33663583, 0), (2514, 0), (1, 0)], [(15867620860322, 0), (0, 435929847),
    (0, 54772), (0, 11)], [(0, 3831988078), (0, 744425), (0, 7)]], 3, 4⟩, 72057594037927936, 14637180943609,
    3951267164601, ⟨[[(4492257739136, 0), (7360154723, 0), (10234504, 0), (0, 2206), (8, 0)], [(0, 6548621528), (0,
    32262371), (0, 59557), (61, 0)], [(22987242, 0), (143005, 0), (209, 0)], [(0, 90533), (0, 595)]], 3, 4⟩,
    17592186044416, 93223869,
    2999239702858132502097137976605481516475464774270838178264913507757412280000462449497297897593889804914539175870715801199886610,
    lc0⟩) (.sx (.leaf ⟨440, 16, 831, 118, 16, 2281, ⟨[[(35595450563112960, 0), (0, 3105773594481111), (68426155482,
    0), (0, 192058), (106, 0)], [(14814412893032753, 0), (0, 2725265489474), (64248366, 0), (0, 1866)],
    [(14795322921757, 0), (0, 1279646500), (0, 853), (0, 3)], [(13640696452, 0), (0, 449033), (6, 0)]], 3, 4⟩,
    ⟨[[(18589246575457280, 0), (0, 2762109650583161), (30348524551, 0), (0, 909329), (0, 103)], [(0,
    19935325407388681), (21011512338, 0), (27438184, 0), (2680, 0)], [(5443612079265, 0), (0, 163625334), (0, 24546),
    (0, 4)], [(0, 873043747), (0, 144869), (0, 8)]], 3, 4⟩, 72057594037927936, 1303453549845, 409104174387,
    ⟨[[(4544515258763, 0), (5650547998, 0), (6081240, 0), (0, 1527), (3, 0)], [(0, 5033343119), (0, 18901874), (0,
    26079), (22, 0)], [(13513796, 0), (64035, 0), (64, 0)], [(0, 40961), (0, 204)]], 3, 4⟩, 17592186044416, 22534527,
    3324536783968835089378292096550911356190580242511310555962501608343089735098290356022834478133863390942071132601981200550015705,
    lc0⟩) (.leaf ⟨427, 16, 790, 108, 16, 2301, ⟨[[(23603313257672704, 0), (0, 3063531236407230), (67614470021, 0),
    (0, 262305), (96, 0)], [(15335447682528606, 0), (0, 2695190052794), (61044165, 0), (0, 2013)], [(15765119788838,
    0), (0, 1268069389), (6, 0), (0, 3)], [(14021177421, 0), (0, 390903), (7, 0)]], 3, 4⟩, ⟨[[(0, 21116652995202048),
    (0, 2785739320004992), (31732993532, 0), (0, 811290), (0, 86)], [(0, 19652984640188312), (6605956960, 0),
    (25569014, 0), (2340, 0)], [(5399040765878, 0), (0, 181747216), (0, 25331), (0, 4)], [(0, 585125485), (0,
    119073), (0, 1)]], 3, 4⟩, 72057594037927936, 1303812007055, 406211566598, ⟨[[(4440238186445, 0), (5307649807, 0),
    (5791644, 0), (0, 1438), (3, 0)], [(0, 4843168653), (0, 17961861), (0, 26476), (22, 0)], [(13073905, 0), (62889,
    0), (71, 0)], [(0, 40199), (0, 209)]], 3, 4⟩, 17592186044416, 23463549,
    3622855607587366866441510016989829554703010434436561303070756987465309234147418382329653855523933522924034746876231268699378300,
    lc0⟩))) (.sy (.sx (.leaf ⟨418, 16, 720, 116, 16, 2304, ⟨[[(27641391931793408, 0), (0, 2961807490938146),
    (64553190412, 0), (0, 459933), (59, 0)], [(16549938370788288, 0), (0, 2612591379306), (58416023, 0), (0, 1652)],
    [(16643092592258, 0), (0, 1200004221), (2302, 0), (0, 1)], [(13944460857, 0), (0, 320541), (0, 4)]], 3, 4⟩,
    ⟨[[(4182785877766144, 0), (0, 2822873814306239), (33803428333, 0), (0, 614437), (0, 38)], [(0,
    19216742024832777), (0, 31533251524), (21071921, 0), (1258, 0)], [(5443004490950, 0), (0, 173557853), (0, 18590),
    (0, 4)], [(0, 245689174), (0, 100245), (6, 0)]], 3, 4⟩, 72057594037927936, 1220339804870, 372872791456,
    ⟨[[(4336892505662, 0), (4868629232, 0), (4990078, 0), (0, 758), (3, 0)], [(0, 4649497278), (0, 16307904), (0,
    23981), (17, 0)], [(12386663, 0), (57005, 0), (71, 0)], [(0, 37581), (0, 190)]], 3, 4⟩, 17592186044416, 22385091,
    1945582716948237877960199706179903059360193029073397584583860229204095098011355233680794348787705208806498941895863247617010969,
    lc0⟩) (.leaf ⟨406, 16, 683, 106, 16, 2322, ⟨[[(31299594513473536, 0), (0, 2915723318312007), (63566749243, 0),
    (0, 502612), (48, 0)], [(17097334096566967, 0), (0, 2575493069446), (55569581, 0), (0, 1579)], [(17515426691019,
    0), (0, 1174137935), (1437, 0)], [(14200383993, 0), (0, 263362), (0, 8)]], 3, 4⟩, ⟨[[(0, 13651745598042112), (0,
    2846577966274464), (34926966239, 0), (0, 573184), (0, 26)], [(0, 18906905087657819), (0, 46976183966), (19705026,
    0), (925, 0)], [(5471943297649, 0), (0, 186556325), (0, 17633), (0, 4)], [(31369479, 0), (0, 84215), (11, 0)]],
    3, 4⟩, 72057594037927936, 1202706537905, 366358576441, ⟨[[(4241200797164, 0), (4572245570, 0), (4704870, 0), (0,
    697), (3, 0)], [(0, 4480910867), (0, 15406093), (0, 23967), (16, 0)], [(11975388, 0), (55332, 0), (77, 0)], [(0,
    36794), (0, 191)]], 3, 4⟩, 17592186044416, 23282405,
    3906307947048184132801066149863120675113793067657371136268911366801449784761002258471824513626909129912417688500720372728524188,
    lc0⟩)) (.sx (.sy (.out ⟨550, 16, 1114, 2544, 16, 2378, ⟨[[(0, 3668150373425152), (0, 2253823996112485),
    (24789718198, 0)], [(24097191837175284, 0), (0, 1987672915778), (21816814, 0)], [(25051969096418, 0), (0,
    927258624), (488, 0)]], 2, 2⟩, ⟨[[(0, 35540473523404800), (0, 2021282818469804), (11946416462, 0)], [(0,
    27780257456523447), (0, 10881511571), (8227189, 0)], [(7766405055927, 0), (0, 136789242), (0, 8451)]], 2, 2⟩,
    72057594037927936, 201760849471528, 6560476484481, ⟨[], 0, 0⟩, 0, 0, 0, lc0⟩ 2 1 16945366523656) (.out ⟨548, 16,
    1142, 2536, 16, 2384, ⟨[[(0, 16978712327266304), (0, 2285008512319369), (25317483062, 0)], [(23685561963742467,
    0), (0, 2015472761770), (21769099, 0)], [(25204548429658, 0), (0, 950281882), (38, 0)]], 2, 2⟩, ⟨[[(0,
    10885443343417344), (0, 2014455644602945), (11779496447, 0)], [(0, 27853705700446781), (0, 2368438126), (8782659,
    0)], [(7714919279207, 0), (0, 146271192), (0, 9744)]], 2, 2⟩, 72057594037927936, 205424959827889, 7133409094950,
    ⟨[], 0, 0⟩, 0, 0, 0, lc0⟩ 2 1 25954464074706)) (.out ⟨348, 16, 696, 1737, 16, 1639, ⟨[[(0, 22269602543644672),
    (0, 2906544242561287), (64090070060, 0)], [(16119306711878537, 0), (0, 2568981210628), (53892816, 0)],
    [(17248548393842, 0), (0, 1195039119), (1186, 0)]], 2, 2⟩, ⟨[[(14162666792189952, 0), (0, 2778779546775223),
    (33609459497, 0)], [(0, 18702062282793051), (0, 26026844272), (21316502, 0)], [(5309903525574, 0), (0,
    205073458), (0, 24014)]], 2, 2⟩, 72057594037927936, 141805616670704, 11691059674693, ⟨[], 0, 0⟩, 0, 0, 0, lc0⟩ 2
    1 38361875075116)))) (.sx (.sy (.sx (.sy (.leaf ⟨689, 16, 1349, 152, 16, 3329, ⟨[[(0, 3663167032000512), (0,
    2479097287770690), (27720721823, 0), (0, 3410), (13, 0)], [(22397874571790019, 0), (0, 2173415141134), (25188738,
    0), (0, 405)], [(23235308720878, 0), (0, 1040427496), (0, 2082), (0, 1)], [(21870993305, 0), (0, 358945), (5,
    0)]], 3, 4⟩, ⟨[[(0, 27763945431160832), (0, 1999200615031931), (10663138899, 0), (0, 198433), (0, 12)], [(0,
    29077119343793365), (31311072228, 0), (11256816, 0), (617, 0)], [(7849350182623, 0), (0, 134211455), (0, 10742),
    (0, 1)], [(0, 1355613655), (0, 110954), (0, 4)]], 3, 4⟩, 72057594037927936, 2089982057349, 535429798338,
    ⟨[[(4544996316314, 0), (3960304006, 0), (3092237, 0), (0, 683), (1, 0)], [(0, 3203159761), (0, 8551422), (0,
    8448), (5, 0)], [(5545896, 0), (18881, 0), (13, 0)], [(0, 10948), (0, 39)]], 3, 4⟩, 17592186044416, 2854896,
    2660255236310753112474804040097518531875712885428583271429539079051460986031943786948230698488130982540479177852138349432487663,
    lc0⟩) (.sx (.leaf ⟨891, 16, 1797, 196, 16, 4603, ⟨[[(0, 15928586996498432), (0, 3235422653236959), (36602768749,
    0), (37809, 0), (19, 0)], [(13882645359757611, 0), (0, 1416450105531), (16413784, 0), (0, 265)], [(7338562185588,
    0), (0, 343664365), (0, 1226)], [(3537820248, 0), (0, 60179), (1, 0)]], 3, 4⟩, ⟨[[(21743404068904960, 0), (0,
    2750350993406198), (14123861562, 0), (0, 321737), (0, 21)], [(0, 20202818433664555), (31886691432, 0), (8647525,
    0), (506, 0)], [(2705064134538, 0), (0, 49047461), (0, 4100)], [(0, 264053824), (0, 21170), (0, 1)]], 3, 4⟩,
    72057594037927936, 177916663367, 55436048908, ⟨[[(4569729691133, 0), (2945838663, 0), (1722254, 0), (0, 319)],
    [(0, 2511487104), (0, 4982028), (0, 3594), (2, 0)], [(3408726, 0), (8634, 0), (4, 0)], [(0, 5308), (0, 14)]], 3,
    4⟩, 17592186044416, 978057,
    3257285397220426629429533456440676910806458547537057697611937149322097764848298878000682315067964194493072134822179213630207955,
    lc0⟩) (.out ⟨746, 16, 1717, 3446, 16, 3238, ⟨[[(0, 33460202935361536), (0, 3148811928967584), (35629955985, 0)],
    [(13871743748309446, 0), (0, 1381274153977), (15589752, 0)], [(7446729905521, 0), (0, 335450369), (0, 1048)]], 2,
    2⟩, ⟨[[(0, 21833989413142528), (0, 2707412382686513), (14260182141, 0)], [(0, 19673989616148066), (27239441330,
    0), (8172303, 0)], [(2633749827294, 0), (0, 50783684), (0, 4149)]], 2, 2⟩, 72057594037927936, 33489872816663,
    7090686338941, ⟨[], 0, 0⟩, 0, 0, 0, lc0⟩ 2 1 14625908720860))) (.sy (.out ⟨567, 16, 1246, 2514, 16, 2361, ⟨[[(0,
    29536148777369600), (0, 2375844036072884), (26578267184, 0)], [(22600313356070059, 0), (0, 2089895595100),
    (23128855, 0)], [(24111751441661, 0), (0, 1000944827), (0, 1313)]], 2, 2⟩, ⟨[[(0, 15172130256388096), (0,
    1983964899503827), (11037912701, 0)], [(0, 28222656678722846), (19354126683, 0), (10264257, 0)], [(7651947094046,
    0), (0, 145653829), (0, 11008)]], 2, 2⟩, 72057594037927936, 205914929320500, 12115339361119, ⟨[], 0, 0⟩, 0, 0, 0,
    lc0⟩ 2 1 18247825301061) (.out ⟨565, 16, 1280, 2506, 16, 2367, ⟨[[(10301862447644672, 0), (0, 2413271223332961),
    (27290930423, 0)], [(22145190020458210, 0), (0, 2123413116429), (23066662, 0)], [(24253079693965, 0), (0,
    1030166994), (0, 2488)]], 2, 2⟩, ⟨[[(25897627626209280, 0), (0, 1978032949715128), (10788498195, 0)], [(0,
    28281973826136911), (30166605133, 0), (11173165, 0)], [(7595192807434, 0), (0, 157795709), (0, 12431)]], 2, 2⟩,
    72057594037927936, 209868214418332, 12973264026260, ⟨[], 0, 0⟩, 0, 0, 0, lc0⟩ 2 1 27262152944109))) (.sy (.out
    ⟨397, 16, 936, 1602, 16, 1516, ⟨[[(0, 25418652808736768), (0, 1712734237338648), (19632578280, 0)],
    [(29421192203683529, 0), (0, 3009265296428), (32919676, 0)], [(65421339378388, 0), (0, 2966366343), (0, 12793)]],
    2, 2⟩, ⟨[[(0, 17354555559297024), (0, 1260649737063579), (6540353966, 0)], [(0, 36610582979251035), (62692917736,
    0), (16369575, 0)], [(19426451258740, 0), (0, 422255855), (0, 35099)]], 2, 2⟩, 72057594037927936,
    1182565315244058, 68397569477826, ⟨[], 0, 0⟩, 0, 0, 0, lc0⟩ 2 1 27223129923068) (.out ⟨398, 16, 969, 1596, 16,
    1519, ⟨[[(25223948221083648, 0), (0, 1752682408441705), (20391938589, 0)], [(28903067054198613, 0), (0,
    3081670975269), (33025606, 0)], [(66182495875624, 0), (0, 3086729607), (0, 18303)]], 2, 2⟩,
    ⟨[[(10925521713070080, 0), (0, 1256685639232135), (6307503998, 0)], [(0, 36647233800929749), (80070871928, 0),
    (18004399, 0)], [(19243311079341, 0), (0, 460375707), (0, 39150)]], 2, 2⟩, 72057594037927936, 1216110643744147,
    71781854141927, ⟨[], 0, 0⟩, 0, 0, 0, lc0⟩ 2 1 36120449972170))) (.out ⟨167, 16, 371, 860, 16, 822,
    ⟨[[(18507872651290624, 0), (0, 2941087513937616), (133187470783, 0)], [(14441609013758302, 0), (0,
    5206258342402), (207881542, 0)], [(32995512406172, 0), (0, 5025863326), (0, 27612)]], 2, 2⟩, ⟨[[(0,
    31306442587545600), (0, 2738006827735943), (62891446346, 0)], [(0, 18982530647312317), (39707721397, 0),
    (111112126, 0)], [(10327531354677, 0), (0, 986440189), (0, 292823)]], 2, 2⟩, 72057594037927936, 570435968935535,
    86635743558927, ⟨[], 0, 0⟩, 0, 0, 0, lc0⟩ 2 1 54267507400092))
theorem c127 : checkR job con0 true ⟨7, 9, 7, 9, 13, 17⟩ 1 28336 t127 453 21 320 14745 251 16000 = true := by decide +kernel

def t128 : CTree :=
  .sy (.out ⟨114, 16, 206, 641, 16, 611, ⟨[[(1415536664935424, 0), (0, 1908982589300519), (83146800760, 0)],
    [(24812150535719960, 0), (0, 6760685609287), (262408923, 0)], [(106544063223069, 0), (0, 11963017218), (0,
    30931)]], 2, 2⟩, ⟨[[(27218382280138752, 0), (0, 2088967022906334), (53673183375, 0)], [(0, 26185660475529533),
    (0, 236543587146), (97990531, 0)], [(32634681470586, 0), (0, 2535476643), (0, 369889)]], 2, 2⟩,
    72057594037927936, 3166199756810202, 218667806077466, ⟨[], 0, 0⟩, 0, 0, 0, lc0⟩ 2 1 71277301895228) (.out ⟨111,
    16, 226, 634, 16, 618, ⟨[[(0, 13301860018597888), (0, 2003879052127549), (89092631333, 0)], [(23567785804006528,
    0), (0, 7143718542224), (253474312, 0)], [(110301304095973, 0), (0, 13102031013), (60819, 0)]], 2, 2⟩,
    ⟨[[(13903011147579392, 0), (0, 2059639797219165), (51707835760, 0)], [(0, 26579883568953908), (0, 133429153784),
    (115468693, 0)], [(31599586452490, 0), (0, 3107958855), (0, 727439)]], 2, 2⟩, 72057594037927936,
    3438806247910994, 230259327553766, ⟨[], 0, 0⟩, 0, 0, 0, lc0⟩ 2 1 104209522484510)
theorem c128 : checkR job con0 true ⟨7, 9, 7, 9, 13, 17⟩ 1 28336 t128 495 21 320 14745 251 16000 = true := by decide +kernel

def t129 : CTree :=
  .sy (.sx (.sy (.sy (.out ⟨137, 16, 168, 930, 16, 860, ⟨[[(0, 8138342284558336), (0, 991879862845555), (20066105158,
    0)], [(36463561264305432, 0), (0, 3381134633789), (38319361, 0)], [(134830422082857, 0), (0, 4041070169), (0,
    313295)]], 2, 2⟩, ⟨[[(23364272193019904, 0), (0, 1576939206207011), (22835062207, 0)], [(0, 31914791853244593),
    (0, 486336821822), (45992411, 0)], [(55544974043687, 0), (0, 2090671480), (77378, 0)]], 2, 2⟩, 72057594037927936,
    3110678674627833, 655526299243079, ⟨[], 0, 0⟩, 0, 0, 0, lc0⟩ 2 1 58614846999530) (.out ⟨135, 16, 174, 920, 16,
    861, ⟨[[(0, 22223791454136320), (0, 1006489885445863), (20668488886, 0)], [(36018318302246906, 0), (0,
    3459499630013), (44553272, 0)], [(137467946300404, 0), (0, 4481508160), (0, 266019)]], 2, 2⟩,
    ⟨[[(35043742205698048, 0), (0, 1556196118333505), (22127529284, 0)], [(0, 32185114446862184), (0, 443006970325),
    (41409026, 0)], [(54577262126228, 0), (0, 2021991840), (63424, 0)]], 2, 2⟩, 72057594037927936, 3262288994031189,
    637509357334626, ⟨[], 0, 0⟩, 0, 0, 0, lc0⟩ 2 1 76790425952026)) (.out ⟨105, 16, 147, 668, 16, 636,
    ⟨[[(3046303549278208, 0), (0, 1648366734848561), (68872766858, 0)], [(28250745142703134, 0), (0, 5725006025074),
    (167577762, 0)], [(113171560306144, 0), (0, 8144741661), (0, 626442)]], 2, 2⟩, ⟨[[(3986977639120896, 0), (0,
    2250894052383016), (62613210654, 0)], [(0, 24004379528215479), (0, 569796885393), (102898714, 0)],
    [(39212985179415, 0), (0, 2877509186), (98258, 0)]], 2, 2⟩, 72057594037927936, 2852088395131892, 495511528573599,
    ⟨[], 0, 0⟩, 0, 0, 0, lc0⟩ 2 1 101339006802751)) (.out ⟨71, 16, 80, 443, 16, 425, ⟨[[(32197735683320832, 0), (0,
    2111140530746517), (161577146205, 0)], [(22307042799592140, 0), (0, 6935548347605), (108915278, 0)],
    [(84224655828188, 0), (0, 5740291888), (0, 3993404)]], 2, 2⟩, ⟨[[(6837268372320256, 0), (0, 3093346711109652),
    (186128255127, 0)], [(0, 13506754210892530), (0, 1200134090647), (362824855, 0)], [(31617745938916, 0), (0,
    4783993713), (809927, 0)]], 2, 2⟩, 72057594037927936, 2029483385327273, 820088086513306, ⟨[], 0, 0⟩, 0, 0, 0,
    lc0⟩ 2 1 150430124192886)) (.out ⟨43, 16, 66, 325, 16, 324, ⟨[[(8956095457300480, 0), (0, 1495329510238500),
    (124897303824, 0)], [(25973815465465079, 0), (0, 10461881360247), (582658192, 0)], [(226861098808404, 0), (0,
    30414720365), (0, 2919143)]], 2, 2⟩, ⟨[[(6548937137893376, 0), (0, 2211415295110013), (122013293173, 0)], [(0,
    23192384201398574), (0, 1145323235752), (289712906, 0)], [(81796467944382, 0), (0, 12121633099), (0, 71957)]], 2,
    2⟩, 72057594037927936, 12254792300234674, 2612624532809624, ⟨[], 0, 0⟩, 0, 0, 0, lc0⟩ 2 1 183438755682519)
theorem c129 : checkR job con0 true ⟨7, 9, 7, 9, 13, 17⟩ 1 28336 t129 279 21 160 7247 251 8000 = true := by decide +kernel

def t130 : CTree :=
  .sy (.sx (.out ⟨43, 16, 36, 368, 16, 361, ⟨[[(22837888466202624, 0), (0, 1151985006500281), (65743780928, 0)],
    [(31723279097494565, 0), (0, 6383171528784), (0, 645520098)], [(219443113519238, 0), (8709235915, 0), (0,
    17190866)]], 2, 2⟩, ⟨[[(0, 1642897889554432), (0, 2709438764707680), (180488118229, 0)], [(0, 15050006985840847),
    (0, 3211397752276), (806974102, 0)], [(145642000424062, 0), (0, 20899714105), (2942638, 0)]], 2, 2⟩,
    72057594037927936, 8503829810588136, 5168722742440663, ⟨[], 0, 0⟩, 0, 0, 0, lc0⟩ 2 1 258783206056305) (.out ⟨45,
    16, 24, 460, 16, 457, ⟨[[(19268760885216256, 0), (0, 917612084503760), (0, 1374439117)], [(35808059323732419, 0),
    (0, 2318126049917), (0, 1896032750)], [(195979254864383, 0), (45245096534, 0), (0, 23800804)]], 2, 2⟩, ⟨[[(0,
    8234777696763904), (0, 3650256155578345), (276974747910, 0)], [(0, 255710425188180), (0, 6456162766453),
    (1264102167, 0)], [(261127362249608, 0), (0, 28526441428), (2152233, 0)]], 2, 2⟩, 72057594037927936,
    4533287688099857, 6308207117900987, ⟨[], 0, 0⟩, 0, 0, 0, lc0⟩ 0 20 18)) (.sx (.out ⟨38, 16, 39, 357, 16, 369,
    ⟨[[(35745638638757888, 0), (0, 1170701353575534), (80798622079, 0)], [(30770370294425734, 0), (0, 7321643834911),
    (0, 149185909)], [(238393100624676, 0), (0, 5608802801), (0, 11540646)]], 2, 2⟩, ⟨[[(32232858934038528, 0), (0,
    2599289480173512), (155898763925, 0)], [(0, 16846854272092102), (0, 2596590703257), (533619049, 0)],
    [(139014057942274, 0), (0, 17739593440), (3977409, 0)]], 2, 2⟩, 72057594037927936, 10059515232944157,
    4995691505467037, ⟨[], 0, 0⟩, 0, 0, 0, lc0⟩ 2 1 316933714483776) (.out ⟨39, 16, 24, 443, 16, 465, ⟨[[(0,
    6609695698419712), (0, 903101021394667), (27839693502, 0)], [(34239073679471811, 0), (0, 3797683567527), (0,
    1088136622)], [(213296030825960, 0), (24897280682, 0), (0, 16919592)]], 2, 2⟩, ⟨[[(0, 734750250778624), (0,
    3455519102427683), (234162203132, 0)], [(0, 3241917622171730), (0, 5335977270119), (1135632167, 0)],
    [(252036413385125, 0), (0, 24770514379), (5983258, 0)]], 2, 2⟩, 72057594037927936, 5824449887735236,
    6537262614341860, ⟨[], 0, 0⟩, 0, 0, 0, lc0⟩ 2 1 512934695844242))
theorem c130 : checkR job con0 true ⟨7, 9, 7, 9, 13, 17⟩ 1 28336 t130 171 21 80 7247 251 8000 = true := by decide +kernel

def t131 : CTree :=
  .sx (.sx (.sy (.sy (.out ⟨74, 16, 183, 396, 16, 390, ⟨[[(30819703545392128, 0), (0, 1437663391632227),
    (68094628187, 0)], [(26111741957583860, 0), (0, 10322447206019), (328523924, 0)], [(269872830307119, 0), (0,
    41053046004), (0, 637568)]], 2, 2⟩, ⟨[[(20495158533804032, 0), (0, 1269257605313341), (27848819967, 0)], [(0,
    35152183323734802), (221229165733, 0), (270254444, 0)], [(73781174574925, 0), (0, 10469757200), (0, 3425734)]],
    2, 2⟩, 72057594037927936, 19885530568264083, 612147348883275, ⟨[], 0, 0⟩, 0, 0, 0, lc0⟩ 2 1 105213107466474)
    (.out ⟨74, 16, 209, 392, 16, 394, ⟨[[(0, 11684723481543680), (0, 1562673389988176), (80624222535, 0)],
    [(23988684540775668, 0), (0, 11469566020582), (256495291, 0)], [(284400993405797, 0), (0, 48209383378), (0,
    2027476)]], 2, 2⟩, ⟨[[(0, 35384815130570752), (0, 1256355781157452), (23088110311, 0)], [(0, 35321068112907234),
    (564201265027, 0), (417768141, 0)], [(68218636644082, 0), (0, 14896036094), (0, 5238025)]], 2, 2⟩,
    72057594037927936, 22781185635076508, 765377741314923, ⟨[], 0, 0⟩, 0, 0, 0, lc0⟩ 2 1 133774292007356)) (.out ⟨49,
    16, 175, 296, 16, 308, ⟨[[(0, 21314225430293504), (0, 2400704569394631), (310755509611, 0)], [(12942075325551666,
    0), (0, 18841824773858), (69490902, 0)], [(206300774338189, 0), (0, 89861269847), (0, 18714223)]], 2, 2⟩, ⟨[[(0,
    6620613196959744), (0, 1924115525904232), (29965486727, 0)], [(0, 27045667954274737), (2274701204702, 0),
    (2520427740, 0)], [(41713282420659, 0), (0, 39993468006), (0, 29049617)]], 2, 2⟩, 72057594037927936,
    21786826482771687, 2453727912586190, ⟨[], 0, 0⟩, 0, 0, 0, lc0⟩ 2 1 182156366063664)) (.out ⟨24, 16, 56, 207, 16,
    221, ⟨[[(10005587488857600, 0), (0, 2233275114328375), (388388803698, 0)], [(15618527289622558, 0), (0,
    16461244245364), (1075715805, 0)], [(172884362587970, 0), (0, 49436581744), (14818454, 0)]], 2, 2⟩, ⟨[[(0,
    28361201086593024), (0, 2783490984592681), (284147635719, 0)], [(0, 16309299984637406), (0, 1016128855435),
    (1014160134, 0)], [(48713213449821, 0), (0, 23966116600), (0, 23634029)]], 2, 2⟩, 72057594037927936,
    12289976672339330, 4832175637004440, ⟨[], 0, 0⟩, 0, 0, 0, lc0⟩ 2 1 268416083557410)) (.sx (.out ⟨23, 16, 33, 213,
    16, 237, ⟨[[(0, 17066953988761088), (0, 1775025907900786), (266450596265, 0)], [(21384995942167293, 0), (0,
    12142816832236), (897803076, 0)], [(194084845888736, 0), (0, 27321863965), (0, 9251685)]], 2, 2⟩, ⟨[[(0,
    9507056466966528), (0, 3066898078068847), (329446800185, 0)], [(0, 11931182299471453), (0, 2672650893895),
    (538430823, 0)], [(82098686109700, 0), (0, 15840902143), (6518717, 0)]], 2, 2⟩, 72057594037927936,
    10596484107807222, 4499171190935097, ⟨[], 0, 0⟩, 0, 0, 0, lc0⟩ 2 1 401121950235314) (.out ⟨26, 16, 21, 233, 16,
    265, ⟨[[(2838121908941056, 0), (0, 1474905372626063), (169332972084, 0)], [(27071739117923776, 0), (0,
    8329967734415), (0, 915571523)], [(196115903864232, 0), (10457222683, 0), (0, 30040629)]], 2, 2⟩, ⟨[[(0,
    11706602464315392), (0, 3586229997458148), (414249353673, 0)], [(0, 3811624181125779), (0, 4459649668443),
    (1745554434, 0)], [(135297649027386, 0), (0, 15382659369), (18905653, 0)]], 2, 2⟩, 72057594037927936,
    8699743198680200, 6365224263634966, ⟨[], 0, 0⟩, 0, 0, 0, lc0⟩ 2 1 549032619086461))
theorem c131 : checkR job con0 true ⟨7, 9, 7, 9, 13, 17⟩ 1 28336 t131 75 21 40 7749 251 8000 = true := by decide +kernel

def t132 : CTree :=
  .sx (.sy (.sx (.sx (.sx (.sy (.sx (.sy (.sx (.leaf ⟨2045, 16, 7184, 94, 16, 4287, ⟨[[(0, 24024040286994432), (0,
    28150244505239782), (1802341209544, 0), (170285178, 0), (36085, 0)], [(0, 575307675658495), (0, 14593359952722),
    (6208091779, 0), (1296249, 0), (246, 0)], [(0, 37205238658), (0, 6857928509), (512723, 0), (136, 0)],
    [(4373972581, 0), (0, 34303970), (0, 11538), (0, 3)]], 3, 4⟩, ⟨[[(6915979958068224, 0), (0, 12023851939535503),
    (0, 1116114247578), (0, 363767040), (0, 63189)], [(0, 45670327267476343), (3463606338725, 0), (1416948887, 0),
    (344693, 0), (63, 0)], [(23448718780615, 0), (6199537762, 0), (2561615, 0), (671, 0)], [(0, 18490343377), (0,
    9116292), (0, 3423), (0, 1)]], 3, 4⟩, 72057594037927936, 339107636589, 55651430632, ⟨[[(6139344930566, 0),
    (7536017438, 0), (2971918, 0), (0, 981), (3, 0)], [(0, 3210374905), (0, 7067056), (5796, 0), (0, 9)], [(3639823,
    0), (3627, 0), (0, 17)], [(0, 3563), (2, 0)]], 3, 4⟩, 17592186044416, 300142,
    4252889293448161227873961655322245957674321482888559251592981036510531686067486347438574255761148898493318366618260795291999806,
    lc0⟩) (.out ⟨1516, 16, 6940, 3164, 16, 3063, ⟨[[(19586000972693504, 0), (0, 27594798375314544), (1909191543968,
    0)], [(0, 547019051171552), (0, 14546893585712), (5998681300, 0)], [(365779490045, 0), (0, 9420349039), (0,
    444569)]], 2, 2⟩, ⟨[[(8966721476657152, 0), (0, 11925549351263982), (0, 1074807974165)], [(0, 44412987006089947),
    (3790191461681, 0), (1552686145, 0)], [(21909020020765, 0), (5424532678, 0), (2269677, 0)]], 2, 2⟩,
    72057594037927936, 32230598738751, 72953301549877, ⟨[], 0, 0⟩, 0, 0, 0, lc0⟩ 1 1 20959804262346)) (.out ⟨1452,
    16, 6778, 1975, 16, 1915, ⟨[[(12543998866112512, 0), (0, 26472071387475036), (1825540539467, 0)], [(0,
    3189123282030595), (0, 26062423314304), (12319309120, 0)], [(0, 1849998875303), (0, 31316282267), (114387, 0)]],
    2, 2⟩, ⟨[[(35355651356868608, 0), (0, 7599470133421895), (0, 739230925513)], [(0, 55949062107485824),
    (4841028799448, 0), (1968760422, 0)], [(57890689933501, 0), (15515753850, 0), (6426579, 0)]], 2, 2⟩,
    72057594037927936, 95550299372647, 284214605241341, ⟨[], 0, 0⟩, 0, 0, 0, lc0⟩ 1 1 23013123553926)) (.out ⟨725,
    16, 3351, 1598, 16, 1563, ⟨[[(0, 26243839170846720), (0, 27093123310590411), (4228749961971, 0)], [(0,
    1041330719441393), (0, 29064355715921), (23362940253, 0)], [(1373002329571, 0), (0, 53110781179), (0,
    14695329)]], 2, 2⟩, ⟨[[(28713344500957184, 0), (0, 12080971407233003), (0, 2134599486433)], [(0,
    43376595711348187), (8843089413495, 0), (7245934486, 0)], [(40415151031374, 0), (17870835963, 0), (15310831,
    0)]], 2, 2⟩, 72057594037927936, 185061322047913, 303079577084105, ⟨[], 0, 0⟩, 0, 0, 0, lc0⟩ 1 1 41513212989054))
    (.out ⟨669, 16, 3218, 986, 16, 967, ⟨[[(0, 25691545656590336), (0, 25036372207836498), (3952052308885, 0)], [(0,
    5913538347320867), (0, 45807018433424), (50200780964, 0)], [(0, 11370965419173), (0, 166245841911), (0,
    31304431)]], 2, 2⟩, ⟨[[(0, 7901966150369280), (0, 7781173397736143), (0, 1604581647486)], [(0,
    54273500346907529), (11652068404061, 0), (9412306330, 0)], [(112183346211144, 0), (59844812193, 0), (49935406,
    0)]], 2, 2⟩, 72057594037927936, 471251892582289, 1245886627826671, ⟨[], 0, 0⟩, 0, 0, 0, lc0⟩ 1 1 44521461688546))
    (.out ⟨329, 16, 1554, 815, 16, 813, ⟨[[(0, 20692938340618240), (0, 25984947738178475), (9905262578089, 0)], [(0,
    1884650235221506), (0, 61530927163684), (82669175777, 0)], [(7857576737223, 0), (0, 323933833385), (0,
    279383237)]], 2, 2⟩, ⟨[[(30823379982745600, 0), (0, 12307617751968481), (0, 4073739683874)], [(0,
    41574445888286016), (22019140216187, 0), (36218874330, 0)], [(66161105818774, 0), (35540657693, 0), (68298416,
    0)]], 2, 2⟩, 72057594037927936, 1383021621062444, 1275870922379433, ⟨[], 0, 0⟩, 0, 0, 0, lc0⟩ 1 1
    80020774273037)) (.out ⟨263, 16, 1243, 560, 16, 574, ⟨[[(0, 35662060277125120), (0, 23404498191876470),
    (10184151435071, 0)], [(1552263213375742, 0), (0, 154988586158110), (78368581699, 0)], [(232693982522942, 0), (0,
    1591399968983), (0, 1564651953)]], 2, 2⟩, ⟨[[(0, 32214159560417280), (0, 8025727952047629), (0, 1768886271176)],
    [(0, 52814008443994624), (30655792828838, 0), (52022092012, 0)], [(99726365501949, 0), (0, 108586357247), (0,
    132779777)]], 2, 2⟩, 72057594037927936, 18239603976590419, 3861563335628712, ⟨[], 0, 0⟩, 0, 0, 0, lc0⟩ 1 1
    133684101938120)) (.sx (.out ⟨151, 16, 701, 593, 16, 631, ⟨[[(843819743213568, 0), (0, 16386281575987118),
    (6277620883985, 0)], [(18252255000568501, 0), (0, 140435153294475), (0, 4623265135)], [(543423050951331, 0), (0,
    920081366844), (0, 733757888)]], 2, 2⟩, ⟨[[(33622729946349568, 0), (0, 8023248809549888), (0, 538585688979)],
    [(0, 53914622368521765), (22086981188526, 0), (41092616382, 0)], [(52471730779056, 0), (0, 260575570178), (0,
    375671578)]], 2, 2⟩, 72057594037927936, 21023060411918486, 1081088164087798, ⟨[], 0, 0⟩, 0, 0, 0, lc0⟩ 1 1
    206466186512571) (.out ⟨85, 16, 360, 609, 16, 671, ⟨[[(32579650110633984, 0), (0, 10770442527801454),
    (2945722872745, 0)], [(34797547264302606, 0), (0, 94662993449140), (0, 14123312551)], [(654762519644809, 0), (0,
    321478091712), (0, 22327251)]], 2, 2⟩, ⟨[[(30560405453963264, 0), (0, 8090270553644237), (336410820623, 0)], [(0,
    53989464077419099), (8465022645643, 0), (21785738305, 0)], [(74179407015631, 0), (0, 235354016183), (0,
    344375655)]], 2, 2⟩, 72057594037927936, 15838910814340837, 1955112199323621, ⟨[], 0, 0⟩, 0, 0, 0, lc0⟩ 1 1
    276800482970258))) (.sx (.sx (.out ⟨284, 16, 1457, 491, 16, 493, ⟨[[(0, 20758118538489856), (0,
    22253810120054242), (9276372501373, 0)], [(0, 10480166732932567), (0, 71622750369109), (204022256565, 0)], [(0,
    73467441046979), (0, 1027921324762), (0, 815773998)]], 2, 2⟩, ⟨[[(0, 3446507385389056), (0, 8147599738322486),
    (0, 3709958375545)], [(0, 50662339808496686), (32174974749951, 0), (51446798531, 0)], [(205446114568971, 0),
    (205364937697, 0), (350269943, 0)]], 2, 2⟩, 72057594037927936, 5413974880080088, 6039767420150362, ⟨[], 0, 0⟩, 0,
    0, 0, lc0⟩ 1 1 88082234711526) (.out ⟨233, 16, 1217, 561, 16, 585, ⟨[[(6760714582763520, 0), (0,
    21239493089959004), (11574268072753, 0)], [(0, 9823040816503035), (0, 138729965369198), (90790802279, 0)],
    [(96158973821193, 0), (0, 1828984897135), (0, 1955378509)]], 2, 2⟩, ⟨[[(18036542385594368, 0), (0,
    8515692662117857), (0, 2531281469029)], [(0, 51039491272079607), (40575655710411, 0), (67137293071, 0)],
    [(92127707983943, 0), (0, 133914369385), (0, 163852412)]], 2, 2⟩, 72057594037927936, 17221909606075163,
    4809900461691242, ⟨[], 0, 0⟩, 0, 0, 0, lc0⟩ 1 1 160981578564001)) (.sx (.out ⟨165, 16, 864, 597, 16, 644, ⟨[[(0,
    3762549424289792), (0, 18902036426965077), (8908832776740, 0)], [(8946162068188559, 0), (0, 174543281272026), (0,
    13092486674)], [(575290330938620, 0), (0, 1296110586712), (0, 1183744718)]], 2, 2⟩, ⟨[[(0, 16429362829975552),
    (0, 8305542577445547), (0, 963056126705)], [(0, 52989642372741010), (29958342147327, 0), (53557366036, 0)],
    [(30293813756582, 0), (0, 332914317728), (0, 478682530)]], 2, 2⟩, 72057594037927936, 27100364635920407,
    1353981991618989, ⟨[], 0, 0⟩, 0, 0, 0, lc0⟩ 1 1 224748284861320) (.out ⟨84, 16, 407, 609, 16, 680, ⟨[[(0,
    20281850957184000), (0, 11629408372799900), (3703428886006, 0)], [(30879546531345230, 0), (0, 110144610871951),
    (0, 24330977225)], [(711677401207365, 0), (0, 369968429507), (0, 60058223)]], 2, 2⟩, ⟨[[(0, 18204523312504832),
    (0, 8158821566604915), (167248168147, 0)], [(0, 53897499655597970), (12518701321284, 0), (28666810273, 0)],
    [(54270240349940, 0), (0, 299891445084), (0, 441346117)]], 2, 2⟩, 72057594037927936, 18617684123333532,
    2369050113158369, ⟨[], 0, 0⟩, 0, 0, 0, lc0⟩ 1 1 292198064160674)))) (.sx (.out ⟨22, 16, 66, 313, 16, 365, ⟨[[(0,
    3714367431089664), (0, 5501888325995317), (1905930920201, 0)], [(43235618691972608, 0), (0, 84569579476879), (0,
    1939563949)], [(1080861665731010, 0), (0, 308138910733), (863690119, 0)]], 2, 2⟩, ⟨[[(28512941141106688, 0), (0,
    8690691961513753), (1712529618568, 0)], [(0, 48049239499677275), (0, 8522438254913), (20237544489, 0)],
    [(359895443289361, 0), (0, 366446391554), (0, 897154515)]], 2, 2⟩, 72057594037927936, 36622779807293735,
    13006447945734991, ⟨[], 0, 0⟩, 0, 0, 0, lc0⟩ 1 1 403275860646631) (.out ⟨21, 16, 26, 425, 16, 518,
    ⟨[[(33911423019801088, 0), (0, 3215784588097069), (884161279958, 0)], [(53540461545398757, 0), (0,
    41377923095412), (5528257398, 0)], [(911041058935220, 0), (0, 75249232341), (0, 127656009)]], 2, 2⟩,
    ⟨[[(31004643814191104, 0), (0, 12925463902542290), (2832324489995, 0)], [(0, 27014049791189061), (0,
    26861326448076), (13678342643, 0)], [(974857772162004, 0), (0, 102519164005), (335981768, 0)]], 2, 2⟩,
    72057594037927936, 22625832334594325, 22385787960156007, ⟨[], 0, 0⟩, 0, 0, 0, lc0⟩ 1 1 578994873756533))
theorem c132 : checkR job con1 true ⟨7, 9, 7, 9, 13, 17⟩ 1 28336 t132 34 14 20 4039 39 4000 = true := by decide +kernel

def t133 : CTree :=
  .sx (.sx (.out ⟨94, 16, 557, 246, 16, 259, ⟨[[(0, 3463226420813824), (0, 15571274437606508), (23127277583771, 0)],
    [(0, 17419169062188354), (0, 99267387843646), (692960901385, 0)], [(0, 419091487767366), (0, 6788846296120), (0,
    15220157619)]], 2, 2⟩, ⟨[[(9367258773649408, 0), (0, 8956115033364454), (0, 9336393160730)], [(0,
    42978508803352384), (108209000537463, 0), (340488850234, 0)], [(292188653262737, 0), (231789644092, 0),
    (1048359471, 0)]], 2, 2⟩, 72057594037927936, 50853960904515168, 36674874316048793, ⟨[], 0, 0⟩, 0, 0, 0, lc0⟩ 1 1
    172417558475261) (.sx (.out ⟨81, 16, 517, 445, 16, 492, ⟨[[(31135898719082496, 0), (0, 19809782569587358),
    (27080508869287, 0)], [(0, 7007985656444530), (0, 214334730970301), (0, 62996192550)], [(242422902841744, 0), (0,
    1955466936534), (0, 4148493179)]], 2, 2⟩, ⟨[[(31808153398087680, 0), (0, 13166978529363835), (0, 5297853299263)],
    [(0, 37171747321143959), (68773106145063, 0), (233018178073, 0)], [(0, 12224664076975), (0, 711742699422), (0,
    2040500924)]], 2, 2⟩, 72057594037927936, 21035526949191600, 2823744272777814, ⟨[], 0, 0⟩, 0, 0, 0, lc0⟩ 1 1
    259340078430921) (.out ⟨52, 16, 324, 465, 16, 531, ⟨[[(15141406826753536, 0), (0, 16997111154247083),
    (14332269118258, 0)], [(14004382047431289, 0), (0, 187261513901104), (0, 128362389638)], [(531187586161511, 0),
    (0, 624335812917), (0, 427841398)]], 2, 2⟩, ⟨[[(1854800672567296, 0), (0, 12735003613593500), (0, 423180516378)],
    [(0, 40595380106642917), (32237824391883, 0), (129204489662, 0)], [(9662219789652, 0), (0, 661303410781), (0,
    1951546980)]], 2, 2⟩, 72057594037927936, 18035596087938810, 3269878846023457, ⟨[], 0, 0⟩, 0, 0, 0, lc0⟩ 1 1
    318061071867661))) (.sx (.out ⟨18, 16, 74, 307, 16, 369, ⟨[[(8259049826981632, 0), (0, 5826688238626826),
    (2272383654614, 0)], [(41029359432671616, 0), (0, 96675667956657), (0, 23365675540)], [(1191747995121157, 0), (0,
    158013553590), (1453027906, 0)]], 2, 2⟩, ⟨[[(33374036030287872, 0), (0, 8522936470534581), (1652188182416, 0)],
    [(0, 49098333665004891), (0, 4452340992185), (33047220863, 0)], [(328065597025412, 0), (0, 566560243083), (0,
    1669509464)]], 2, 2⟩, 72057594037927936, 41652890360058130, 17688859474719186, ⟨[], 0, 0⟩, 0, 0, 0, lc0⟩ 1 1
    430073119926564) (.sx (.out ⟨35, 16, 66, 551, 16, 688, ⟨[[(0, 6035335155389440), (0, 7114669966942032),
    (2040271221895, 0)], [(49107022994849152, 0), (0, 49177180516991), (7138483353, 0)], [(483279492718634, 0), (0,
    90961776479), (72159031, 0)]], 2, 2⟩, ⟨[[(26093972749910016, 0), (0, 16363723411378051), (3548026186026, 0)],
    [(0, 27670346934992402), (0, 15795725248928), (225046634, 0)], [(277098458767111, 0), (0, 66512225135), (0,
    115309483)]], 2, 2⟩, 72057594037927936, 6261638258007874, 3231905735320912, ⟨[], 0, 0⟩, 0, 0, 0, lc0⟩ 1 1
    562802906685278) (.out ⟨40, 16, 44, 678, 16, 858, ⟨[[(0, 4334729677658112), (0, 5696017820913124),
    (1509685540084, 0)], [(54108204518721829, 0), (0, 34768060405133), (4687751045, 0)], [(435777197862961, 0), (0,
    14523572700), (0, 111682243)]], 2, 2⟩, ⟨[[(25087575564730368, 0), (0, 20997417249031138), (4390826158971, 0)],
    [(0, 12140005006608567), (0, 21691358150042), (0, 1135362127)], [(445874076011037, 0), (0, 15133051415), (0,
    24133161)]], 2, 2⟩, 72057594037927936, 3690533573194389, 3809833813300686, ⟨[], 0, 0⟩, 0, 0, 0, lc0⟩ 1 1
    658849990655284)))
theorem c133 : checkR job con1 true ⟨7, 9, 7, 9, 13, 17⟩ 1 28336 t133 34 14 20 4117 39 4000 = true := by decide +kernel

def t134 : CTree :=
  .sx (.sy (.out ⟨479, 16, 2717, 3117, 16, 4840, ⟨[[(17375625722195968, 0), (0, 12959143286746575), (537885805959,
    0)], [(78724001197871790, 0), (0, 79800808286669), (0, 4798208255)], [(0, 319469353569615), (0, 51685731797), (0,
    69200071)]], 2, 2⟩, ⟨[[(0, 17979709756047360), (0, 27936999739577725), (3475183448138, 0)]], 2, 2⟩,
    72057594037927936, 262423919330068, 25768050878948, ⟨[], 0, 0⟩, 0, 0, 0, lc0⟩ 0 1 149470750188) (.out ⟨486, 16,
    2837, 3147, 16, 4935, ⟨[[(0, 14280737766031360), (0, 13459858920562439), (349933724652, 0)], [(75663710805432210,
    0), (0, 84396182002681), (0, 8854383361)], [(0, 338271606760766), (0, 66936593657), (0, 94801143)]], 2, 2⟩,
    ⟨[[(27973295973957632, 0), (0, 27940522574021579), (3442222813111, 0)]], 2, 2⟩, 72057594037927936,
    289768284745333, 25277199241399, ⟨[], 0, 0⟩, 0, 0, 0, lc0⟩ 0 1 111388212505)) (.sy (.sy (.out ⟨679, 16, 3706,
    6234, 16, 9657, ⟨[[(0, 28987815742038016), (0, 9619707757557962), (175337208814, 0)], [(97800001207623186, 0),
    (0, 55194889339701), (0, 1965459892)], [(0, 401610781534173), (0, 29783941161), (0, 20933527)]], 2, 2⟩, ⟨[[(0,
    13607550320312320), (0, 28006324189919721), (1746139047941, 0)]], 2, 2⟩, 72057594037927936, 275861329872709,
    6473701443415, ⟨[], 0, 0⟩, 0, 0, 0, lc0⟩ 0 1 102866017726) (.out ⟨688, 16, 3814, 6265, 16, 9752, ⟨[[(0,
    23707119300485120), (0, 9875035706156900), (139484296454, 0)], [(96205783979778048, 0), (0, 57170488585823), (0,
    2695895739)], [(0, 415842797162497), (0, 34260379685), (0, 24776379)]], 2, 2⟩, ⟨[[(0, 23793840498999296), (0,
    28008750561960635), (1737838962708, 0)]], 2, 2⟩, 72057594037927936, 287902690339224, 6411672480825, ⟨[], 0, 0⟩,
    0, 0, 0, lc0⟩ 0 1 85858142989)) (.sy (.out ⟨697, 16, 3928, 6295, 16, 9846, ⟨[[(16381533395746816, 0), (0,
    10151368680365294), (96989147614, 0)], [(94470362264146651, 0), (0, 59371537820216), (0, 3547779878)], [(0,
    431187029188043), (0, 39548791550), (0, 29219985)]], 2, 2⟩, ⟨[[(0, 29408325923307520), (0, 28006986486127390),
    (1729360079415, 0)]], 2, 2⟩, 72057594037927936, 300926371637057, 6349585955509, ⟨[], 0, 0⟩, 0, 0, 0, lc0⟩ 0 1
    72296939155) (.sy (.out ⟨873, 16, 4977, 12651, 16, 19860, ⟨[[(0, 751726261911552), (0, 6425389152312863),
    (18636720145, 0)], [(115282267008719579, 0), (0, 37899729680152), (0, 1324694004)], [(0, 549401043040875), (0,
    27332564534), (0, 10220808)]], 2, 2⟩, ⟨[[(0, 7995739573059584), (0, 28042963867297917), (862674619845, 0)]], 2,
    2⟩, 72057594037927936, 366846099759981, 1576105601397, ⟨[], 0, 0⟩, 0, 0, 0, lc0⟩ 0 1 61401176881) (.out ⟨883, 16,
    5073, 12681, 16, 19955, ⟨[[(0, 18709436972539904), (0, 6547038515379188), (10269757807, 0)],
    [(114484208978614418, 0), (0, 38852669774693), (0, 1495917591)], [(0, 562236137258720), (0, 29539121108), (0,
    11118273)]], 2, 2⟩, ⟨[[(0, 1687808441712640), (0, 28042371096716971), (860591410057, 0)]], 2, 2⟩,
    72057594037927936, 376194778747878, 1568531376260, ⟨[], 0, 0⟩, 0, 0, 0, lc0⟩ 0 1 55024125113))))
theorem c134 : checkR job con2 true ⟨7, 9, 7, 9, 13, 17⟩ 1 28336 t134 103 7 320 4039 39 4000 = true := by decide +kernel

def t135 : CTree :=
  .sx (.sy (.sy (.out ⟨662, 16, 3955, 6355, 16, 10037, ⟨[[(2253460712628224, 0), (0, 9360985477157991), (56528233274,
    0)], [(98550790867345774, 0), (0, 59686954680578), (0, 4291392778)], [(0, 477519366544276), (0, 55196293429), (0,
    40128590)]], 2, 2⟩, ⟨[[(34531906379120640, 0), (0, 28008106049624556), (1712929242837, 0)]], 2, 2⟩,
    72057594037927936, 321970942820368, 6229110480973, ⟨[], 0, 0⟩, 0, 0, 0, lc0⟩ 0 1 92533087386) (.out ⟨672, 16,
    4076, 6386, 16, 10133, ⟨[[(0, 11086821658312704), (0, 9642164406026179), (7807111635, 0)], [(96739088793682798,
    0), (0, 62275093213978), (0, 5363239247)], [(0, 496828286084623), (0, 63761989008), (0, 46907402)]], 2, 2⟩,
    ⟨[[(0, 14095340839370752), (0, 28008138059855652), (1704798713242, 0)]], 2, 2⟩, 72057594037927936,
    335788566421647, 6170040004487, ⟨[], 0, 0⟩, 0, 0, 0, lc0⟩ 0 1 82250706405)) (.sy (.out ⟨682, 16, 4205, 6416, 16,
    10230, ⟨[[(24545396218347520, 0), (0, 9950445639831298), (0, 48890345555)], [(94753779087006153, 0), (0,
    65191455848952), (0, 6605866282)], [(0, 517990055741152), (0, 73816384750), (0, 54749339)]], 2, 2⟩,
    ⟨[[(33880121370017792, 0), (0, 28009656719495703), (1696835083267, 0)]], 2, 2⟩, 72057594037927936,
    350714417606506, 6112130223050, ⟨[], 0, 0⟩, 0, 0, 0, lc0⟩ 0 1 74212219008) (.out ⟨694, 16, 4343, 6447, 16, 10327,
    ⟨[[(0, 28593047592140800), (0, 10289812675238717), (0, 114694334924)], [(92567674828036827, 0), (0,
    68489118078221), (0, 8046180323)], [(0, 541294544278293), (0, 85618494720), (0, 63830920)]], 2, 2⟩, ⟨[[(0,
    10986678061891584), (0, 28009907873648446), (1688869935101, 0)]], 2, 2⟩, 72057594037927936, 366896621837379,
    6054761018651, ⟨[], 0, 0⟩, 0, 0, 0, lc0⟩ 0 1 66792075110))) (.sy (.sx (.sy (.out ⟨1035, 16, 6061, 6355, 16,
    10037, ⟨[[(33574089339748352, 0), (0, 15315196075834210), (10853676756, 0)], [(68052119274527698, 0), (0,
    46596218668395), (0, 3924963475)], [(0, 172440807793059), (0, 19807943759), (0, 14878171)]], 2, 2⟩,
    ⟨[[(34531906379120640, 0), (0, 28008106049624556), (1712929242837, 0)]], 2, 2⟩, 72057594037927936,
    80687917352515, 6229110480973, ⟨[], 0, 0⟩, 0, 0, 0, lc0⟩ 0 1 58724678106) (.out ⟨1043, 16, 6203, 6386, 16, 10133,
    ⟨[[(0, 17502115941761024), (0, 15679395919810816), (0, 81621506059)], [(65900794519371273, 0), (0,
    48376114487828), (0, 4819974173)], [(0, 178158719629825), (0, 22803749112), (0, 17266979)]], 2, 2⟩, ⟨[[(0,
    14095340839370752), (0, 28008138059855652), (1704798713242, 0)]], 2, 2⟩, 72057594037927936, 85642985852567,
    6170040004487, ⟨[], 0, 0⟩, 0, 0, 0, lc0⟩ 0 1 49481415785)) (.sy (.sy (.out ⟨1486, 16, 8556, 12712, 16, 20051,
    ⟨[[(0, 12549904416145408), (0, 11272007261385239), (0, 8100261699)], [(90680209581253650, 0), (0,
    33152992964665), (0, 1460143418)], [(0, 233290513589554), (0, 12814477359), (0, 4897392)]], 2, 2⟩, ⟨[[(0,
    32110397578674176), (0, 28042862719669396), (858551349223, 0)]], 2, 2⟩, 72057594037927936, 82753687412947,
    1561071853446, ⟨[], 0, 0⟩, 0, 0, 0, lc0⟩ 0 1 39847085803) (.out ⟨1498, 16, 8699, 12742, 16, 20147,
    ⟨[[(18185240229265408, 0), (0, 11463036013431803), (0, 25684222788)], [(89557314110627438, 0), (0,
    33949746819516), (0, 1627623181)], [(0, 238236777942074), (0, 13830681547), (0, 5306052)]], 2, 2⟩, ⟨[[(0,
    973685364752384), (0, 28043031353529613), (856511143628, 0)]], 2, 2⟩, 72057594037927936, 84907103711436,
    1553647728358, ⟨[], 0, 0⟩, 0, 0, 0, lc0⟩ 0 1 35655800604)) (.sy (.out ⟨1511, 16, 8846, 12772, 16, 20243, ⟨[[(0,
    3616489621782528), (0, 11662258012782738), (0, 44718934421)], [(88367492664914066, 0), (0, 34793487949949), (0,
    1808242047)], [(0, 243393172313783), (0, 14933207535), (0, 5745903)]], 2, 2⟩, ⟨[[(19739587158736896, 0), (0,
    28042881581997450), (854470933971, 0)]], 2, 2⟩, 72057594037927936, 87157696334396, 1546258888554, ⟨[], 0, 0⟩, 0,
    0, 0, lc0⟩ 0 1 31280291028) (.out ⟨1524, 16, 8999, 12802, 16, 20339, ⟨[[(17032714029350912, 0), (0,
    11872599192627294), (0, 65318853906)], [(87123541499444114, 0), (0, 35694913193420), (0, 2003385722)], [(0,
    248824139507748), (0, 16132377895), (0, 6220624)]], 2, 2⟩, ⟨[[(30103563071389696, 0), (0, 28042417923720245),
    (852430857638, 0)]], 2, 2⟩, 72057594037927936, 89529828704832, 1538905233303, ⟨[], 0, 0⟩, 0, 0, 0, lc0⟩ 0 1
    28215021385)))) (.sx (.sy (.sy (.out ⟨1478, 16, 8902, 12833, 16, 20436, ⟨[[(14269473023672320, 0), (0,
    11260824963711749), (0, 56322792189)], [(90488923771577216, 0), (0, 35144495845573), (0, 1965316388)], [(0,
    257679685458602), (0, 17882047708), (0, 6796411)]], 2, 2⟩, ⟨[[(3383575500947456, 0), (0, 28043017069423202),
    (850432663212, 0)]], 2, 2⟩, 72057594037927936, 90163934818172, 1531661980688, ⟨[], 0, 0⟩, 0, 0, 0, lc0⟩ 0 1
    44600663992) (.out ⟨1491, 16, 9056, 12864, 16, 20533, ⟨[[(26255265199276032, 0), (0, 11466071766688566), (0,
    76698490916)], [(89253137099859291, 0), (0, 36077549313637), (0, 2169686754)], [(0, 263599275747755), (0,
    19303631985), (0, 7349193)]], 2, 2⟩, ⟨[[(0, 33753082468368384), (0, 28043298236814713), (848434279394, 0)]], 2,
    2⟩, 72057594037927936, 92523284834624, 1524452654351, ⟨[], 0, 0⟩, 0, 0, 0, lc0⟩ 0 1 42238411569)) (.sy (.out
    ⟨1505, 16, 9217, 12894, 16, 20630, ⟨[[(17205082011598848, 0), (0, 11683694880352189), (0, 98708531631)],
    [(87962025533264494, 0), (0, 37077530700469), (0, 2390487043)], [(0, 269864507477643), (0, 20849748271), (0,
    7946373)]], 2, 2⟩, ⟨[[(0, 9175245193740288), (0, 28043265892362109), (846435842334, 0)]], 2, 2⟩,
    72057594037927936, 95013174102982, 1517276966834, ⟨[], 0, 0⟩, 0, 0, 0, lc0⟩ 0 1 39627859230) (.out ⟨1520, 16,
    9384, 12924, 16, 20727, ⟨[[(0, 26930696509440000), (0, 11912766652527954), (0, 122464428985)],
    [(86596137352266514, 0), (0, 38144078375897), (0, 2628711739)], [(0, 276460069284676), (0, 22528292503), (0,
    8590547)]], 2, 2⟩, ⟨[[(5132373685174272, 0), (0, 28042924439756265), (844437485012, 0)]], 2, 2⟩,
    72057594037927936, 97628378402529, 1510135311464, ⟨[], 0, 0⟩, 0, 0, 0, lc0⟩ 0 1 37120009060))) (.leaf ⟨942, 16,
    4061, 418, 16, 2015, ⟨[[(0, 17358117437931520), (0, 21495643443141038), (0, 859628399233), (0, 2806163675), (0,
    1615946)], [(36138503840566190, 0), (0, 65997125927678), (0, 17696834382), (0, 23503725), (0, 14960)], [(0,
    113819512230771), (0, 33853772416), (0, 52340659), (0, 54138), (0, 36)], [(111819734006, 0), (47157800, 0),
    (55273, 0), (56, 0)]], 3, 4⟩, ⟨[[(21545017405857792, 0), (0, 17350631999067149), (0, 3213373154062), (0,
    5501385258), (0, 4430837)], [(0, 60936053172404050), (0, 24157111840147), (0, 29692325870), (0, 27078202), (0,
    13604)], [(26432012690852, 0), (0, 29521144192), (0, 59500684), (0, 56933), (0, 41)], [(0, 18448726090),
    (20344224, 0), (50504, 0), (50, 0)]], 3, 4⟩, 72057594037927936, 136229690466, 337709596026, ⟨[[(18336129062926,
    0), (33838286631, 0), (12709685, 0), (0, 53104), (0, 1343)], [(0, 27365131234), (0, 50812136), (0, 40468), (0,
    1101), (1, 0)], [(45135203, 0), (98064, 0), (21, 0), (11, 0)], [(0, 93262), (0, 441), (1, 0)]], 3, 4⟩,
    17592186044416, 50985411,
    16396250528588081771323206709307830119737000664603574200625229409031784809073298658649818595208627481089284752682675917021751794,
    lc0⟩)))
theorem c135 : checkR job con2 true ⟨7, 9, 7, 9, 13, 17⟩ 1 28336 t135 103 7 320 4117 39 4000 = true := by decide +kernel

def t136 : CTree :=
  .sx (.sy (.out ⟨1047, 16, 5604, 6234, 16, 9657, ⟨[[(0, 16197859221143552), (0, 15427514509822910), (230513289590,
    0)], [(67754592126524352, 0), (0, 42178699298456), (0, 1807301307)], [(0, 142958703330641), (0, 10018771787), (0,
    7347840)]], 2, 2⟩, ⟨[[(0, 13607550320312320), (0, 28006324189919721), (1746139047941, 0)]], 2, 2⟩,
    72057594037927936, 66343428741319, 6473701443415, ⟨[], 0, 0⟩, 0, 0, 0, lc0⟩ 0 1 66721724832) (.out ⟨1053, 16,
    5731, 6265, 16, 9752, ⟨[[(31510964616691712, 0), (0, 15745936965807104), (163040569055, 0)], [(65913235772841106,
    0), (0, 43465424807274), (0, 2403407994)], [(0, 147045616885101), (0, 11504877537), (0, 8647427)]], 2, 2⟩, ⟨[[(0,
    23793840498999296), (0, 28008750561960635), (1737838962708, 0)]], 2, 2⟩, 72057594037927936, 70499073053838,
    6411672480825, ⟨[], 0, 0⟩, 0, 0, 0, lc0⟩ 0 1 52362907324)) (.sy (.sy (.out ⟨1498, 16, 7889, 12468, 16, 19291,
    ⟨[[(0, 22484855613456384), (0, 11281826931922965), (78228530496, 0)], [(91023503161316974, 0), (0,
    29823693752645), (0, 658970538)], [(0, 192953486915721), (0, 6219541910), (0, 2324694)]], 2, 2⟩, ⟨[[(0,
    4781606906757120), (0, 28041115542244726), (875218188528, 0)]], 2, 2⟩, 72057594037927936, 68718288712341,
    1622408477797, ⟨[], 0, 0⟩, 0, 0, 0, lc0⟩ 0 1 47697412324) (.out ⟨1509, 16, 8012, 12499, 16, 19386, ⟨[[(0,
    25751371260329984), (0, 11446366554106759), (66064510369, 0)], [(90075897449379968, 0), (0, 30400584729501), (0,
    766242312)], [(0, 196469292848217), (0, 6698439143), (0, 2537107)]], 2, 2⟩, ⟨[[(0, 6921962374561792), (0,
    28042499172328885), (873135696744, 0)]], 2, 2⟩, 72057594037927936, 70419839989000, 1614612481076, ⟨[], 0, 0⟩, 0,
    0, 0, lc0⟩ 0 1 39788069301)) (.sy (.out ⟨1520, 16, 8138, 12529, 16, 19480, ⟨[[(0, 15257870346485760), (0,
    11617015862317297), (52785523631, 0)], [(89078988029841371, 0), (0, 31008127515465), (0, 882261202)], [(0,
    200105800595817), (0, 7220380318), (0, 2765666)]], 2, 2⟩, ⟨[[(5836139149262848, 0), (0, 28042100693907387),
    (871007942038, 0)]], 2, 2⟩, 72057594037927936, 72196253223703, 1606770776926, ⟨[], 0, 0⟩, 0, 0, 0, lc0⟩ 0 1
    32558945206) (.sy (.out ⟨1942, 16, 10466, 25119, 16, 39126, ⟨[[(30321902073430016, 0), (0, 7466569422534077),
    (13360123715, 0)], [(112224509166310601, 0), (0, 20008669454264), (0, 309931878)], [(0, 257904752590202), (0,
    4856552385), (0, 936850)]], 2, 2⟩, ⟨[[(20626503328333824, 0), (0, 28059518054506329), (434984080092, 0)]], 2, 2⟩,
    72057594037927936, 88628523610554, 400242348622, ⟨[], 0, 0⟩, 0, 0, 0, lc0⟩ 0 1 28105117337) (.out ⟨1954, 16,
    10572, 25149, 16, 39220, ⟨[[(0, 5001011940900864), (0, 7540280801385585), (10984784231, 0)],
    [(111782698404077531, 0), (0, 20261577199914), (0, 331359667)], [(0, 260905292619937), (0, 5055943460), (0,
    979497)]], 2, 2⟩, ⟨[[(16247606774857728, 0), (0, 28059033522747149), (434451242901, 0)]], 2, 2⟩,
    72057594037927936, 89866174778122, 399269098576, ⟨[], 0, 0⟩, 0, 0, 0, lc0⟩ 0 1 24463165256))))
theorem c136 : checkR job con2 true ⟨7, 9, 7, 9, 13, 17⟩ 1 28336 t136 227 7 640 8039 39 8000 = true := by decide +kernel

def t137 : CTree :=
  .sy (.sy (.out ⟨1492, 16, 8218, 12590, 16, 19669, ⟨[[(18837624544329728, 0), (0, 11278279138529134), (37083205492,
    0)], [(90857973341222839, 0), (0, 31384274448492), (0, 1025432432)], [(0, 211865930989503), (0, 9012724810), (0,
    3434177)]], 2, 2⟩, ⟨[[(0, 26039789379649536), (0, 28041762824893607), (866797404250, 0)]], 2, 2⟩,
    72057594037927936, 75540931398957, 1591283603650, ⟨[], 0, 0⟩, 0, 0, 0, lc0⟩ 0 1 41448098726) (.out ⟨1504, 16,
    8350, 12620, 16, 19764, ⟨[[(0, 12331423183060992), (0, 11454748148845486), (22271566798, 0)],
    [(89823491895862418, 0), (0, 32060080061768), (0, 1160442643)], [(0, 216004982818009), (0, 9720519168), (0,
    3731112)]], 2, 2⟩, ⟨[[(1313226264543232, 0), (0, 28041819050384377), (864714269647, 0)]], 2, 2⟩,
    72057594037927936, 77462748884278, 1583636618229, ⟨[], 0, 0⟩, 0, 0, 0, lc0⟩ 0 1 34559103516)) (.sx (.sy (.out
    ⟨2142, 16, 12025, 12651, 16, 19860, ⟨[[(0, 23191476743929856), (0, 16330635325916042), (15165157652, 0)],
    [(63970727785863406, 0), (0, 23169936923818), (0, 905300271)], [(0, 78857224448090), (0, 3790079637), (0,
    1455987)]], 2, 2⟩, ⟨[[(0, 7995739573059584), (0, 28042963867297917), (862674619845, 0)]], 2, 2⟩,
    72057594037927936, 19434283843725, 1576105601397, ⟨[], 0, 0⟩, 0, 0, 0, lc0⟩ 0 1 34180911686) (.out ⟨2149, 16,
    12166, 12681, 16, 19955, ⟨[[(0, 6735873691615232), (0, 16521593220523221), (0, 8767863658)], [(62886613385674514,
    0), (0, 23591807180277), (0, 1010408717)], [(0, 80090123726105), (0, 4071987882), (0, 1572264)]], 2, 2⟩, ⟨[[(0,
    1687808441712640), (0, 28042371096716971), (860591410057, 0)]], 2, 2⟩, 72057594037927936, 20068566832949,
    1568531376260, ⟨[], 0, 0⟩, 0, 0, 0, lc0⟩ 0 1 29213389925)) (.sy (.out ⟨2159, 16, 12055, 12651, 16, 19860,
    ⟨[[(19273489390731264, 0), (0, 16697300462558720), (2213822937, 0)], [(61939460909952009, 0), (0,
    23332048447186), (0, 947835751)], [(0, 77439058826639), (0, 3649586288), (0, 1416555)]], 2, 2⟩, ⟨[[(0,
    7995739573059584), (0, 28042963867297917), (862674619845, 0)]], 2, 2⟩, 72057594037927936, 19677121445235,
    1576105601397, ⟨[], 0, 0⟩, 0, 0, 0, lc0⟩ 0 1 24511784306) (.sy (.out ⟨3105, 16, 17445, 25363, 16, 39887,
    ⟨[[(6953793433763840, 0), (0, 12082080301532761), (0, 6000368949)], [(87653652447310135, 0), (0, 16965365644618),
    (0, 368878892)], [(0, 112379500227351), (0, 2763603537), (0, 538233)]], 2, 2⟩, ⟨[[(0, 34950961184899072), (0,
    28059784229058074), (430820718691, 0)]], 2, 2⟩, 72057594037927936, 20382475010646, 392611536364, ⟨[], 0, 0⟩, 0,
    0, 0, lc0⟩ 0 1 20770560162) (.out ⟨3118, 16, 17593, 25393, 16, 39982, ⟨[[(17977205096579072, 0), (0,
    12185892548827943), (0, 10765526942)], [(87060464283284498, 0), (0, 17168730578349), (0, 390044549)], [(0,
    113553634424702), (0, 2873115526), (0, 560691)]], 2, 2⟩, ⟨[[(0, 35174714133446656), (0, 28059367735910236),
    (430299003756, 0)]], 2, 2⟩, 72057594037927936, 20660874803222, 391666680939, ⟨[], 0, 0⟩, 0, 0, 0, lc0⟩ 0 1
    18595001276))))
theorem c137 : checkR job con2 true ⟨7, 9, 7, 9, 13, 17⟩ 1 28336 t137 447 7 1280 8117 39 8000 = true := by decide +kernel

def t138 : CTree :=
  .sy (.sx (.sy (.out ⟨2162, 16, 11804, 12590, 16, 19669, ⟨[[(0, 1491249813487616), (0, 16674387622070318),
    (37264158199, 0)], [(62105862245297079, 0), (0, 22671130691206), (0, 787005168)], [(0, 73760301442790), (0,
    3027021024), (0, 1173013)]], 2, 2⟩, ⟨[[(0, 26039789379649536), (0, 28041762824893607), (866797404250, 0)]], 2,
    2⟩, 72057594037927936, 18641479032712, 1591283603650, ⟨[], 0, 0⟩, 0, 0, 0, lc0⟩ 0 1 25392476512) (.sy (.out
    ⟨3107, 16, 17068, 25241, 16, 39505, ⟨[[(0, 32910248760311808), (0, 12052756193898404), (7118521715, 0)],
    [(87880295492301349, 0), (0, 16459970619163), (0, 308003594)], [(0, 106915700364814), (0, 2290237163), (0,
    445994)]], 2, 2⟩, ⟨[[(0, 34039767746740224), (0, 28059237127132357), (432885992180, 0)]], 2, 2⟩,
    72057594037927936, 19405625410924, 396393523745, ⟨[], 0, 0⟩, 0, 0, 0, lc0⟩ 0 1 20748864372) (.out ⟨3119, 16,
    17209, 25271, 16, 39600, ⟨[[(3793624549523456, 0), (0, 12151547397737329), (2772321857, 0)], [(87309874867717175,
    0), (0, 16645661357786), (0, 326878648)], [(0, 107981819633029), (0, 2380491616), (0, 464935)]], 2, 2⟩, ⟨[[(0,
    13306954736205824), (0, 28059142209620480), (432364241947, 0)]], 2, 2⟩, 72057594037927936, 19665481494052,
    395439623519, ⟨[], 0, 0⟩, 0, 0, 0, lc0⟩ 0 1 18260493397))) (.sy (.sy (.out ⟨3132, 16, 16971, 25180, 16, 39315,
    ⟨[[(1611908041637888, 0), (0, 12216057193474317), (11512708946, 0)], [(86990515095836891, 0), (0,
    16334302993220), (0, 286674098)], [(0, 103777076887400), (0, 2038276210), (0, 398643)]], 2, 2⟩, ⟨[[(0,
    19243410462081024), (0, 28059183373251525), (433929501775, 0)]], 2, 2⟩, 72057594037927936, 18954731420951,
    398308160687, ⟨[], 0, 0⟩, 0, 0, 0, lc0⟩ 0 1 16644722003) (.sy (.out ⟨4033, 16, 21920, 50421, 16, 78797, ⟨[[(0,
    31826922089873408), (0, 7888474562679424), (2667684674, 0)], [(111122767717314926, 0), (0, 10570918346674), (0,
    96351029)], [(0, 134195828669782), (0, 1346843063), (0, 132047)]], 2, 2⟩, ⟨[[(0, 13857552151347200), (0,
    28067968846783626), (216836513730, 0)]], 2, 2⟩, 72057594037927936, 23249019921941, 99398336031, ⟨[], 0, 0⟩, 0, 0,
    0, lc0⟩ 0 1 14232154368) (.out ⟨4045, 16, 22036, 50451, 16, 78892, ⟨[[(22661738231005184, 0), (0,
    7929857411609902), (1967060210, 0)], [(110881336619723941, 0), (0, 10642170235139), (0, 99438297)], [(0,
    135012410982010), (0, 1374855157), (0, 135011)]], 2, 2⟩, ⟨[[(14089785692389376, 0), (0, 28067971731172513),
    (216705952943, 0)]], 2, 2⟩, 72057594037927936, 23419977104925, 99278893457, ⟨[], 0, 0⟩, 0, 0, 0, lc0⟩ 0 1
    13129765221))) (.sx (.sy (.out ⟨4378, 16, 23956, 25241, 16, 39505, ⟨[[(0, 2026103763697664), (0,
    17159720657215823), (5383741244, 0)], [(60109350820666770, 0), (0, 11584442935171), (0, 222631889)], [(0,
    36931798193834), (0, 774610914), (0, 152067)]], 2, 2⟩, ⟨[[(0, 34039767746740224), (0, 28059237127132357),
    (432885992180, 0)]], 2, 2⟩, 72057594037927936, 4801014277268, 396393523745, ⟨[], 0, 0⟩, 0, 0, 0, lc0⟩ 0 1
    13597346099) (.leaf ⟨6097, 16, 24577, 2655, 16, 12365, ⟨[[(0, 4063773676732416), (0, 17604190167064678), (0,
    1014968232), (0, 28291196), (0, 2258)], [(60739113600863333, 0), (0, 11921294960908), (0, 240290149), (0, 51468),
    (0, 4)], [(0, 37952109366541), (0, 819440059), (0, 161313), (0, 23)], [(9507013392, 0), (492508, 0), (77, 0)]],
    3, 4⟩, ⟨[[(15020858741850112, 0), (0, 13177606876025938), (0, 168086821828), (0, 44736361), (0, 5003)], [(0,
    85893199381799899), (0, 3319067070651), (0, 496568496), (0, 63895), (0, 5)], [(10820949284220, 0), (0,
    627842458), (0, 204480), (0, 24)], [(0, 1558771768), (200869, 0), (65, 0)]], 3, 4⟩, 72057594037927936,
    2254124384, 1991214484, ⟨[[(17170750630758, 0), (5063368969, 0), (123391, 0), (0, 752), (0, 1)], [(0,
    3804404720), (0, 1149430), (0, 142)], [(897858, 0), (252, 0)], [(0, 224)]], 3, 4⟩, 17592186044416, 56817,
    13645938729624387325435524864912862873657421047154541873947669026460909637047363065380340257880945106074171648503548283212157090,
    lc0⟩)) (.leaf ⟨3764, 16, 15119, 1810, 16, 8461, ⟨[[(0, 17166231130800128), (0, 21864367823402722), (0,
    2550798936), (0, 141027808), (0, 22593)], [(37000843871198546, 0), (0, 14671886556513), (0, 587374406), (0,
    253090), (0, 43)], [(0, 23082968512207), (0, 967403108), (0, 382402), (0, 109)], [(5804816975, 0), (612401, 0),
    (193, 0)]], 3, 4⟩, ⟨[[(27079832997658624, 0), (0, 18079439089032684), (0, 464716198510), (0, 245516174), (0,
    54798)], [(0, 58478925924200247), (0, 4512958376142), (0, 1354149230), (0, 349557), (0, 50)], [(7376609922825,
    0), (0, 825966941), (0, 544433), (0, 130)], [(0, 1041781074), (283595, 0), (181, 0)]], 3, 4⟩, 72057594037927936,
    1610691638, 1951266076, ⟨[[(17039217637173, 0), (7359695714, 0), (302904, 0), (0, 2191), (0, 5)], [(0,
    6103441226), (0, 2698675), (0, 478), (1, 0)], [(2328423, 0), (936, 0), (1, 0)], [(0, 928), (0, 1)]], 3, 4⟩,
    17592186044416, 149688,
    11312625813012419467365101838652412733198201820442215200240700692021461645355527813444136883844688969911974940473892467066490957,
    lc0⟩)))) (.sx (.sy (.sy (.out ⟨3132, 16, 17353, 25302, 16, 39696, ⟨[[(0, 8043247435579392), (0,
    12253145692059983), (0, 1758102272)], [(86729193646016530, 0), (0, 16837680041720), (0, 346517991)], [(0,
    109075496884314), (0, 2474774278), (0, 484620)]], 2, 2⟩, ⟨[[(0, 23943167593152512), (0, 28059673738823542),
    (431853385746, 0)]], 2, 2⟩, 72057594037927936, 19932705365168, 394498024903, ⟨[], 0, 0⟩, 0, 0, 0, lc0⟩ 0 1
    15671064297) (.sy (.out ⟨4037, 16, 22438, 50664, 16, 79559, ⟨[[(0, 16442539885756416), (0, 7922124856836359), (0,
    1696460029)], [(110868505847942766, 0), (0, 10912537605626), (0, 116207735)], [(0, 141227566800750), (0,
    1637097073), (0, 160576)]], 2, 2⟩, ⟨[[(11787531440357376, 0), (0, 28068132054010788), (215797489402, 0)]], 2, 2⟩,
    72057594037927936, 24447448148501, 98447431450, ⟨[], 0, 0⟩, 0, 0, 0, lc0⟩ 0 1 13683408755) (.out ⟨4050, 16,
    22561, 50694, 16, 79654, ⟨[[(20021931998543872, 0), (0, 7965878014556396), (0, 2473706438)],
    [(110619701163598117, 0), (0, 10990807772459), (0, 119701483)], [(0, 142131125375236), (0, 1671466204), (0,
    164126)]], 2, 2⟩, ⟨[[(18726476697305088, 0), (0, 28067973403783588), (215666936139, 0)]], 2, 2⟩,
    72057594037927936, 24632896025645, 98329056269, ⟨[], 0, 0⟩, 0, 0, 0, lc0⟩ 0 1 12729088020))) (.leaf ⟨3050, 16,
    12465, 1300, 16, 6112, ⟨[[(0, 13522195114950656), (0, 17607630635736806), (0, 39208289486), (0, 120391077), (0,
    18845)], [(59930925580498789, 0), (0, 24396080473435), (0, 1122752965), (0, 448823), (0, 75)], [(0,
    78711321833742), (0, 3838342463), (0, 1511258), (0, 420)], [(39440453818, 0), (4193070, 0), (1302, 0)]], 3, 4⟩,
    ⟨[[(17058010641514496, 0), (0, 13053857467165453), (0, 386656201222), (0, 193775512), (0, 42286)], [(0,
    86290935117870080), (0, 7065015185221), (0, 2140954857), (0, 536816), (0, 75)], [(21216350763079, 0), (0,
    3003441801), (0, 1818202), (0, 434)], [(0, 6218245665), (1729853, 0), (1091, 0)]], 3, 4⟩, 72057594037927936,
    17738219362, 17865064777, ⟨[[(17365334140115, 0), (10424531413, 0), (772865, 0), (0, 5249), (0, 20)], [(0,
    7747196450), (0, 4725416), (0, 1426), (0, 1)], [(3694906, 0), (2109, 0), (3, 0)], [(0, 1914), (0, 2)]], 3, 4⟩,
    17592186044416, 272343,
    14805415438028881544021741147672235300449506254135140834049031413072816628622931686546509714501782462860897825552186429170118595,
    lc0⟩)) (.leaf ⟨1876, 16, 7615, 885, 16, 4190, ⟨[[(5797524587184128, 0), (0, 21927025035233205), (0, 99137074992),
    (0, 604466576), (0, 190744)], [(35862843326760279, 0), (0, 29827481183519), (0, 2715155093), (0, 2192318), (0,
    730)], [(0, 46992873600890), (0, 4332677179), (0, 3439327), (0, 1927), (0, 1)], [(23749992578, 0), (5254667, 0),
    (3353, 0), (2, 0)]], 3, 4⟩, ⟨[[(0, 15817541471600640), (0, 17990861103529945), (0, 1079896964035), (0,
    1067754425), (0, 464212)], [(0, 58561956977570853), (0, 9569577767732), (0, 5834457716), (0, 2944550), (0, 830)],
    [(14447553761417, 0), (0, 3825574884), (0, 4722566), (0, 2251), (0, 1)], [(0, 4048781025), (2531606, 0), (3089,
    0), (2, 0)]], 3, 4⟩, 72057594037927936, 14558419485, 22015388945, ⟨[[(17112278988266, 0), (15042704878, 0),
    (1868025, 0), (0, 14265), (0, 79)], [(0, 12364980003), (0, 11022415), (0, 4514), (0, 5)], [(9541511, 0), (7661,
    0), (13, 0)], [(0, 7837), (0, 10)]], 3, 4⟩, 17592186044416, 1551438,
    10411317374304300451029124299755723880398669389546145204061963570799814276834181048121455675035797805742449655715354977848586669,
    lc0⟩))
theorem c138 : checkR job con2 true ⟨7, 9, 7, 9, 13, 17⟩ 1 28336 t138 461 7 1280 8117 39 8000 = true := by decide +kernel

def t139 : CTree :=
  .sx (.sy (.out ⟨2167, 16, 11316, 12468, 16, 19291, ⟨[[(0, 7683517295919104), (0, 16632817376431865), (101926249927,
    0)], [(62420493396751296, 0), (0, 21479471764376), (0, 506530296)], [(0, 67083515291058), (0, 2048225121), (0,
    780348)]], 2, 2⟩, ⟨[[(0, 4781606906757120), (0, 28041115542244726), (875218188528, 0)]], 2, 2⟩,
    72057594037927936, 16661863573209, 1622408477797, ⟨[], 0, 0⟩, 0, 0, 0, lc0⟩ 0 1 31556279306) (.sy (.out ⟨3108,
    16, 16335, 24998, 16, 38748, ⟨[[(35487261209853952, 0), (0, 11997025375840620), (31306641296, 0)],
    [(88289478411550811, 0), (0, 15548138790983), (0, 201895489)], [(0, 97014044824410), (0, 1546070386), (0,
    297395)]], 2, 2⟩, ⟨[[(0, 35199046443335680), (0, 28059203002004506), (437093278324, 0)]], 2, 2⟩,
    72057594037927936, 17556523755916, 404138937792, ⟨[], 0, 0⟩, 0, 0, 0, lc0⟩ 0 1 26443944026) (.out ⟨3120, 16,
    16465, 25028, 16, 38842, ⟨[[(10364838373621760, 0), (0, 12087874736957691), (27753689458, 0)],
    [(87768447667015790, 0), (0, 15704653579360), (0, 216774167)], [(0, 97909517687968), (0, 1605988418), (0,
    310720)]], 2, 2⟩, ⟨[[(0, 18456681660284928), (0, 28059045118472766), (436560377117, 0)]], 2, 2⟩,
    72057594037927936, 17783130793986, 403156220257, ⟨[], 0, 0⟩, 0, 0, 0, lc0⟩ 0 1 22565756073))) (.sy (.sy (.out
    ⟨3132, 16, 16232, 24937, 16, 38560, ⟨[[(0, 2493983059836928), (0, 12147977275318415), (35808741653, 0)],
    [(87473366224991232, 0), (0, 15430738332650), (0, 182991326)], [(0, 94187739984785), (0, 1357550716), (0,
    260984)]], 2, 2⟩, ⟨[[(0, 12546543735275520), (0, 28059271318728802), (438159111147, 0)]], 2, 2⟩,
    72057594037927936, 17117869181663, 406111982775, ⟨[], 0, 0⟩, 0, 0, 0, lc0⟩ 0 1 22973100595) (.out ⟨3144, 16,
    16361, 24967, 16, 38654, ⟨[[(0, 28491982986379264), (0, 12239182109547533), (32330657149, 0)],
    [(86954229411583104, 0), (0, 15583136252867), (0, 197224269)], [(0, 95044625721490), (0, 1410144033), (0,
    272940)]], 2, 2⟩, ⟨[[(14815851401707520, 0), (0, 28059278603121615), (437626192790, 0)]], 2, 2⟩,
    72057594037927936, 17339594354405, 405124432967, ⟨[], 0, 0⟩, 0, 0, 0, lc0⟩ 0 1 18873847447)) (.sy (.out ⟨3155,
    16, 16492, 24998, 16, 38748, ⟨[[(30480250121027584, 0), (0, 12332397759597205), (28695941201, 0)],
    [(86424005494077221, 0), (0, 15739948921977), (0, 212036855)], [(0, 95918199743424), (0, 1465148574), (0,
    285352)]], 2, 2⟩, ⟨[[(0, 35199046443335680), (0, 28059203002004506), (437093278324, 0)]], 2, 2⟩,
    72057594037927936, 17566866690606, 404138937792, ⟨[], 0, 0⟩, 0, 0, 0, lc0⟩ 0 1 16058186689) (.sy (.out ⟨4072, 16,
    21350, 50056, 16, 77661, ⟨[[(0, 3812013594181632), (0, 7980497528667609), (8320276665, 0)], [(110688696087565312,
    0), (0, 10204651217581), (0, 71912668)], [(0, 124284776734739), (0, 970273065), (0, 94892)]], 2, 2⟩, ⟨[[(0,
    10495517972234240), (0, 28067766204522312), (218414298089, 0)]], 2, 2⟩, 72057594037927936, 21606966395138,
    100851327447, ⟨[], 0, 0⟩, 0, 0, 0, lc0⟩ 0 1 13031735572) (.out ⟨4084, 16, 21460, 50087, 16, 77756,
    ⟨[[(17599007474647040, 0), (0, 8020361452051323), (7704584321, 0)], [(110458481060643218, 0), (0,
    10268678460610), (0, 74524213)], [(0, 125001774866504), (0, 990286184), (0, 97111)]], 2, 2⟩, ⟨[[(0,
    22714391716691968), (0, 28068017250736709), (218283759776, 0)]], 2, 2⟩, 72057594037927936, 21762011532249,
    100730169492, ⟨[], 0, 0⟩, 0, 0, 0, lc0⟩ 0 1 11524783450))))
theorem c139 : checkR job con2 true ⟨7, 9, 7, 9, 13, 17⟩ 1 28336 t139 475 7 1280 16039 39 16000 = true := by decide +kernel

def t140 : CTree :=
  .sx (.sy (.sy (.out ⟨3132, 16, 16598, 25059, 16, 38937, ⟨[[(11484543682936832, 0), (0, 12181458399200366),
    (24044321834, 0)], [(87241203321314834, 0), (0, 15866668804677), (0, 232268304)], [(0, 98828612896602), (0,
    1668705943), (0, 324573)]], 2, 2⟩, ⟨[[(0, 32679119400730624), (0, 28059526190378319), (436038696996, 0)]], 2, 2⟩,
    72057594037927936, 18016420872873, 402186003379, ⟨[], 0, 0⟩, 0, 0, 0, lc0⟩ 0 1 19222098762) (.out ⟨3144, 16,
    16732, 25089, 16, 39031, ⟨[[(11209934728953856, 0), (0, 12276337328381868), (20169399900, 0)],
    [(86696479567718327, 0), (0, 16032395934752), (0, 248373202)], [(0, 99759706331947), (0, 1734131639), (0,
    338933)]], 2, 2⟩, ⟨[[(0, 26535831675338752), (0, 28059203789999819), (435505809341, 0)]], 2, 2⟩,
    72057594037927936, 18254367816092, 401207843552, ⟨[], 0, 0⟩, 0, 0, 0, lc0⟩ 0 1 15910063109)) (.sx (.sy (.out
    ⟨4381, 16, 23445, 25119, 16, 39126, ⟨[[(11270932606615552, 0), (0, 17118947407325174), (23695214267, 0)],
    [(60353873118542510, 0), (0, 11251462944356), (0, 182518676)], [(0, 35178469036456), (0, 635485480), (0,
    124387)]], 2, 2⟩, ⟨[[(20626503328333824, 0), (0, 28059518054506329), (434984080092, 0)]], 2, 2⟩,
    72057594037927936, 4535911484947, 400242348622, ⟨[], 0, 0⟩, 0, 0, 0, lc0⟩ 0 1 15008611359) (.sy (.out ⟨6335, 16,
    34006, 50299, 16, 78417, ⟨[[(0, 33962989969604608), (0, 12413338406436807), (6985148265, 0)],
    [(86585163472025966, 0), (0, 8175707614585), (0, 69017516)], [(0, 51079455058713), (0, 471565542), (0, 46292)]],
    2, 2⟩, ⟨[[(0, 7984645016125440), (0, 28067752420942461), (217358747481, 0)]], 2, 2⟩, 72057594037927936,
    4674962405402, 99878545541, ⟨[], 0, 0⟩, 0, 0, 0, lc0⟩ 0 1 12651174871) (.out ⟨6347, 16, 34147, 50329, 16, 78512,
    ⟨[[(21726033874255872, 0), (0, 12463799047435169), (5921015710, 0)], [(86303399013293989, 0), (0, 8220568245159),
    (0, 71232273)], [(0, 51328466250732), (0, 480835131), (0, 47292)]], 2, 2⟩, ⟨[[(30553446007439360, 0), (0,
    28067837409010846), (217228191604, 0)]], 2, 2⟩, 72057594037927936, 4706631621444, 99758525565, ⟨[], 0, 0⟩, 0, 0,
    0, lc0⟩ 0 1 11311830929))) (.leaf ⟨3748, 16, 14810, 1841, 16, 8525, ⟨[[(0, 5801590815096832), (0,
    21825008613812214), (45728022163, 0), (0, 131202708), (0, 21473)], [(37228252170649481, 0), (0, 14255638954326),
    (0, 483151951), (0, 228378), (0, 39)], [(0, 22004687226168), (0, 791662459), (0, 312355), (0, 93)], [(5531876227,
    0), (566565, 0), (180, 0)]], 3, 4⟩, ⟨[[(0, 13649722795376640), (0, 18203966637083369), (0, 394431187539), (0,
    223691387), (0, 51248)], [(0, 57823572882898103), (0, 4183331344023), (0, 1233859326), (0, 328202), (0, 48)],
    [(7460108209528, 0), (0, 649606945), (0, 476756), (0, 113)], [(0, 1035576671), (259261, 0), (171, 0)]], 3, 4⟩,
    72057594037927936, 1619524627, 1790608812, ⟨[[(16792058814851, 0), (7148773491, 0), (154910, 0), (0, 2447), (0,
    5)], [(0, 5991107953), (0, 2633916), (0, 306), (1, 0)], [(2272914, 0), (908, 0), (1, 0)], [(0, 875)]], 3, 4⟩,
    17592186044416, 143981,
    14686246217318191696340461751719689537983173814909643729166958902570632972524144581376483401327419643994098609673225654820081836,
    lc0⟩))) (.sy (.sx (.sy (.sy (.out ⟨6356, 16, 33513, 50117, 16, 77850, ⟨[[(18037436965912576, 0), (0,
    12467026779487309), (11407833284, 0)], [(86308418416903351, 0), (0, 8021713090121), (0, 59419853)], [(0,
    49090747916403), (0, 399021690), (0, 39111)]], 2, 2⟩, ⟨[[(0, 11957159745028096), (0, 28067886519349685),
    (218150412468, 0)]], 2, 2⟩, 72057594037927936, 4498592766293, 100607276725, ⟨[], 0, 0⟩, 0, 0, 0, lc0⟩ 0 1
    12309565907) (.out ⟨6368, 16, 33649, 50147, 16, 77944, ⟨[[(35726937482657792, 0), (0, 12515914210512117),
    (10406990220, 0)], [(86030069543613275, 0), (0, 8063713018460), (0, 61455839)], [(0, 49321454726188), (0,
    406821835), (0, 39974)]], 2, 2⟩, ⟨[[(0, 3832404360298496), (0, 28067735498525030), (218017069143, 0)]], 2, 2⟩,
    72057594037927936, 4528611154226, 100484492287, ⟨[], 0, 0⟩, 0, 0, 0, lc0⟩ 0 1 10740584471)) (.leaf ⟨6065, 16,
    23807, 2718, 16, 12562, ⟨[[(2857356105351168, 0), (0, 17707083473585497), (24934690809, 0), (0, 25990266), (0,
    2144)], [(60199016974518958, 0), (0, 11431113934989), (0, 181670102), (0, 44589), (0, 4)], [(0, 34929483352099),
    (0, 589074144), (0, 116168), (0, 17)], [(8787648502, 0), (447050, 0), (72, 0)]], 3, 4⟩, ⟨[[(0,
    13080045214531584), (0, 13421655076983678), (0, 137328398214), (0, 39857109), (0, 4602)], [(0,
    84542946453989504), (0, 2990431452300), (0, 438362256), (0, 58954), (0, 4)], [(10982258812196, 0), (0,
    430747681), (0, 165906), (0, 20)], [(0, 1509714816), (185843, 0), (62, 0)]], 3, 4⟩, 72057594037927936,
    2272651622, 1659454530, ⟨[[(16668961553485, 0), (4807826150, 0), (56175, 0), (0, 776), (0, 1)], [(0, 3663108575),
    (0, 1093932), (0, 69)], [(856060, 0), (231, 0)], [(0, 201)]], 3, 4⟩, 17592186044416, 58259,
    12329917449813075733144081090954365821030187150526850923372902185690920579779771372446453880518493292963377881092971401195113912,
    lc0⟩)) (.leaf ⟨3736, 16, 14612, 1843, 16, 8548, ⟨[[(0, 29551699096305664), (0, 21935000168098179), (62513733192,
    0), (0, 129023700), (0, 21353)], [(36625021409630048, 0), (0, 14034600004291), (0, 441033940), (0, 218385), (0,
    37)], [(0, 21199234327160), (0, 689117343), (0, 272820), (0, 83)], [(5350863023, 0), (551741, 0), (179, 0)]], 3,
    4⟩, ⟨[[(12946820561436672, 0), (0, 18308039641637074), (0, 377739398555), (0, 217549587), (0, 50127)], [(0,
    57240639527442734), (0, 4039375769867), (0, 1186866352), (0, 320157), (0, 48)], [(7441475901802, 0), (0,
    558123368), (0, 438318), (0, 104)], [(0, 1007242062), (258488, 0), (170, 0)]], 3, 4⟩, 72057594037927936,
    1611374543, 1696765453, ⟨[[(16543141162254, 0), (7028488153, 0), (164538, 0), (0, 2310), (0, 5)], [(0,
    5890508262), (0, 2592091), (0, 251), (2, 0)], [(2232024, 0), (873, 0), (1, 0)], [(0, 844)]], 3, 4⟩,
    17592186044416, 127188,
    10132055354690921792356884913563782867448550295103140932872485148590261688988897987993722182808680891226603612510560063179104686,
    lc0⟩)) (.leaf ⟨3035, 16, 11957, 1337, 16, 6251, ⟨[[(0, 30897035407228928), (0, 17862612251225958), (28617496553,
    0), (0, 109832468), (0, 18001)], [(58632659670874103, 0), (0, 23071329321739), (0, 800946447), (0, 374943), (0,
    64)], [(0, 69942211467196), (0, 2439680986), (0, 971083), (0, 289)], [(35420053219, 0), (3765413, 0), (1226,
    0)]], 3, 4⟩, ⟨[[(33187107288203264, 0), (0, 13412776657985019), (0, 308371093646), (0, 169112917), (0, 38327)],
    [(0, 84341353038780288), (0, 6174394157288), (0, 1838496336), (0, 488195), (0, 72)], [(21692951076373, 0), (0,
    1855596310), (0, 1366133), (0, 324)], [(0, 5843882043), (1634801, 0), (1041, 0)]], 3, 4⟩, 72057594037927936,
    18038851020, 13804761238, ⟨[[(16600031328554, 0), (9699187679, 0), (503330, 0), (0, 5270), (0, 16)], [(0,
    7301209953), (0, 4396211), (0, 806), (3, 0)], [(3418783, 0), (1803, 0), (2, 0)], [(0, 1612), (0, 1)]], 3, 4⟩,
    17592186044416, 219392,
    8201367815361227492355398292392777431384140428844998360563658602096647928390659031485316105166720427310131545380189157213223091,
    lc0⟩))
theorem c140 : checkR job con2 true ⟨7, 9, 7, 9, 13, 17⟩ 1 28336 t140 475 7 1280 16117 39 16000 = true := by decide +kernel

def t141 : CTree :=
  .sy (.sx (.sy (.sx (.sy (.out ⟨4399, 16, 22708, 24937, 16, 38560, ⟨[[(10167996658810880, 0), (0,
    17221465120845115), (47367495645, 0)], [(59813366306155456, 0), (0, 10812965706581), (0, 131753095)], [(0,
    32427236345848), (0, 450552431), (0, 87448)]], 2, 2⟩, ⟨[[(0, 12546543735275520), (0, 28059271318728802),
    (438159111147, 0)]], 2, 2⟩, 72057594037927936, 4172033679439, 406111982775, ⟨[], 0, 0⟩, 0, 0, 0, lc0⟩ 0 1
    15292284651) (.sy (.out ⟨6376, 16, 33018, 49935, 16, 77285, ⟨[[(9748758686597120, 0), (0, 12516362857343498),
    (15748298898, 0)], [(86049708139600037, 0), (0, 7872653720216), (0, 50340994)], [(0, 47188776175514), (0,
    335100331), (0, 32686)]], 2, 2⟩, ⟨[[(0, 18597947262894080), (0, 28068000782687849), (218947702974, 0)]], 2, 2⟩,
    72057594037927936, 4325877067502, 101343676508, ⟨[], 0, 0⟩, 0, 0, 0, lc0⟩ 0 1 12521607117) (.out ⟨6388, 16,
    33151, 49965, 16, 77379, ⟨[[(15652051387088896, 0), (0, 12564391314072043), (14811437270, 0)],
    [(85779474081658459, 0), (0, 7912380118524), (0, 52210174)], [(0, 47405301571922), (0, 341617267), (0, 33429)]],
    2, 2⟩, ⟨[[(5422114166276096, 0), (0, 28067973059172510), (218814349545, 0)]], 2, 2⟩, 72057594037927936,
    4354508808947, 101220353331, ⟨[], 0, 0⟩, 0, 0, 0, lc0⟩ 0 1 10708036163))) (.sx (.leaf ⟨4221, 16, 16247, 2283, 16,
    10473, ⟨[[(0, 7971417369739264), (0, 24800601729464494), (123748868073, 0), (0, 134653216), (0, 22723)],
    [(21003762586689600, 0), (0, 7750660295005), (0, 197581445), (0, 111026), (0, 19)], [(0, 5757646135749), (0,
    159174739), (0, 62299), (0, 20)], [(724286378, 0), (71325, 0), (23, 0)]], 3, 4⟩, ⟨[[(11743714188296192, 0), (0,
    22416272563553861), (0, 378347546889), (0, 238970187), (0, 56618)], [(0, 34471983421185225), (0, 2274185000002),
    (0, 651070038), (0, 181247), (0, 28)], [(2279792207305, 0), (0, 126393829), (0, 116749), (0, 27)], [(0,
    153792246), (34757, 0), (24, 0)]], 3, 4⟩, 72057594037927936, 336255226, 786739123, ⟨[[(16336410675977, 0),
    (5614401696, 0), (3551, 0), (0, 1417), (0, 2)], [(0, 5109571699), (0, 1831548), (0, 21), (1, 0)], [(1702287, 0),
    (552, 0)], [(0, 555)]], 3, 4⟩, 17592186044416, 97810,
    16438674159883123096495232881413747906071012695676366509373439637401632271117325916336821897045577378555386391937928712792957318,
    lc0⟩) (.leaf ⟨4213, 16, 16202, 2275, 16, 10465, ⟨[[(18195047651016704, 0), (0, 24840150076394424), (120635523632,
    0), (0, 135834178), (0, 22929)], [(20785244267453810, 0), (0, 7733595583951), (0, 198760102), (0, 111268), (0,
    19)], [(0, 5711410729454), (0, 155735139), (0, 61150), (0, 20)], [(720017295, 0), (71669, 0), (23, 0)]], 3, 4⟩,
    ⟨[[(0, 19259714682355712), (0, 22430988395844536), (0, 387189356160), (0, 241328524), (0, 56963)], [(0,
    34381955950802121), (0, 2275963569796), (0, 653825037), (0, 181873), (0, 28)], [(2271631829463, 0), (0,
    124822225), (0, 115648), (0, 27)], [(0, 151990710), (35508, 0), (24, 0)]], 3, 4⟩, 72057594037927936, 340045782,
    785538385, ⟨[[(16282413580960, 0), (5611709162, 0), (29540, 0), (0, 1360), (0, 2)], [(0, 5099677237), (0,
    1833585), (0, 39), (1, 0)], [(1702132, 0), (548, 0)], [(0, 555)]], 3, 4⟩, 17592186044416, 86184,
    12503820720843711468610820387428177757960062635501615529360788775698715069933816948347546152790627006219380117766176475855465803,
    lc0⟩))) (.leaf ⟨3019, 16, 11699, 1364, 16, 6314, ⟨[[(0, 29689264831594496), (0, 17806877241821496), (66941434635,
    0), (0, 101587671), (0, 16986)], [(58984934448156361, 0), (0, 22411979476458), (0, 643260990), (0, 336643), (0,
    58)], [(0, 66658932276592), (0, 1968209901), (0, 778572), (0, 242)], [(33692887878, 0), (3444903, 0), (1128,
    0)]], 3, 4⟩, ⟨[[(0, 9881118857740288), (0, 13542645999446843), (0, 260153279988), (0, 154207154), (0, 35865)],
    [(0, 83644575855210222), (0, 5732400185561), (0, 1670651015), (0, 457339), (0, 69)], [(21919775094848, 0), (0,
    1407604216), (0, 1195115), (0, 282)], [(0, 5857634419), (1473795, 0), (976, 0)]], 3, 4⟩, 72057594037927936,
    18081532017, 12434492791, ⟨[[(16366318809111, 0), (9396267434, 0), (242039, 0), (0, 5767), (0, 16)], [(0,
    7178786928), (0, 4285120), (0, 403), (5, 0)], [(3353951, 0), (1771, 0), (2, 0)], [(0, 1543), (0, 1)]], 3, 4⟩,
    17592186044416, 205316,
    12843302018847045148667059290192345659403986487490543221393013179894628184971548115406453850573965269251847382526464789139026101,
    lc0⟩)) (.leaf ⟨1849, 16, 7117, 919, 16, 4282, ⟨[[(11892348695199744, 0), (0, 22053647362058880), (170500504475,
    0), (0, 504192345), (0, 169586)], [(35291998917758519, 0), (0, 27271721569180), (0, 1520271731), (0, 1626174),
    (0, 561)], [(0, 39653290699821), (0, 2147845695), (0, 1711429), (0, 1087)], [(20165249896, 0), (4213008, 0),
    (2818, 0), (2, 0)]], 3, 4⟩, ⟨[[(0, 3322053685280768), (0, 18448762244800935), (0, 719705650415), (0, 840889694),
    (0, 389476)], [(0, 56160872296398821), (0, 7650025304312), (0, 4475301363), (0, 2464078), (0, 752)],
    [(14736780765623, 0), (0, 1701325649), (0, 3043624), (0, 1430), (0, 1)], [(0, 3832697439), (2061576, 0), (2675,
    0), (1, 0)]], 3, 4⟩, 72057594037927936, 14497150701, 17525279573, ⟨[[(16138441446396, 0), (13719284801, 0),
    (822547, 0), (0, 16404), (0, 69)], [(0, 11517124071), (0, 10197509), (0, 1623), (25, 0)], [(8772441, 0), (6692,
    0), (11, 0)], [(0, 6517), (0, 5)]], 3, 4⟩, 17592186044416, 1070917,
    15322120012207021972306494231937765240802012137847154197483057932310511929014340828343645718952405591073908666359009534344388397,
    lc0⟩)) (.sx (.leaf ⟨1857, 16, 7265, 904, 16, 4252, ⟨[[(0, 30666912227278848), (0, 22101765002869284),
    (74168025836, 0), (0, 545470450), (0, 179932)], [(34995066616433595, 0), (0, 28039963302440), (0, 1903463992),
    (0, 1812095), (0, 618)], [(0, 41544613733122), (0, 2683450165), (0, 2153715), (0, 1302)], [(21183242354, 0),
    (4622101, 0), (3076, 0), (2, 0)]], 3, 4⟩, ⟨[[(0, 27781202723528704), (0, 18330724894366261), (0, 854720117350),
    (0, 924809975), (0, 417533)], [(0, 56795838679802203), (0, 8273100769330), (0, 4948220667), (0, 2643114), (0,
    787)], [(14639071957107, 0), (0, 2288520972), (0, 3497339), (0, 1653), (0, 1)], [(0, 3819279477), (2306707, 0),
    (2873, 0), (1, 0)]], 3, 4⟩, 72057594037927936, 14618216447, 18789291008, ⟨[[(16369098173430, 0), (14109614025,
    0), (1309723, 0), (0, 14958), (0, 69)], [(0, 11723431879), (0, 10425458), (0, 2800), (15, 0)], [(8951208, 0),
    (6789, 0), (11, 0)], [(0, 6796), (0, 6)]], 3, 4⟩, 17592186044416, 1147202,
    12555355548335878604147633743006688694076118855860774202597745048519842644042842084389940735817340766973336664626569940390304576,
    lc0⟩) (.leaf ⟨1851, 16, 7218, 891, 16, 4245, ⟨[[(14932895365742592, 0), (0, 22349310142667152), (46801222360, 0),
    (0, 567395846), (0, 187453)], [(33625274008835483, 0), (0, 27930481905212), (0, 1949230901), (0, 1835623), (0,
    626)], [(0, 40397031928635), (0, 2469935943), (0, 2007600), (0, 1224)], [(20802838308, 0), (4747723, 0), (3237,
    0), (2, 0)]], 3, 4⟩, ⟨[[(10795693185998848, 0), (0, 18416621412656368), (0, 923150446019), (0, 960549546), (0,
    427964)], [(0, 56295321859862016), (0, 8322064056878), (0, 5036129072), (0, 2684103), (0, 802)],
    [(14458836382326, 0), (0, 2184212446), (0, 3368652), (0, 1588), (0, 1)], [(0, 3623375880), (2482912, 0), (2984,
    0), (1, 0)]], 3, 4⟩, 72057594037927936, 14510679686, 18591398704, ⟨[[(16136689219163, 0), (14034513033, 0),
    (1761525, 0), (0, 12009), (0, 59)], [(0, 11571777883), (0, 10361254), (0, 3104), (8, 0)], [(8867883, 0), (6553,
    0), (9, 0)], [(0, 6707), (0, 6)]], 3, 4⟩, 17592186044416, 1104874,
    12322532482172491027961016910020398059460994246500019776463145402774578514848086678448725095139885388361777221337102502344680420,
    lc0⟩))
theorem c141 : checkR job con2 true ⟨7, 9, 7, 9, 13, 17⟩ 1 28336 t141 489 7 1280 8039 39 8000 = true := by decide +kernel

def t142 : CTree :=
  .sx (.sy (.leaf ⟨1511, 16, 6024, 655, 16, 3091, ⟨[[(33243603621347328, 0), (0, 17832444713003143), (0, 9937484318),
    (0, 466318868), (0, 150564)], [(57343523466717632, 0), (0, 46826613852670), (0, 3718679902), (0, 3236007), (0,
    1091)], [(0, 143074502109322), (0, 11138713011), (0, 8902579), (0, 5159), (0, 2)], [(145398198091, 0), (32126826,
    0), (20964, 0), (11, 0)]], 3, 4⟩, ⟨[[(0, 25693025669046272), (0, 13297444203049956), (0, 705961488463), (0,
    728275423), (0, 322672)], [(0, 84448383911675410), (0, 13042822640800), (0, 7891614286), (0, 4097042), (0,
    1188)], [(42677083020847, 0), (0, 8812732465), (0, 11933101), (0, 5668), (0, 2)], [(0, 22944756009), (14304039,
    0), (17561, 0), (9, 0)]], 3, 4⟩, 72057594037927936, 145208682817, 124919749539, ⟨[[(16744116139473, 0),
    (19906647231, 0), (2942083, 0), (0, 37698), (0, 259)], [(0, 14880049698), (0, 18081668), (0, 8512), (19, 0), (1,
    0)], [(14090945, 0), (14902, 0), (35, 0)], [(0, 13686), (0, 20)]], 3, 4⟩, 17592186044416, 3850298,
    14634027964678138270539739339567069662400717810418600697569075926989070348207221166515258591694785135831145393636347249322664539,
    lc0⟩) (.leaf ⟨1526, 16, 6161, 633, 16, 3056, ⟨[[(6444433667375104, 0), (0, 18248585332677950), (0, 127540473634),
    (0, 526972527), (0, 166959)], [(54887357272587977, 0), (0, 48547444670277), (0, 4619733677), (0, 3674511), (0,
    1224)], [(0, 147274899311871), (0, 12912186161), (0, 10406815), (0, 5859), (0, 2)], [(151403727198, 0),
    (36415822, 0), (24230, 0), (13, 0)]], 3, 4⟩, ⟨[[(0, 4620520840667136), (0, 13269520293177196), (0, 878489880645),
    (0, 824586303), (0, 351540)], [(0, 84547414154785024), (0, 14188489306224), (0, 8793992837), (0, 4430129), (0,
    1259)], [(41439717181926, 0), (0, 10659678634), (0, 13186282), (0, 6274), (0, 2)], [(0, 21472002403), (17014869,
    0), (19507, 0), (10, 0)]], 3, 4⟩, 72057594037927936, 139765152713, 133724114540, ⟨[[(16733015659329, 0),
    (20371754543, 0), (4570725, 0), (0, 24708), (0, 213)], [(0, 14818595180), (0, 18181308), (0, 9106), (0, 35)],
    [(14032256, 0), (14834, 0), (15, 0), (1, 0)], [(0, 13852), (0, 22)]], 3, 4⟩, 17592186044416, 4198772,
    8865088776833109428665376187878210825428209568529898174985342128837332872931971055293096959026902013712458796455677924661989313,
    lc0⟩)) (.leaf ⟨919, 16, 3660, 425, 16, 2080, ⟨[[(0, 16371403541708800), (0, 22476989336511157), (0,
    304262589998), (0, 2620173836), (0, 1683365)], [(31337503561316009, 0), (0, 57650182074123), (0, 10596834165),
    (0, 17281082), (0, 11586)], [(0, 83495892413279), (0, 12610997841), (0, 20713733), (0, 23898), (0, 16)],
    [(87281334335, 0), (44454449, 0), (61387, 0), (64, 0)]], 3, 4⟩, ⟨[[(0, 26084683245666304), (0,
    18235177144004332), (0, 2460014235195), (0, 4527512966), (0, 3838489)], [(0, 56388870954343607), (0,
    18762582692459), (0, 23481932376), (0, 23944944), (0, 13877)], [(27879727263313, 0), (0, 12185652404), (0,
    31754050), (0, 30101), (0, 22)], [(0, 13306203352), (24640467, 0), (54674, 0), (54, 0)]], 3, 4⟩,
    72057594037927936, 152511643470, 255384718206, ⟨[[(16256954366625, 0), (29261594577, 0), (10687453, 0), (0,
    59797), (0, 788)], [(0, 23730165880), (0, 43145454), (0, 28591), (0, 160), (3, 0)], [(37093766, 0), (55883, 0),
    (31, 0), (4, 0)], [(0, 58594), (0, 124)]], 3, 4⟩, 17592186044416, 22249157,
    12241095321535549500159762006327862312111089494970287150389407119712255415826787481200554361647539196791336011332035093580103177,
    lc0⟩)
theorem c142 : checkR job con2 true ⟨7, 9, 7, 9, 13, 17⟩ 1 28336 t142 241 7 640 8117 39 8000 = true := by decide +kernel

def t143 : CTree :=
  .sx (.sx (.sy (.sx (.sy (.out ⟨2156, 16, 12309, 12712, 16, 20051, ⟨[[(4983304689582080, 0), (0, 16719154280948467),
    (0, 34477542919)], [(61757575484660526, 0), (0, 24036369107173), (0, 1122967868)], [(0, 81362746678486), (0,
    4376185447), (0, 1696528)]], 2, 2⟩, ⟨[[(0, 32110397578674176), (0, 28042862719669396), (858551349223, 0)]], 2,
    2⟩, 72057594037927936, 20732306635797, 1561071853446, ⟨[], 0, 0⟩, 0, 0, 0, lc0⟩ 0 1 25076083343) (.sy (.out
    ⟨3104, 16, 17831, 25484, 16, 40270, ⟨[[(0, 25347703685611520), (0, 12113572802418229), (0, 19739616904)],
    [(87420306301491675, 0), (0, 17508210513028), (0, 435292070)], [(0, 118242683629520), (0, 3316970365), (0,
    644483)]], 2, 2⟩, ⟨[[(0, 2018401002192896), (0, 28059742188798700), (428766135244, 0)]], 2, 2⟩,
    72057594037927936, 21391112854417, 388875024753, ⟨[], 0, 0⟩, 0, 0, 0, lc0⟩ 0 1 21522030649) (.out ⟨3117, 16,
    17985, 25514, 16, 40366, ⟨[[(16264599263543296, 0), (0, 12221689772759616), (0, 24934839002)],
    [(86795178191248018, 0), (0, 17729457198693), (0, 458911307)], [(0, 119528858797662), (0, 3448648519), (0,
    670947)]], 2, 2⟩, ⟨[[(22592112838311936, 0), (0, 28059706756559445), (428255166383, 0)]], 2, 2⟩,
    72057594037927936, 21686739572550, 387948962700, ⟨[], 0, 0⟩, 0, 0, 0, lc0⟩ 0 1 19896478972))) (.sy (.sy (.out
    ⟨3132, 16, 17743, 25423, 16, 40078, ⟨[[(0, 33744833301315584), (0, 12291863078480635), (0, 15728596653)],
    [(86449742399637632, 0), (0, 17377928652131), (0, 412036399)], [(0, 114751297535143), (0, 2987264039), (0,
    583994)]], 2, 2⟩, ⟨[[(5145729176436736, 0), (0, 28059573252797929), (429788062751, 0)]], 2, 2⟩,
    72057594037927936, 20945797114014, 390734164234, ⟨[], 0, 0⟩, 0, 0, 0, lc0⟩ 0 1 15892173880) (.out ⟨3145, 16,
    17896, 25454, 16, 40174, ⟨[[(8179225603735552, 0), (0, 12400723124617625), (0, 20897629940)],
    [(85825474554460142, 0), (0, 17594112949671), (0, 434908166)], [(0, 115979449764933), (0, 3106401699), (0,
    608209)]], 2, 2⟩, ⟨[[(0, 31846826266853376), (0, 28059697878301092), (429277103623, 0)]], 2, 2⟩,
    72057594037927936, 21238589218735, 389803326388, ⟨[], 0, 0⟩, 0, 0, 0, lc0⟩ 0 1 14401359632)) (.leaf ⟨3065, 16,
    12734, 1273, 16, 6039, ⟨[[(22360100343087104, 0), (0, 17655856117082361), (0, 81623966618), (0, 128456445), (0,
    19637)], [(59600524014597687, 0), (0, 25188159632752), (0, 1323016669), (0, 494688), (0, 81)], [(0,
    82790467342679), (0, 4628211004), (0, 1815705), (0, 492)], [(41368965119, 0), (4461480, 0), (1370, 0)]], 3, 4⟩,
    ⟨[[(35119086974451712, 0), (0, 12924946288130809), (0, 445092944991), (0, 210811770), (0, 44825)], [(0,
    86979070186153673), (0, 7579631435264), (0, 2317692731), (0, 564428), (0, 76)], [(20709341901448, 0), (0,
    3642392568), (0, 2058055), (0, 492)], [(0, 6282882152), (1827606, 0), (1131, 0)]], 3, 4⟩, 72057594037927936,
    17028999767, 20004474604, ⟨[[(17636402091501, 0), (10771989967, 0), (1039208, 0), (0, 4390), (0, 19)], [(0,
    7902004928), (0, 4865331), (0, 1612), (0, 4)], [(3809990, 0), (2281, 0), (2, 0)], [(0, 2076), (0, 2)]], 3, 4⟩,
    17592186044416, 329811,
    12741131397800090858641510454466229669509239917355200145992223057042210917018894501568695162718558990672765590648028979310442851,
    lc0⟩))) (.leaf ⟨1525, 16, 6406, 622, 16, 2979, ⟨[[(0, 13268505786859520), (0, 17609184615667797), (0,
    237303763372), (0, 540073434), (0, 162251)], [(58161858865175067, 0), (0, 51205457083345), (0, 5937407748), (0,
    4237384), (0, 1376)], [(0, 169511148252238), (0, 20818676875), (0, 16306692), (0, 8685), (0, 3)], [(169373690580,
    0), (37408684, 0), (22972, 0), (12, 0)]], 3, 4⟩, ⟨[[(1849825328136192, 0), (0, 12807117071033031), (0,
    997066800253), (0, 901157756), (0, 374642)], [(0, 87000210379233920), (0, 15957686026174), (0, 9829039786), (0,
    4684284), (0, 1242)], [(40220819721308, 0), (0, 16525489292), (0, 17865925), (0, 8544), (0, 3)], [(0,
    24828451541), (15547519, 0), (18750, 0), (9, 0)]], 3, 4⟩, 72057594037927936, 134239292934, 180777231783,
    ⟨[[(17773988003894, 0), (22116169405, 0), (5062908, 0), (0, 27515), (0, 297)], [(0, 16110459445), (0, 20094177),
    (0, 12553), (0, 117)], [(15809320, 0), (19912, 0), (24, 0), (1, 0)], [(0, 17996), (0, 44)]], 3, 4⟩,
    17592186044416, 5373643,
    15426376730720981004114584535738694069253554300465152751302368192327784264591220593969577921962018624753535084225817032454783155,
    lc0⟩)) (.leaf ⟨931, 16, 3857, 421, 16, 2048, ⟨[[(0, 30367566902165504), (0, 22045588348522158), (0,
    613829534447), (0, 2760896467), (0, 1689209)], [(33430544731677385, 0), (0, 61760055668131), (0, 14135408283),
    (0, 20477123), (0, 13398)], [(0, 97377484347113), (0, 21668761512), (0, 34478147), (0, 37224), (0, 25)],
    [(99351385354, 0), (48259142, 0), (62601, 0), (64, 0)]], 3, 4⟩, ⟨[[(0, 5959314964176896), (0, 17804704623747420),
    (0, 2827877444228), (0, 4996578502), (0, 4127794)], [(0, 58616725910163941), (0, 21487548988015), (0,
    26823494032), (0, 25927560), (0, 14124)], [(27393216697143, 0), (0, 19929136012), (0, 44259515), (0, 42267), (0,
    30)], [(0, 15066787896), (24732874, 0), (55808, 0), (55, 0)]], 3, 4⟩, 72057594037927936, 148116179925,
    290217843427, ⟨[[(17230004421730, 0), (31415595674, 0), (11663372, 0), (0, 60699), (0, 1020)], [(0, 25372241394),
    (0, 46151535), (0, 31693), (0, 487), (2, 0)], [(40196787, 0), (69049, 0), (6, 0), (6, 0)], [(0, 70246), (0, 228),
    (1, 0)]], 3, 4⟩, 17592186044416, 32619993,
    9489705641354327158848455120667638145014439734503169083607706341686869506855735695941207138446134157571254815144517843400204931,
    lc0⟩)) (.leaf ⟨762, 16, 3126, 293, 16, 1484, ⟨[[(0, 26393963541815296), (0, 18925908346680530), (0,
    749901971924), (0, 2598950862), (0, 1605652)], [(47771009730000183, 0), (0, 101476093595706), (0, 25114933924),
    (0, 35578354), (0, 23312)], [(0, 295653677227452), (0, 59607691862), (0, 97447104), (0, 106069), (0, 71)],
    [(628015106998, 0), (362118076, 0), (502571, 0), (510, 0)]], 3, 4⟩, ⟨[[(0, 18564889618456576), (0,
    13234617761860411), (0, 2471026548241), (0, 4028224732), (0, 3215405)], [(0, 83307864575915447), (0,
    32301147487780), (0, 41453883873), (0, 40036337), (0, 22243)], [(76947767217423, 0), (0, 52596215270), (0,
    117223701), (0, 111675), (0, 81)], [(0, 68618067007), (183528747, 0), (377008, 0), (368, 0)]], 3, 4⟩,
    72057594037927936, 1085407983478, 1258138329485, ⟨[[(16487632866128, 0), (42202987010, 0), (25216390, 0), (0,
    40824), (0, 1844)], [(0, 29500698848), (0, 75329468), (0, 23123), (0, 1475), (0, 1)], [(56744262, 0), (140473,
    0), (0, 649), (17, 0)], [(0, 114203), (0, 590), (7, 0)]], 3, 4⟩, 17592186044416, 86819098,
    11220477947823723726871375919925310311895821519107723511453546705797383427435443798725468041985087366187394932151526295510039148,
    lc0⟩)
theorem c143 : checkR job con2 true ⟨7, 9, 7, 9, 13, 17⟩ 1 28336 t143 117 7 320 8195 39 8000 = true := by decide +kernel

def t144 : CTree :=
  .sx (.sy (.leaf ⟨1132, 16, 4800, 380, 16, 1890, ⟨[[(6762898346901504, 0), (0, 13504586038155538), (0,
    314337436531), (0, 468944543), (0, 138665)], [(77563681160461861, 0), (0, 78728516479193), (0, 10842426439), (0,
    7222251), (0, 2320)], [(0, 502418757036623), (0, 67832017802), (0, 53581903), (0, 28018), (0, 9)],
    [(1026467886576, 0), (263743421, 0), (170857, 0), (86, 0)]], 3, 4⟩, ⟨[[(25941115967918080, 0), (0,
    8313611274108851), (0, 824649906236), (0, 672192608), (0, 265829)], [(0, 111365813243177472), (0,
    22647890772061), (0, 14272405471), (0, 6618644), (0, 1735)], [(97315730968350, 0), (0, 48365452273), (0,
    49544090), (0, 23675), (0, 8)], [(0, 108938561559), (106433879, 0), (114750, 0), (56, 0)]], 3, 4⟩,
    72057594037927936, 1347204456578, 1857482985462, ⟨[[(17493455960886, 0), (34892031564, 0), (15449310, 0), (0,
    18404), (0, 980)], [(0, 21487691686), (0, 42765806), (0, 7488), (0, 844), (0, 1)], [(28693934, 0), (63609, 0),
    (0, 216), (6, 0)], [(0, 44242), (0, 225), (1, 0)]], 3, 4⟩, 17592186044416, 27859862,
    7998882176125647218079141766342295681508105550231963318856845068835651647777331221611846684481467516096793517729905528894534571,
    lc0⟩) (.leaf ⟨1159, 16, 4979, 365, 16, 1858, ⟨[[(8452182203252736, 0), (0, 14068216221456453), (0, 445263118729),
    (0, 532953590), (0, 154460)], [(74014263139274194, 0), (0, 83560335960585), (0, 13090290153), (0, 8276654), (0,
    2629)], [(0, 526995299796662), (0, 79581353601), (0, 62745719), (0, 32234), (0, 11)], [(1087207585914, 0),
    (302917915, 0), (199296, 0), (99, 0)]], 3, 4⟩, ⟨[[(19075225284608, 0), (0, 8311887052763517), (0, 975136777934),
    (0, 745947333), (0, 284601)], [(0, 111305395127836489), (0, 24575278067197), (0, 15616842957), (0, 7055289), (0,
    1813)], [(91651742776406, 0), (0, 55585615615), (0, 54466420), (0, 26016), (0, 9)], [(0, 98219707367),
    (123269295, 0), (126372, 0), (61, 0)]], 3, 4⟩, 72057594037927936, 1167439499315, 1998503033970,
    ⟨[[(17506483879387, 0), (35872027629, 0), (15787789, 0), (22338, 0), (0, 572)], [(0, 21178568501), (0, 44149542),
    (26084, 0), (0, 966), (0, 4)], [(27976116, 0), (77095, 0), (0, 450), (6, 0)], [(0, 43150), (0, 301), (2, 0)]], 3,
    4⟩, 17592186044416, 26620870,
    14041526153805479876960468959073929671801694781845511018350089408753829240261315766180228038955871668457286524416503451015938763,
    lc0⟩)) (.sy (.leaf ⟨1202, 16, 5035, 361, 16, 1900, ⟨[[(0, 4751248857579520), (0, 15335049002203783), (0,
    499432964828), (0, 603456241), (0, 181351)], [(67232076664163127, 0), (0, 84399176476810), (0, 12829132933), (0,
    8339588), (0, 2688)], [(0, 482394080895505), (0, 58110975642), (0, 47350673), (0, 24955), (0, 8)],
    [(1048596244556, 0), (343431450, 0), (241413, 0), (120, 0)]], 3, 4⟩, ⟨[[(0, 8419153593679872), (0,
    8685552617076912), (0, 1039309082218), (0, 773401634), (0, 293264)], [(0, 109272570211075383), (0,
    24057643705455), (0, 15668898354), (0, 7284359), (0, 1970)], [(94035128429540, 0), (0, 43227144586), (0,
    44355487), (0, 21161), (0, 8)], [(0, 72357199199), (148275511, 0), (143057, 0), (69, 0)]], 3, 4⟩,
    72057594037927936, 1279384388056, 1555287878166, ⟨[[(16489964847657, 0), (33482106993, 0), (15152966, 0), (17724,
    0), (0, 207)], [(0, 18928136951), (0, 39298597), (25027, 0), (0, 493), (0, 3)], [(23345484, 0), (61652, 0), (0,
    385), (3, 0)], [(0, 30168), (0, 213), (2, 0)]], 3, 4⟩, 17592186044416, 15233358,
    14601871499328853598377658577120688447618369732191579484668154370293022361132116473570790096403656301440048370647187307025183708,
    lc0⟩) (.sx (.sy (.leaf ⟨2469, 16, 10480, 712, 16, 3767, ⟨[[(22244697157500928, 0), (0, 15714449096281731), (0,
    291170829358), (0, 160265352), (0, 23662)], [(68364797079142546, 0), (0, 44504672649512), (0, 3636351541), (0,
    1144346), (0, 183)], [(0, 258732790597503), (0, 17623465666), (0, 7100932), (0, 1840)], [(279779749597, 0),
    (46179386, 0), (16072, 0), (4, 0)]], 3, 4⟩, ⟨[[(7970424134270976, 0), (0, 8649277890647015), (0, 556291574457),
    (0, 202568664), (0, 37811)], [(0, 110409711249874286), (0, 12699171506427), (0, 4125161361), (0, 940920), (0,
    125)], [(45631093027714, 0), (0, 12472613664), (0, 6174525), (0, 1474)], [(0, 17945161325), (19274205, 0), (9221,
    0), (2, 0)]], 3, 4⟩, 72057594037927936, 139377719809, 208205517527, ⟨[[(16730768546943, 0), (17181357826, 0),
    (3689537, 0), (3486, 0), (0, 6)], [(0, 9421922609), (0, 10073854), (5122, 0), (0, 34)], [(5705981, 0), (8730, 0),
    (0, 29)], [(0, 3697), (0, 16)]], 3, 4⟩, 17592186044416, 923831,
    11676565755301531793927597390653652036761264714168918285915736875593906231733979874720483400635073460895283564119481337291146785,
    lc0⟩) (.sy (.sx (.leaf ⟨5009, 16, 21398, 1415, 16, 7500, ⟨[[(9397292987842560, 0), (0, 15918960263442773), (0,
    156419819960), (0, 41281338), (0, 3020)], [(68989672321233298, 0), (0, 22873683970911), (0, 966880703), (0,
    149854), (0, 12)], [(0, 134124781558857), (0, 4842089266), (0, 970302), (0, 125)], [(72287204889, 0), (5978141,
    0), (1035, 0)]], 3, 4⟩, ⟨[[(0, 34196812110364672), (0, 8631337689456208), (0, 287537048446), (0, 51809511), (0,
    4798)], [(0, 110978608831831515), (0, 6519625829644), (0, 1057071122), (0, 119410), (0, 8)], [(22429654204307,
    0), (0, 3340042180), (0, 813617), (0, 97)], [(0, 4482326325), (2449966, 0), (584, 0)]], 3, 4⟩, 72057594037927936,
    15845675185, 26937436250, ⟨[[(16858327181047, 0), (8705846952, 0), (904517, 0), (515, 0)], [(0, 4697457097), (0,
    2552760), (771, 0), (0, 2)], [(1408896, 0), (1158, 0), (0, 2)], [(0, 457), (0, 1)]], 3, 4⟩, 17592186044416,
    71084,
    11803213513790108550692283042573105058429212958985115082382594255799467397697478801944424446720307643845781773420771299176557955,
    lc0⟩) (.out ⟨3581, 16, 21237, 25848, 16, 41430, ⟨[[(0, 27424413483728896), (0, 16117932470595387), (0,
    168863269067)], [(64785468303838793, 0), (0, 22832588219503), (0, 985951929)], [(0, 130109761338628), (0,
    4549802358), (0, 918367)]], 2, 2⟩, ⟨[[(25612333857374208, 0), (0, 28059631856855608), (422718508216, 0)]], 2, 2⟩,
    72057594037927936, 27245937014272, 377980764650, ⟨[], 0, 0⟩, 0, 0, 0, lc0⟩ 3 1 1660)) (.out ⟨2481, 16, 14813,
    25879, 16, 41528, ⟨[[(285914925465600, 0), (0, 11149246657107344), (0, 119938279166)], [(90446857944709723, 0),
    (0, 31977340192347), (0, 1406985403)], [(0, 368233533566589), (0, 13471476682), (0, 2705703)]], 2, 2⟩,
    ⟨[[(6363638522183680, 0), (0, 28060021363378718), (422228228228, 0)]], 2, 2⟩, 72057594037927936, 140571647495740,
    377099182119, ⟨[], 0, 0⟩, 0, 0, 0, lc0⟩ 3 1 2009))) (.sy (.sy (.sy (.leaf ⟨4537, 16, 19107, 912, 16, 4948,
    ⟨[[(3644054615425024, 0), (0, 7439149603839286), (0, 37382223990), (0, 4944899), (0, 185)], [(114124814867509413,
    0), (0, 20396596549873), (0, 424069065), (0, 33367), (0, 1)], [(0, 449588419300152), (0, 6935925257), (0,
    710720), (0, 46)], [(501945750443, 0), (22670827, 0), (2025, 0)]], 3, 4⟩, ⟨[[(3579476749402112, 0), (0,
    2887761546185813), (0, 48967263164), (0, 4339223), (0, 200)], [(0, 142862859033296640), (0, 4199288794630), (0,
    345376957), (0, 19816), (0, 1)], [(59511832722971, 0), (0, 3702972911), (0, 463847), (0, 28)], [(0, 18529005434),
    (6942887, 0), (807, 0)]], 3, 4⟩, 72057594037927936, 245532224111, 239293754500, ⟨[[(16250032516669, 0),
    (12833775387, 0), (2097843, 0), (1327, 0), (1, 0)], [(0, 4952710793), (0, 4142405), (1738, 0), (0, 5)],
    [(1609339, 0), (2026, 0), (0, 5)], [(0, 527), (0, 2)]], 3, 4⟩, 17592186044416, 148950,
    13196357783443346248491806750501769659679506431301575335130021368956839179347815163073414327586804470814346679073514785858317157,
    lc0⟩) (.out ⟨3234, 16, 18920, 51606, 16, 82545, ⟨[[(4144980303183872, 0), (0, 7372206999563579), (0,
    38168837583)], [(111429941966846263, 0), (0, 20263088172238), (0, 427698644)], [(0, 445728313349740), (0,
    6978673960), (0, 714599)]], 2, 2⟩, ⟨[[(21822575863136256, 0), (0, 28068279582572905), (211860056479, 0)]], 2, 2⟩,
    72057594037927936, 172038713174604, 94886815842, ⟨[], 0, 0⟩, 0, 0, 0, lc0⟩ 3 1 1310)) (.sy (.out ⟨3258, 16,
    19108, 51637, 16, 82642, ⟨[[(9383412111212544, 0), (0, 7451566661433310), (0, 39725630168)],
    [(110938304047506578, 0), (0, 20532437109607), (0, 439904464)], [(0, 450711484828979), (0, 7161466043), (0,
    732785)]], 2, 2⟩, ⟨[[(0, 32752470637674496), (0, 28068203275920486), (211734822506, 0)]], 2, 2⟩,
    72057594037927936, 174369054543572, 94774584818, ⟨[], 0, 0⟩, 0, 0, 0, lc0⟩ 3 1 1627) (.out ⟨3283, 16, 19301,
    51667, 16, 82739, ⟨[[(0, 8075240218263552), (0, 7533184540631521), (0, 41330164244)], [(110438408150438089, 0),
    (0, 20809776232904), (0, 452484864)], [(0, 455832650477948), (0, 7350152210), (0, 751529)]], 2, 2⟩, ⟨[[(0,
    17832907528732672), (0, 28068107736296428), (211609590823, 0)]], 2, 2⟩, 72057594037927936, 176766169972046,
    94663094204, ⟨[], 0, 0⟩, 0, 0, 0, lc0⟩ 3 1 1980))) (.sy (.out ⟨2598, 16, 15331, 25848, 16, 41430, ⟨[[(0,
    6303839225053184), (0, 11983088697566306), (0, 137134268154)], [(85783552843591589, 0), (0, 33229378397934), (0,
    1477044321)], [(0, 362764284499989), (0, 11959191184), (0, 2442729)]], 2, 2⟩, ⟨[[(25612333857374208, 0), (0,
    28059631856855608), (422718508216, 0)]], 2, 2⟩, 72057594037927936, 143352815351773, 377980764650, ⟨[], 0, 0⟩, 0,
    0, 0, lc0⟩ 3 1 2500) (.out ⟨2626, 16, 15577, 25879, 16, 41528, ⟨[[(29326271106351104, 0), (0, 12197729525297682),
    (0, 147377466429)], [(84517307629980416, 0), (0, 34000926702557), (0, 1555280236)], [(0, 369548209435526), (0,
    12544179941), (0, 2558050)]], 2, 2⟩, ⟨[[(6363638522183680, 0), (0, 28060021363378718), (422228228228, 0)]], 2,
    2⟩, 72057594037927936, 146774694934716, 377099182119, ⟨[], 0, 0⟩, 0, 0, 0, lc0⟩ 3 1 3103)))))
theorem c144 : checkR job con2 true ⟨7, 9, 7, 9, 13, 17⟩ 1 28336 t144 117 7 320 8273 39 8000 = true := by decide +kernel

def t145 : CTree :=
  .sy (.sx (.sx (.sy (.sx (.leaf ⟨1844, 16, 7071, 907, 16, 4277, ⟨[[(0, 5816530771902464), (0, 22290848909394517),
    (147926770947, 0), (0, 523760303), (0, 176367)], [(33972509165970409, 0), (0, 27152719140485), (0, 1556379169),
    (0, 1645000), (0, 568)], [(0, 38560684249925), (0, 1955575985), (0, 1579528), (0, 1015)], [(19790159457, 0),
    (4308201, 0), (2953, 0), (2, 0)]], 3, 4⟩, ⟨[[(1588716426829824, 0), (0, 18534522626600103), (0, 782034777807),
    (0, 874640846), (0, 399632)], [(0, 55685363655759735), (0, 7687432508897), (0, 4553606997), (0, 2500393), (0,
    765)], [(14562390206338, 0), (0, 1609578892), (0, 2925775), (0, 1371)], [(0, 3657859723), (2213506, 0), (2769,
    0), (1, 0)]], 3, 4⟩, 72057594037927936, 14386059920, 17366679574, ⟨[[(15909104126425, 0), (13640952573, 0),
    (1300894, 0), (0, 13505), (0, 59)], [(0, 11358407221), (0, 10141625), (0, 2195), (18, 0)], [(8678393, 0), (6455,
    0), (9, 0)], [(0, 6427), (0, 5)]], 3, 4⟩, 17592186044416, 985837,
    15501053250972877607740688034671206336869408362261938061711802613852041112526830943151159268148542602132110257663727791064039002,
    lc0⟩) (.leaf ⟨1839, 16, 7026, 895, 16, 4271, ⟨[[(0, 25973604572921856), (0, 22527077341693315), (125035257946,
    0), (0, 543503854), (0, 183204)], [(32694994940409102, 0), (0, 27031785945207), (0, 1588665091), (0, 1661837),
    (0, 573)], [(0, 37494421003850), (0, 1760854150), (0, 1443120), (0, 941)], [(19425114813, 0), (4398340, 0),
    (3082, 0), (2, 0)]], 3, 4⟩, ⟨[[(0, 1068662897967104), (0, 18616303368716560), (0, 845163759809), (0, 908634666),
    (0, 409863)], [(0, 55202185888650377), (0, 7720324650122), (0, 4627381696), (0, 2534382), (0, 778)],
    [(14391995719619, 0), (0, 1511415546), (0, 2803609), (0, 1309)], [(0, 3489651866), (2354943, 0), (2855, 0), (1,
    0)]], 3, 4⟩, 72057594037927936, 14287251253, 17222290189, ⟨[[(15686868298937, 0), (13559533687, 0), (1683714, 0),
    (0, 11080), (0, 51)], [(0, 11205190085), (0, 10082800), (0, 2590), (12, 0)], [(8590867, 0), (6273, 0), (7, 0)],
    [(0, 6351), (0, 4)]], 3, 4⟩, 17592186044416, 959872,
    14374659156894228217822373576386151262859230330097624668341225320985171333006613142711086501782125856479978439430736974219771357,
    lc0⟩)) (.leaf ⟨1522, 16, 5905, 645, 16, 3131, ⟨[[(20013695774507008, 0), (0, 18764528266171277), (4100791622, 0),
    (0, 496147134), (0, 164255)], [(52285940007206802, 0), (0, 45858792503210), (0, 3320069722), (0, 3083713), (0,
    1051)], [(0, 127942488824480), (0, 7080443999), (0, 5875005), (0, 3638), (0, 1)], [(133811639413, 0), (32541258,
    0), (22899, 0), (12, 0)]], 3, 4⟩, ⟨[[(18204536935555072, 0), (0, 13713207942785134), (0, 759971306711), (0,
    750556461), (0, 328266)], [(0, 82154967133475328), (0, 12406583224374), (0, 7631811297), (0, 4054881), (0,
    1218)], [(42009675329771, 0), (0, 5959004941), (0, 9368908), (0, 4401), (0, 2)], [(0, 19789642145), (16123387,
    0), (18541, 0), (9, 0)]], 3, 4⟩, 72057594037927936, 139307727718, 100312466592, ⟨[[(15798834067853, 0),
    (18806884583, 0), (4110242, 0), (0, 21223), (0, 155)], [(0, 13737060615), (0, 16798654), (0, 7225), (5, 0)],
    [(12816489, 0), (12532, 0), (13, 0)], [(0, 11681), (0, 12)]], 3, 4⟩, 17592186044416, 2830615,
    13651635919303196810980129563536974797679588752905246396798421147355766814933590308365100477750719117915675303684993769146228049,
    lc0⟩)) (.sy (.sx (.leaf ⟨1833, 16, 6979, 883, 16, 4266, ⟨[[(0, 32477064354512896), (0, 22752627997637944),
    (101833850456, 0), (0, 563156925), (0, 190006)], [(31444762402416347, 0), (0, 26897341384977), (0, 1616347158),
    (0, 1675926), (0, 578)], [(0, 36438128951255), (0, 1563204683), (0, 1301931), (0, 865)], [(19061391538, 0),
    (4481291, 0), (3202, 0), (2, 0)]], 3, 4⟩, ⟨[[(19006576832045056, 0), (0, 18702756876326804), (0, 909422820744),
    (0, 943263087), (0, 420350)], [(0, 54737075941619913), (0, 7752146660974), (0, 4698679991), (0, 2567178), (0,
    790)], [(14232053368117, 0), (0, 1407986245), (0, 2678770), (0, 1247)], [(0, 3329558959), (2487225, 0), (2935,
    0), (1, 0)]], 3, 4⟩, 72057594037927936, 14214503041, 17086333322, ⟨[[(15468354856259, 0), (13471306131, 0),
    (1999386, 0), (0, 8971), (0, 44)], [(0, 11061564485), (0, 10023685), (0, 2859), (8, 0)], [(8517794, 0), (6137,
    0), (6, 0)], [(0, 6296), (0, 4)]], 3, 4⟩, 17592186044416, 857650,
    14045983636131801081092934477279564373794668928959772441447901352152794095100494943934508598557283629523060446631932767422484985,
    lc0⟩) (.leaf ⟨1826, 16, 6932, 871, 16, 4260, ⟨[[(12862896953032704, 0), (0, 22973719528504930), (78426944761, 0),
    (0, 582833018), (0, 196811)], [(30230688967598848, 0), (0, 26757038045124), (0, 1639773927), (0, 1687690), (0,
    581)], [(0, 35402366707954), (0, 1363468026), (0, 1156757), (0, 787)], [(18704180360, 0), (4558048, 0), (3314,
    0), (2, 0)]], 3, 4⟩, ⟨[[(31717005538721792, 0), (0, 18785098097050657), (0, 974348949120), (0, 978066282), (0,
    430888)], [(0, 54264078362373211), (0, 7779126147505), (0, 4765232752), (0, 2597550), (0, 801)],
    [(14075545485374, 0), (0, 1299017078), (0, 2550271), (0, 1182)], [(0, 3175797120), (2609485, 0), (3007, 0), (2,
    0)]], 3, 4⟩, 72057594037927936, 14148028632, 16959796910, ⟨[[(15264773533366, 0), (13390731978, 0), (2250347, 0),
    (0, 7226), (0, 37)], [(0, 10937156803), (0, 9976528), (0, 3019), (4, 0)], [(8465920, 0), (6054, 0), (4, 0)], [(0,
    6267), (0, 4)]], 3, 4⟩, 17592186044416, 798493,
    13915561907819498063682037823049025580455661643975082225475355310985082780787523495870838957954611794558554557171764942551808058,
    lc0⟩)) (.leaf ⟨1532, 16, 5903, 630, 16, 3134, ⟨[[(0, 30662422382018560), (0, 19401275184302395), (0,
    43452625272), (0, 539815440), (0, 179138)], [(48765110381951022, 0), (0, 46021950885789), (0, 3469501950), (0,
    3177201), (0, 1082)], [(0, 122344977538260), (0, 5672717017), (0, 4866058), (0, 3108), (0, 1)], [(130732594794,
    0), (34365560, 0), (25031, 0), (13, 0)]], 3, 4⟩, ⟨[[(535678309482496, 0), (0, 13901329534172961), (0,
    869433570289), (0, 808935940), (0, 345961)], [(0, 81067540591677495), (0, 12575638443674), (0, 7890569776), (0,
    4176556), (0, 1263)], [(41259832011941, 0), (0, 5249312237), (0, 8574920), (0, 4005), (0, 1)], [(0, 17844602377),
    (17887482, 0), (19648, 0), (10, 0)]], 3, 4⟩, 72057594037927936, 135567948192, 92615419730, ⟨[[(15366082995817,
    0), (18474590445, 0), (4817266, 0), (0, 13034), (0, 109)], [(0, 13219370539), (0, 16310517), (0, 6873), (0, 11)],
    [(12276996, 0), (11911, 0), (3, 0)], [(0, 11002), (0, 12)]], 3, 4⟩, 17592186044416, 2317444,
    12196233454116251100074883195913920627487664194124756273229211219837311745696797896944420552266249661350020327714648161122453358,
    lc0⟩))) (.sx (.leaf ⟨900, 16, 3424, 418, 16, 2104, ⟨[[(0, 1535335341121536), (0, 23250456569089273), (0,
    60855719512), (0, 2576249208), (0, 1727532)], [(27384295575808206, 0), (0, 53241978269333), (0, 7470047548), (0,
    14327097), (0, 9805)], [(0, 67725127038397), (0, 4536685228), (0, 8082055), (0, 11191), (0, 7)], [(73323113633,
    0), (39444496, 0), (58923, 0), (62, 0)]], 3, 4⟩, ⟨[[(0, 31982988166991872), (0, 18805334684998367), (0,
    2371786161338), (0, 4365175714), (0, 3721288)], [(0, 53330919493955968), (0, 16243570381838), (0, 20488316328),
    (0, 21932361), (0, 13453)], [(27331293833490, 0), (0, 5207770578), (0, 19663051), (0, 18177), (0, 13)], [(0,
    11265230258), (23955014, 0), (52107, 0), (52, 0)]], 3, 4⟩, 72057594037927936, 152663065938, 229802664118,
    ⟨[[(14977950324882, 0), (26943257301, 0), (10966932, 0), (0, 34155), (0, 436)], [(0, 21780772980), (0, 40466508),
    (0, 25151), (0, 57), (2, 0)], [(34393620, 0), (49737, 0), (6, 0), (2, 0)], [(0, 51769), (0, 79), (1, 0)]], 3, 4⟩,
    17592186044416, 15239884,
    14471216034747128808438474578663642065150198417304320313143371818395086102920669849814503889029119340574922644934809307601689912,
    lc0⟩) (.leaf ⟨892, 16, 3375, 406, 16, 2096, ⟨[[(11875820672712704, 0), (0, 23653214457531172), (0, 164468182057),
    (0, 2739082105), (0, 1839403)], [(25165404031099566, 0), (0, 52582077295743), (0, 7551278447), (0, 14394311), (0,
    9840)], [(0, 63756024577403), (0, 2805238593), (0, 5444680), (0, 8389), (0, 5)], [(70584261060, 0), (40446449,
    0), (61935, 0), (65, 0)]], 3, 4⟩, ⟨[[(0, 20182698464235520), (0, 18961326993600939), (0, 2652209231322), (0,
    4657869678), (0, 3897286)], [(0, 52372161057208558), (0, 16312702890191), (0, 20927969324), (0, 22325236), (0,
    13755)], [(26778524720284, 0), (0, 4150169565), (0, 17366573), (0, 15899), (0, 12)], [(0, 10168365096),
    (25508983, 0), (53820, 0), (53, 0)]], 3, 4⟩, 72057594037927936, 154978679434, 231110372687, ⟨[[(14592693068052,
    0), (26609215702, 0), (11760367, 0), (0, 19593), (0, 301)], [(0, 21334181112), (0, 40202513), (0, 23325), (0,
    98), (1, 0)], [(34097752, 0), (50444, 0), (0, 34), (1, 0)], [(0, 51483), (0, 90), (1, 0)]], 3, 4⟩,
    17592186044416, 13537661,
    10161969519195678637627411296663207713605623343550121545490939315989979426793288124627576622394183652313116825252414077658210006,
    lc0⟩))) (.sx (.leaf ⟨759, 16, 2997, 300, 16, 1527, ⟨[[(29432750139260928, 0), (0, 19400892594044708), (0,
    438363246470), (0, 2450827319), (0, 1583088)], [(45765614032540005, 0), (0, 95181630002783), (0, 18638840336),
    (0, 29799829), (0, 19974)], [(0, 255747668389080), (0, 31641625269), (0, 54129520), (0, 64102), (0, 43)],
    [(554431821892, 0), (321882803, 0), (467612, 0), (482, 0)]], 3, 4⟩, ⟨[[(0, 14336537303891968), (0,
    13680103811477990), (0, 2177896845192), (0, 3702326759), (0, 3038732)], [(0, 81099060551711662), (0,
    28249074352371), (0, 36325857199), (0, 36905106), (0, 21650)], [(79629066110005, 0), (0, 30797704539), (0,
    82581759), (0, 77870), (0, 57)], [(0, 64442278526), (170978666, 0), (354790, 0), (349, 0)]], 3, 4⟩,
    72057594037927936, 1116720203054, 949356206834, ⟨[[(15601561194929, 0), (38881883659, 0), (23040002, 0), (0,
    56859), (0, 1466)], [(0, 27440367942), (0, 69022683), (0, 43999), (0, 680), (3, 0)], [(52012064, 0), (110135, 0),
    (0, 277), (10, 0)], [(0, 96767), (0, 325), (4, 0)]], 3, 4⟩, 17592186044416, 57355876,
    12403889486289981779135010022512799538992333943629590939699347645708532207149538804755814167076119356079266736691995178420333509,
    lc0⟩) (.leaf ⟨765, 16, 2987, 284, 16, 1525, ⟨[[(4623156049453056, 0), (0, 20669529956514104), (0, 706214086134),
    (0, 2869607025), (0, 1863873)], [(38796409273017083, 0), (0, 95551166986719), (0, 19797680091), (0, 31191933),
    (0, 20889)], [(0, 232153466363042), (0, 17297320758), (0, 32737705), (0, 42132), (0, 27)], [(530438149621, 0),
    (356089332, 0), (541728, 0), (554, 0)]], 3, 4⟩, ⟨[[(0, 8187935297576960), (0, 14062694713331753), (0,
    2698107193727), (0, 4227734823), (0, 3347948)], [(0, 78800812855894875), (0, 28967128401336), (0, 38372005665),
    (0, 38822688), (0, 23072)], [(77156598419994, 0), (0, 22984758216), (0, 66843280), (0, 62439), (0, 46)], [(0,
    48928342898), (197950449, 0), (387921, 0), (379, 0)]], 3, 4⟩, 72057594037927936, 1079528937493, 809107362724,
    ⟨[[(14777571754292, 0), (37612675640, 0), (24029948, 0), (0, 4169), (0, 498)], [(0, 25615363724), (0, 66429114),
    (0, 21404), (0, 544), (0, 3)], [(48261505, 0), (114596, 0), (0, 498), (5, 0)], [(0, 85638), (0, 398), (5, 0)]],
    3, 4⟩, 17592186044416, 40150136,
    13611689209289414700137280322691246675146375222301766786894850044665298433524902000759405412381961512909365907846268776945044135,
    lc0⟩))
theorem c145 : checkR job con2 true ⟨7, 9, 7, 9, 13, 17⟩ 1 28336 t145 131 7 320 4039 39 4000 = true := by decide +kernel

def t146 : CTree :=
  .sy (.sx (.leaf ⟨759, 16, 2848, 293, 16, 1570, ⟨[[(0, 20025188960993280), (0, 20892333693908802), (0,
    274133966367), (0, 2569064737), (0, 1728158)], [(38108236679086263, 0), (0, 88849945629208), (0, 12988064568),
    (0, 24739441), (0, 16877)], [(0, 200457726080328), (0, 649670770), (0, 4658155), (0, 13996), (0, 8)],
    [(459735216148, 0), (286372119, 0), (451923, 0), (471, 0)]], 3, 4⟩, ⟨[[(0, 29405246043815936), (0,
    14460690823096158), (0, 2321181534589), (0, 3845010391), (0, 3139272)], [(0, 76792589760162551), (0,
    24647097230753), (0, 32336492834), (0, 34338317), (0, 21278)], [(78449093027001, 0), (0, 7424809511), (0,
    41659036), (0, 37357), (0, 28)], [(0, 52570509089), (164646139, 0), (335339, 0), (332, 0)]], 3, 4⟩,
    72057594037927936, 1060700603733, 629822985900, ⟨[[(14047926135899, 0), (34655849893, 0), (21679901, 0), (0,
    16952), (0, 497)], [(0, 24002074245), (0, 61419876), (0, 41016), (0, 300)], [(45283470, 0), (93507, 0), (0, 169),
    (3, 0)], [(0, 79547), (0, 227), (3, 0)]], 3, 4⟩, 17592186044416, 30252991,
    9649427989345462519574136756988290491366436701993374016854917660918416209999933646385678109915334629561156164945186185340329486,
    lc0⟩) (.leaf ⟨759, 16, 2822, 278, 16, 1572, ⟨[[(0, 28186001723318272), (0, 21933484268130911), (0, 451454040094),
    (0, 2890214006), (0, 1947105)], [(32462336664074080, 0), (0, 87887246576896), (0, 12728079128), (0, 24620402),
    (0, 16742)], [(0, 179953395194344), (11557534345, 0), (14958473, 0), (6477, 0), (7, 0)], [(433761197359, 0),
    (296241495, 0), (482332, 0), (500, 0)]], 3, 4⟩, ⟨[[(17108727770169344, 0), (0, 14825607344612729), (0,
    2784671978893), (0, 4337669833), (0, 3446491)], [(0, 74720078414459383), (0, 24787369461552), (0, 33345902192),
    (0, 35232062), (0, 21966)], [(76539642912617, 0), (0, 268521541), (0, 27378738), (0, 23252), (0, 19)], [(0,
    43398032609), (175434264, 0), (345421, 0), (340, 0)]], 3, 4⟩, 72057594037927936, 1037347633564, 540256957091,
    ⟨[[(13361786732793, 0), (33523658986, 0), (21700681, 0), (0, 913), (0, 126)], [(0, 22672986860), (0, 59472317),
    (0, 31815), (0, 211), (0, 2)], [(43033015, 0), (95816, 0), (0, 205), (1, 0)], [(0, 74224), (0, 280), (3, 0)]], 3,
    4⟩, 17592186044416, 23002816,
    11236477769042244918274072205835323262843523732982157918820788521105126731322463489640622898477658320725194091557261567928993417,
    lc0⟩)) (.sy (.sx (.leaf ⟨1252, 16, 4809, 371, 16, 2073, ⟨[[(33716273903501312, 0), (0, 17689466336070475), (0,
    321719947715), (0, 633537042), (0, 208186)], [(55487400476085065, 0), (0, 76523178392015), (0, 7469162651), (0,
    6118225), (0, 2056)], [(0, 338579553163797), (0, 1135478634), (0, 3075210), (0, 3377), (0, 1)], [(807352778272,
    0), (290731136, 0), (228666, 0), (117, 0)]], 3, 4⟩, ⟨[[(0, 23662756785709056), (0, 9753895409819732), (0,
    1011294522074), (0, 764955384), (0, 298584)], [(0, 103454898210083255), (0, 19013880712381), (0, 12813560879),
    (0, 6540341), (0, 1978)], [(102810698499291, 0), (0, 8388587894), (0, 16120694), (0, 7371), (0, 3)], [(0,
    55088873651), (136974660, 0), (131547, 0), (64, 0)]], 3, 4⟩, 72057594037927936, 1563863090408, 672866749314,
    ⟨[[(14056555893577, 0), (26677311546, 0), (12853094, 0), (1536, 0), (0, 42)], [(0, 14740571782), (0, 28853993),
    (0, 6407), (0, 78), (0, 1)], [(16971088, 0), (31227, 0), (0, 89)], [(0, 17796), (0, 68), (1, 0)]], 3, 4⟩,
    17592186044416, 5240901,
    10632833413205243020892016896861819559068920164788973323980438449691371045236415533770776529884681631195975763948623298333246485,
    lc0⟩) (.leaf ⟨1289, 16, 4910, 354, 16, 2091, ⟨[[(0, 9341655833935872), (0, 19154211625522688), (0, 435202524807),
    (0, 734638257), (0, 242027)], [(47450997095447589, 0), (0, 77985057786541), (0, 7572872126), (0, 6271171), (0,
    2102)], [(0, 311833217226426), (11639563069, 0), (7061804, 0), (1762, 0), (1, 0)], [(787907813668, 0),
    (311532625, 0), (251302, 0), (128, 0)]], 3, 4⟩, ⟨[[(0, 7523236793753600), (0, 10108367879125445), (0,
    1203842935686), (0, 865235253), (0, 329608)], [(0, 101479441949290624), (0, 19332903524757), (0, 13301210040),
    (0, 6766781), (0, 2062)], [(101657389386790, 0), (0, 2478278341), (0, 10598081), (0, 4671), (0, 2)], [(0,
    42407937122), (146010724, 0), (136426, 0), (66, 0)]], 3, 4⟩, 72057594037927936, 1596321403569, 528927641684,
    ⟨[[(13380160087194, 0), (25644863610, 0), (12472805, 0), (1043, 0), (30, 0)], [(0, 13543065823), (0, 27151942),
    (0, 5130), (0, 15), (0, 1)], [(15162744, 0), (30694, 0), (0, 71)], [(0, 14755), (0, 72)]], 3, 4⟩, 17592186044416,
    3391799,
    12628583457254981379896677154241165149875019673441878022610612604068076089779671732694152950497058400586949226438063506022513536,
    lc0⟩)) (.sx (.leaf ⟨1278, 16, 4984, 354, 16, 2039, ⟨[[(12082184472903680, 0), (0, 18397605197237908), (0,
    495178555345), (0, 726908652), (0, 235214)], [(51270393693966071, 0), (0, 80635331028338), (0, 9305022148), (0,
    7038106), (0, 2342)], [(0, 351013377771566), (0, 1739861106), (0, 4044837), (0, 3838), (0, 1)], [(861735627340,
    0), (340575547, 0), (266944, 0), (135, 0)]], 3, 4⟩, ⟨[[(8495543694512128, 0), (0, 9763396275042808), (0,
    1181827736216), (0, 848360326), (0, 321665)], [(0, 103296661367461230), (0, 20789341538963), (0, 14181665071),
    (0, 7064625), (0, 2105)], [(100380870318415, 0), (0, 10862347866), (0, 17658359), (0, 8171), (0, 3)], [(0,
    42858508235), (156109608, 0), (145010, 0), (70, 0)]], 3, 4⟩, 72057594037927936, 1561956980448, 699968703083,
    ⟨[[(14040306496331, 0), (27396897479, 0), (13262018, 0), (3119, 0), (31, 0)], [(0, 14537690814), (0, 29513264),
    (0, 245), (0, 43), (0, 1)], [(16391986, 0), (36381, 0), (0, 122)], [(0, 16286), (0, 95), (1, 0)]], 3, 4⟩,
    17592186044416, 3950858,
    12496806476183522643004567175665865237392263901230590127602926381730533983044544000724702447137095340969834890559389561407623679,
    lc0⟩) (.sy (.leaf ⟨2028, 16, 7820, 416, 16, 2519, ⟨[[(0, 4336691105382400), (0, 15299861629488574), (0,
    226641460588), (0, 157908277), (0, 25726)], [(68264418414837531, 0), (0, 62860363115406), (0, 3471090055), (0,
    1349994), (0, 225)], [(0, 495523256146065), (9941856014, 0), (2941536, 0), (389, 0)], [(1285312823645, 0),
    (272574337, 0), (109384, 0), (28, 0)]], 3, 4⟩, ⟨[[(27039782750650368, 0), (0, 6179060721854070), (0,
    410381367820), (0, 142310483), (0, 26556)], [(0, 123669908697655771), (0, 12625294364429), (0, 4376620224), (0,
    1093861), (0, 165)], [(122245808627788, 0), (0, 2269491902), (0, 3450879), (0, 774)], [(0, 40219481572),
    (97985521, 0), (44747, 0), (11, 0)]], 3, 4⟩, 72057594037927936, 2473292241972, 640055332239, ⟨[[(13370624304341,
    0), (21466605002, 0), (8629689, 0), (0, 315), (28, 0)], [(0, 8655139312), (0, 14658768), (0, 1197), (8, 0)],
    [(6136819, 0), (11779, 0), (0, 23)], [(0, 3626), (0, 20)]], 3, 4⟩, 17592186044416, 897874,
    11885689561986910580775645719815447316045662946403767952234448868670902673612957363218310989763791047166984600896442219259535168,
    lc0⟩) (.leaf ⟨2072, 16, 8056, 406, 16, 2497, ⟨[[(4240977448402944, 0), (0, 15801039643515362), (0, 272528538174),
    (0, 171124475), (0, 27676)], [(65251068789538021, 0), (0, 65341087808948), (0, 3909860673), (0, 1464687), (0,
    243)], [(0, 509660169120460), (10722098800, 0), (3127266, 0), (428, 0)], [(1346704024311, 0), (298908661, 0),
    (119533, 0), (30, 0)]], 3, 4⟩, ⟨[[(5280496849891328, 0), (0, 6191180793692674), (0, 440782433473), (0,
    149466116), (0, 27518)], [(0, 123592909943929106), (0, 13211923729963), (0, 4598169797), (0, 1136322), (0, 170)],
    [(120981503693461, 0), (0, 2797606777), (0, 3606042), (0, 817)], [(0, 32017066530), (104249050, 0), (46940, 0),
    (11, 0)]], 3, 4⟩, 72057594037927936, 2514138064275, 647710932280, ⟨[[(13377770449811, 0), (21793994403, 0),
    (8813772, 0), (0, 1390), (37, 0)], [(0, 8509573373), (0, 14750738), (0, 654), (19, 0)], [(5876989, 0), (12531,
    0), (0, 24)], [(0, 3259), (0, 22)]], 3, 4⟩, 17592186044416, 935616,
    12901531663746786936896464829741785753791754310147266264804122124560389644095084257163662969068733939381166501188959941799232144,
    lc0⟩))))
theorem c146 : checkR job con2 true ⟨7, 9, 7, 9, 13, 17⟩ 1 28336 t146 145 7 320 4039 39 4000 = true := by decide +kernel

def t147 : CTree :=
  .sy (.sx (.leaf ⟨1208, 16, 4869, 374, 16, 1977, ⟨[[(8612108480266240, 0), (0, 15822748287859095), (0,
    366506754162), (0, 577798744), (0, 181848)], [(65192116986565559, 0), (0, 79350640722543), (0, 9869041691), (0,
    7070300), (0, 2331)], [(0, 418823834986689), (0, 31410770760), (0, 26928261), (0, 15205), (0, 5)],
    [(934098511703, 0), (310152129, 0), (227166, 0), (115, 0)]], 3, 4⟩, ⟨[[(0, 27092767407411200), (0,
    9046975605611717), (0, 936405109569), (0, 722610080), (0, 282136)], [(0, 107309016307841920), (0,
    21295100801226), (0, 14003447323), (0, 6839363), (0, 1955)], [(100375803575283, 0), (0, 26739949061), (0,
    31554491), (0, 14957), (0, 5)], [(0, 68817053538), (140002868, 0), (136335, 0), (66, 0)]], 3, 4⟩,
    72057594037927936, 1478333748110, 1130426667186, ⟨[[(15596196574027, 0), (30462730719, 0), (14448725, 0), (1229,
    0), (0, 229)], [(0, 17427506606), (0, 34394424), (303, 0), (0, 260), (0, 1)], [(20961534, 0), (42033, 0), (0,
    192), (1, 0)], [(0, 24698), (0, 113), (1, 0)]], 3, 4⟩, 17592186044416, 9948293,
    10533941060710888093836797793846732548284271851333306609024066730743385442610223713721928110871454102786223371995151463514844629,
    lc0⟩) (.sy (.leaf ⟨1826, 16, 7261, 432, 16, 2404, ⟨[[(0, 21018540922667008), (0, 12616037545131079), (0,
    175240222613), (0, 123553696), (0, 19660)], [(82862193707713445, 0), (0, 59382315682721), (0, 3747995032), (0,
    1348881), (0, 223)], [(0, 566585417571514), (0, 12642183093), (0, 5971991), (0, 1817)], [(1334913911683, 0),
    (251010965, 0), (95474, 0), (24, 0)]], 3, 4⟩, ⟨[[(26472298649485312, 0), (0, 5658267039674025), (0,
    331636101879), (0, 121165326), (0, 23084)], [(0, 126598241378924672), (0, 13003726482304), (0, 4373459014), (0,
    1072509), (0, 156)], [(119600544653102, 0), (0, 11810928587), (0, 7553983), (0, 1778)], [(0, 60393015160),
    (94032692, 0), (44067, 0), (11, 0)]], 3, 4⟩, 72057594037927936, 2138441952483, 1064043977386, ⟨[[(14759752008157,
    0), (24153007230, 0), (9622659, 0), (3404, 0), (0, 6)], [(0, 10821356607), (0, 18253213), (2089, 0), (0, 46)],
    [(8562776, 0), (16117, 0), (0, 58)], [(0, 6216), (0, 30)]], 3, 4⟩, 17592186044416, 2415059,
    10500614077375980493740498137839646385172803776082773289003087791916044987837786936673700717323059864334597222694871149830456772,
    lc0⟩) (.leaf ⟨1864, 16, 7469, 422, 16, 2383, ⟨[[(0, 4022447486664704), (0, 13007918060610210), (0, 210748521663),
    (0, 133535477), (0, 21079)], [(80447252336546725, 0), (0, 61710594642119), (0, 4188543386), (0, 1460759), (0,
    240)], [(0, 583868543071218), (0, 13997354626), (0, 6591789), (0, 1967)], [(1393903230423, 0), (273981798, 0),
    (104155, 0), (26, 0)]], 3, 4⟩, ⟨[[(35345106178965504, 0), (0, 5662358994443961), (0, 357691851525), (0,
    127405880), (0, 23911)], [(0, 126524666290871735), (0, 13586134162016), (0, 4589754710), (0, 1112381), (0, 161)],
    [(117596170543543, 0), (0, 12908686392), (0, 7912669), (0, 1868)], [(0, 52324123985), (100222305, 0), (46225, 0),
    (11, 0)]], 3, 4⟩, 72057594037927936, 2119723399760, 1091600012328, ⟨[[(14758998469243, 0), (24504265299, 0),
    (9675293, 0), (3883, 0), (22, 0)], [(0, 10640660933), (0, 18411596), (4582, 0), (0, 35), (0, 1)], [(8236437, 0),
    (17482, 0), (0, 66)], [(0, 5741), (0, 35)]], 3, 4⟩, 17592186044416, 2162962,
    12671460055311631832248791243500885564544827891183605885776878622235245546239631712499522426704112671140695186489542942811939604,
    lc0⟩))) (.sx (.sy (.leaf ⟨1744, 16, 7105, 432, 16, 2330, ⟨[[(11086486160048128, 0), (0, 11580252245450522), (0,
    172087560691), (0, 113394105), (0, 17617)], [(88305252040150839, 0), (0, 58792311517044), (0, 4070843806), (0,
    1392665), (0, 228)], [(0, 613981478072814), (0, 25333436797), (0, 10835928), (0, 2997)], [(1390711145706, 0),
    (246567600, 0), (90526, 0), (23, 0)]], 3, 4⟩, ⟨[[(0, 27038028030943232), (0, 5400239710722448), (0,
    315011735284), (0, 116510592), (0, 22203)], [(0, 127995721949898203), (0, 13556492456159), (0, 4491656115), (0,
    1076838), (0, 152)], [(116323770498796, 0), (0, 18025889721), (0, 10104613), (0, 2400)], [(0, 70886190321),
    (92311780, 0), (43735, 0), (11, 0)]], 3, 4⟩, 72057594037927936, 1947418571487, 1374081449399, ⟨[[(15594203086123,
    0), (26047465488, 0), (10256589, 0), (5670, 0), (0, 47)], [(0, 12139025371), (0, 20740058), (5911, 0), (0, 104),
    (0, 1)], [(10137852, 0), (20175, 0), (0, 91)], [(0, 8213), (0, 43)]], 3, 4⟩, 17592186044416, 3851108,
    10211114375647084533860941171643428605129332338529623738787176570474527896283584240930676103622618374129015579839302541256050332,
    lc0⟩) (.leaf ⟨1781, 16, 7307, 422, 16, 2310, ⟨[[(0, 11962379057905664), (0, 11939258869497255), (0,
    204938975418), (0, 122384763), (0, 18853)], [(86073493314265289, 0), (0, 61143515032845), (0, 4530412273), (0,
    1507042), (0, 245)], [(0, 633538860002319), (0, 27849394030), (0, 11884308), (0, 3246), (0, 1)], [(1450606707234,
    0), (268534571, 0), (98705, 0), (25, 0)]], 3, 4⟩, ⟨[[(7010501923807232, 0), (0, 5404756273602482), (0,
    340152516811), (0, 122529275), (0, 22984)], [(0, 127972981103477888), (0, 14154585969888), (0, 4708487713), (0,
    1115483), (0, 156)], [(113869238362502, 0), (0, 19478218787), (0, 10590865), (0, 2519)], [(0, 62870372587),
    (98478156, 0), (45877, 0), (11, 0)]], 3, 4⟩, 72057594037927936, 1888535659401, 1416505957010, ⟨[[(15577732100486,
    0), (26402749667, 0), (10205248, 0), (7660, 0)], [(0, 11916802855), (0, 20961042), (10132, 0), (0, 91), (0, 1)],
    [(9741812, 0), (22137, 0), (0, 105)], [(0, 7622), (0, 50)]], 3, 4⟩, 17592186044416, 3336155,
    12322787763101105939720716713401807911688691116253471721297174763436199957218510802869001369408326471039235421241279283647146949,
    lc0⟩)) (.sy (.leaf ⟨1905, 16, 7691, 413, 16, 2362, ⟨[[(0, 12428911901147136), (0, 13430955838207550), (0,
    249991939658), (0, 144417742), (0, 22615)], [(77854915575844105, 0), (0, 64245572989173), (0, 4674186722), (0,
    1583164), (0, 259)], [(0, 602389297721283), (0, 15509885293), (0, 7273981), (0, 2132)], [(1458005224697, 0),
    (299355656, 0), (113708, 0), (28, 0)]], 3, 4⟩, ⟨[[(0, 24408520698081280), (0, 5670118498280479), (0,
    384967785143), (0, 133840300), (0, 24748)], [(0, 126488264567721765), (0, 14196529130450), (0, 4813203168), (0,
    1153254), (0, 165)], [(115513251030737, 0), (0, 14052886146), (0, 8289022), (0, 1962)], [(0, 43830499615),
    (106692080, 0), (48475, 0), (12, 0)]], 3, 4⟩, 72057594037927936, 2094345997567, 1120319202830,
    ⟨[[(14777783083190, 0), (24882673617, 0), (9704003, 0), (3668, 0), (46, 0)], [(0, 10462504454), (0, 18610454),
    (6941, 0), (0, 21), (0, 1)], [(7901608, 0), (18897, 0), (0, 73)], [(0, 5260), (0, 39)]], 3, 4⟩, 17592186044416,
    1949573,
    13977182826114689568855182482442329101503925784007804557417082639897259377094391464413467672558586145959373492602940793320893658,
    lc0⟩) (.sx (.leaf ⟨2623, 16, 10692, 683, 16, 3907, ⟨[[(0, 15753204642545664), (0, 18413619333763384), (0,
    371228584761), (0, 202715257), (0, 31433)], [(53588368221820937, 0), (0, 45095032663836), (0, 3472271047), (0,
    1146276), (0, 187)], [(0, 215225026173195), (0, 6942985706), (0, 3138723), (0, 887)], [(259499789809, 0),
    (53784032, 0), (20270, 0), (5, 0)]], 3, 4⟩, ⟨[[(0, 24199370100088832), (0, 9396097600628959), (0, 660815983773),
    (0, 227496575), (0, 41730)], [(0, 106216282160132590), (0, 12287454728944), (0, 4156750343), (0, 984903), (0,
    140)], [(47460501252341, 0), (0, 6851631856), (0, 3843844), (0, 913)], [(0, 8658704590), (23042575, 0), (10407,
    0), (2, 0)]], 3, 4⟩, 72057594037927936, 172683637887, 126110984539, ⟨[[(14968796031534, 0), (15250839783, 0),
    (3490766, 0), (890, 0), (8, 0)], [(0, 7735587103), (0, 8411312), (2584, 0), (0, 3)], [(4239609, 0), (6648, 0),
    (0, 16)], [(0, 2045), (0, 10)]], 3, 4⟩, 17592186044416, 341575,
    14092042692803000293843035051808076429177737505550406585161376191105386751509319331414946130465053525265366262275888231031547820,
    lc0⟩) (.sy (.sy (.leaf ⟨5441, 16, 22035, 899, 16, 5271, ⟨[[(32379178057662464, 0), (0, 9800611485398526), (0,
    51697669668), (0, 6922224), (0, 270)], [(101054865930101815, 0), (0, 23212117244459), (0, 443920596), (0, 36904),
    (0, 2)], [(0, 420987403497438), (0, 2315868055), (0, 283530), (0, 21)], [(523338314491, 0), (28480767, 0), (2720,
    0)]], 3, 4⟩, ⟨[[(0, 32031272756232192), (0, 3213566831940812), (0, 58920190569), (0, 4982929), (0, 227)], [(0,
    141024466074938130), (0, 4121207555571), (0, 351645797), (0, 20916), (0, 1)], [(63843797040881, 0), (0,
    1909397428), (0, 280679), (0, 17)], [(0, 9011922650), (7964912, 0), (890, 0)]], 3, 4⟩, 72057594037927936,
    359410725557, 146496243828, ⟨[[(14587143710782, 0), (11112277119, 0), (1923902, 0), (116, 0), (3, 0)], [(0,
    3617504823), (0, 2971701), (562, 0)], [(948839, 0), (1155, 0), (0, 2)], [(0, 208), (0, 1)]], 3, 4⟩,
    17592186044416, 77152,
    13330958977595913932595168746065852553249861565062117919418046589068927839224578840488450910774696836825379523211134637019546051,
    lc0⟩) (.out ⟨3941, 16, 21848, 51241, 16, 81382, ⟨[[(0, 29218345949626368), (0, 9725560784419274), (0,
    52874801815)], [(98399388668594139, 0), (0, 23084462241485), (0, 448770139)], [(0, 417595519483000), (0,
    2340453895), (0, 286060)]], 2, 2⟩, ⟨[[(16117916954525696, 0), (0, 28068014914704181), (213365475334, 0)]], 2, 2⟩,
    72057594037927936, 180014508184325, 96241071350, ⟨[], 0, 0⟩, 0, 0, 0, lc0⟩ 3 1 1332)) (.sy (.out ⟨3975, 16,
    22096, 51272, 16, 81479, ⟨[[(0, 23552597108883456), (0, 9844427981133471), (0, 55129177078)],
    [(97692529267680841, 0), (0, 23417987310733), (0, 462690340)], [(0, 422522108274896), (0, 2412546131), (0,
    294363)]], 2, 2⟩, ⟨[[(0, 7371823562883072), (0, 28068174384351826), (213240249982, 0)]], 2, 2⟩,
    72057594037927936, 182846400551981, 96127540573, ⟨[], 0, 0⟩, 0, 0, 0, lc0⟩ 3 1 1644) (.out ⟨4010, 16, 22350,
    51302, 16, 81575, ⟨[[(0, 30289415919206400), (0, 9966423416015580), (0, 57456519459)], [(96965067548279186, 0),
    (0, 23760897119273), (0, 477050742)], [(0, 427571287549428), (0, 2487130716), (0, 302927)]], 2, 2⟩, ⟨[[(0,
    6738469696045056), (0, 28067969711583330), (213112408121, 0)]], 2, 2⟩, 72057594037927936, 185757775179918,
    96013578632, ⟨[], 0, 0⟩, 0, 0, 0, lc0⟩ 3 1 1969))))))
theorem c147 : checkR job con2 true ⟨7, 9, 7, 9, 13, 17⟩ 1 28336 t147 131 7 320 8195 39 8000 = true := by decide +kernel

def t148 : CTree :=
  .sx (.sy (.sx (.leaf ⟨2540, 16, 10522, 705, 16, 3853, ⟨[[(0, 6953280252313600), (0, 16930386333550549), (0,
    312926056126), (0, 176944194), (0, 26956)], [(61761655928918491, 0), (0, 44394546157924), (0, 3455766940), (0,
    1123512), (0, 182)], [(0, 234464293924207), (0, 11771121547), (0, 4945700), (0, 1327)], [(266769525887, 0),
    (49398615, 0), (17996, 0), (4, 0)]], 3, 4⟩, ⟨[[(0, 19622675007733760), (0, 9020657428142873), (0, 587792935124),
    (0, 209847252), (0, 39064)], [(0, 108329622228902016), (0, 12307658120415), (0, 4082457539), (0, 955767), (0,
    132)], [(47080300439516, 0), (0, 9284877797), (0, 4878701), (0, 1162)], [(0, 13208358784), (21173983, 0), (9828,
    0), (2, 0)]], 3, 4⟩, 72057594037927936, 159766487374, 160572061136, ⟨[[(15802324828351, 0), (16056262931, 0),
    (3600927, 0), (2013, 0), (2, 0)], [(0, 8521831849), (0, 9053627), (3456, 0), (0, 15)], [(4900747, 0), (7156, 0),
    (0, 21)], [(0, 2734), (0, 12)]], 3, 4⟩, 17592186044416, 592747,
    7674064840441009240598446915876079757064479763483523440651376480516293261551545448870917090117263809155449306981042780652705039,
    lc0⟩) (.sy (.leaf ⟨3792, 16, 15609, 824, 16, 4624, ⟨[[(0, 16743977329655808), (0, 13010099648913479), (0,
    130176468164), (0, 35348682), (0, 2712)], [(83404758814201216, 0), (0, 33048559735699), (0, 1303973057), (0,
    212026), (0, 17)], [(0, 331032967631328), (0, 7017432763), (0, 1516595), (0, 207)], [(388938546868, 0),
    (38682075, 0), (7176, 0), (1, 0)]], 3, 4⟩, ⟨[[(0, 27187316360855552), (0, 5502349776972787), (0, 189885684674),
    (0, 33043585), (0, 3040)], [(0, 128141355482363099), (0, 7435628650021), (0, 1246832474), (0, 146441), (0, 10)],
    [(56117066778104, 0), (0, 4912026971), (0, 1317805), (0, 157)], [(0, 12265261800), (13497851, 0), (3073, 0)]], 3,
    4⟩, 72057594037927936, 235129399988, 169286797200, ⟨[[(15374274274380, 0), (13148043816, 0), (2471352, 0), (857,
    0), (3, 0)], [(0, 5528887963), (0, 5025217), (1602, 0), (0, 3)], [(2109582, 0), (2782, 0), (0, 6)], [(0, 739),
    (0, 3)]], 3, 4⟩, 17592186044416, 173170,
    10727092201733958966047729354447504006015316178112845834598682956008701153710081041303235315381806502786850779298999012746907755,
    lc0⟩) (.sy (.leaf ⟨4996, 16, 20625, 904, 16, 5104, ⟨[[(21546100745764864, 0), (0, 8605771268312210), (0,
    45070073736), (0, 5944114), (0, 227)], [(107646555097815918, 0), (0, 21936651175571), (0, 443161494), (0, 35690),
    (0, 1)], [(0, 437960781254481), (0, 4754897662), (0, 513105), (0, 35)], [(516947920556, 0), (26117132, 0), (2423,
    0)]], 3, 4⟩, ⟨[[(12899227354357760, 0), (0, 3049213983860410), (0, 54016849215), (0, 4658133), (0, 213)], [(0,
    141928107051541760), (0, 4185092220128), (0, 351215763), (0, 20538), (0, 1)], [(61620172310466, 0), (0,
    2796952055), (0, 371326), (0, 22)], [(0, 12655191409), (7650016, 0), (866, 0)]], 3, 4⟩, 72057594037927936,
    299792762640, 188531084143, ⟨[[(15369335585531, 0), (11939830946, 0), (2002720, 0), (602, 0), (3, 0)], [(0,
    4200332269), (0, 3500442), (1111, 0), (0, 1)], [(1213982, 0), (1533, 0), (0, 3)], [(0, 318), (0, 1)]], 3, 4⟩,
    17592186044416, 113506,
    14334687629470510336531138349348531739126893599525741133101569057072440597997636152520467933360948047236914868608563423319942014,
    lc0⟩) (.out ⟨3591, 16, 20438, 51423, 16, 81962, ⟨[[(0, 13502318712193024), (0, 8534820730163605), (0,
    46048000131)], [(104972325887601390, 0), (0, 21806913489480), (0, 447471678)], [(0, 434360566063164), (0,
    4791738366), (0, 516587)]], 2, 2⟩, ⟨[[(33813614806171648, 0), (0, 28067987242757934), (212608885543, 0)]], 2, 2⟩,
    72057594037927936, 177520839858609, 95559525624, ⟨[], 0, 0⟩, 0, 0, 0, lc0⟩ 3 1 1441)))) (.sx (.sy (.leaf ⟨3698,
    16, 15405, 824, 16, 4553, ⟨[[(33419772937175040, 0), (0, 12421827363976784), (0, 126107642947), (0, 33553817),
    (0, 2539)], [(86603743802090112, 0), (0, 32803010917196), (0, 1338427869), (0, 213532), (0, 17)], [(0,
    344306725109730), (0, 9050595140), (0, 1897104), (0, 252)], [(394893067749, 0), (37736977, 0), (6879, 0), (1,
    0)]], 3, 4⟩, ⟨[[(5232457464766464, 0), (0, 5371674529426360), (0, 184764519854), (0, 32368178), (0, 2977)], [(0,
    128878123543916800), (0, 7559908969576), (0, 1256397624), (0, 145804), (0, 10)], [(54971836972041, 0), (0,
    5830267464), (0, 1502815), (0, 179)], [(0, 14103984121), (13204289, 0), (3028, 0)]], 3, 4⟩, 72057594037927936,
    215238861214, 192899990197, ⟨[[(15799909404698, 0), (13651718822, 0), (2504637, 0), (1268, 0), (3, 0)], [(0,
    5867850660), (0, 5392561), (2169, 0), (0, 5)], [(2313395, 0), (3178, 0), (0, 8)], [(0, 873), (0, 4)]], 3, 4⟩,
    17592186044416, 215783,
    14046117147506573334899028768017267910311899780608394023375279718051021400602434828981324370505665849856568112145917880362356234,
    lc0⟩) (.sy (.out ⟨3412, 16, 19688, 51515, 16, 82253, ⟨[[(33298712779259904, 0), (0, 7947362806540910), (0,
    42190449553)], [(108223478125603566, 0), (0, 21063037204259), (0, 439723622)], [(0, 440718184359707), (0,
    5926953324), (0, 620427)]], 2, 2⟩, ⟨[[(0, 19120119241244672), (0, 28068051181046771), (212233186751, 0)]], 2, 2⟩,
    72057594037927936, 175120017786553, 95222055325, ⟨[], 0, 0⟩, 0, 0, 0, lc0⟩ 3 1 1363) (.out ⟨3439, 16, 19892,
    51545, 16, 82350, ⟨[[(9027810882125824, 0), (0, 8036461448753520), (0, 43925149428)], [(107682191083430144, 0),
    (0, 21351236233419), (0, 452550052)], [(0, 445755674366943), (0, 6086917007), (0, 636637)]], 2, 2⟩,
    ⟨[[(6105202433196032, 0), (0, 28068033385632988), (212107953552, 0)]], 2, 2⟩, 72057594037927936, 177608089434896,
    95109863593, ⟨[], 0, 0⟩, 0, 0, 0, lc0⟩ 3 1 1724))) (.sy (.out ⟨2764, 16, 15792, 25727, 16, 41042, ⟨[[(0,
    12357115677835264), (0, 13206374432573100), (0, 148845776219)], [(79133647044801838, 0), (0, 33863558748086), (0,
    1422230150)], [(0, 336059699824807), (0, 7593984486), (0, 1634946)]], 2, 2⟩, ⟨[[(14821228512804864, 0), (0,
    28060007916846313), (424720479465, 0)]], 2, 2⟩, 72057594037927936, 140397338402879, 381565453354, ⟨[], 0, 0⟩, 0,
    0, 0, lc0⟩ 3 1 1936) (.out ⟨2794, 16, 16049, 25758, 16, 41139, ⟨[[(19173737273098240, 0), (0, 13445594922856610),
    (0, 160294762525)], [(77728226626037019, 0), (0, 34644355223930), (0, 1499708310)], [(0, 342140942823256), (0,
    7980896995), (0, 1714669)]], 2, 2⟩, ⟨[[(0, 28803411194150912), (0, 28060030294319360), (424219975725, 0)]], 2,
    2⟩, 72057594037927936, 143891837238336, 380666035937, ⟨[], 0, 0⟩, 0, 0, 0, lc0⟩ 3 1 2524)))) (.sy (.sy (.sy (.out
    ⟨2301, 16, 12892, 51333, 16, 81672, ⟨[[(6796961369489408, 0), (0, 5657945510694451), (0, 32177164093)],
    [(116722642739180434, 0), (0, 27452254581685), (0, 555443636)], [(0, 1013250635096169), (0, 7316593608), (0,
    850611)]], 2, 2⟩, ⟨[[(0, 35432776503132160), (0, 28068089525754096), (212987179877, 0)]], 2, 2⟩,
    72057594037927936, 866981252681113, 95900000848, ⟨[], 0, 0⟩, 0, 0, 0, lc0⟩ 3 1 1822) (.out ⟨2326, 16, 13068,
    51363, 16, 81769, ⟨[[(21447883785207808, 0), (0, 5740351282340141), (0, 33593142632)], [(116142170438266368, 0),
    (0, 27915698280982), (0, 573776864)], [(0, 1027667168666707), (0, 7552113010), (0, 876707)]], 2, 2⟩,
    ⟨[[(5321746854445056, 0), (0, 28068189413980990), (212861948673, 0)]], 2, 2⟩, 72057594037927936, 882577877502513,
    95786789857, ⟨[], 0, 0⟩, 0, 0, 0, lc0⟩ 3 1 2142)) (.out ⟨1945, 16, 10969, 25697, 16, 40945, ⟨[[(0,
    13288547397812224), (0, 9650144054915860), (0, 117782959751)], [(94739075814019803, 0), (0, 47092285348305), (0,
    1981468912)], [(0, 863353695473859), (0, 13026883430), (0, 3017685)]], 2, 2⟩, ⟨[[(0, 18789332403879936), (0,
    28059907024810650), (425220976599, 0)]], 2, 2⟩, 72057594037927936, 749365358493954, 382466817620, ⟨[], 0, 0⟩, 0,
    0, 0, lc0⟩ 3 1 2638)) (.sy (.out ⟨1980, 16, 11225, 25727, 16, 41042, ⟨[[(0, 35702357430190080), (0,
    9894707459613890), (0, 127489827886)], [(93178727253190491, 0), (0, 48513631562624), (0, 2104441598)], [(0,
    884561882780949), (0, 13820690811), (0, 3191553)]], 2, 2⟩, ⟨[[(14821228512804864, 0), (0, 28060007916846313),
    (424720479465, 0)]], 2, 2⟩, 72057594037927936, 773702162637425, 381565453354, ⟨[], 0, 0⟩, 0, 0, 0, lc0⟩ 3 1 3303)
    (.out ⟨2016, 16, 11494, 25758, 16, 41139, ⟨[[(0, 2630129302618112), (0, 10152759780327196), (0, 137842142444)],
    [(91523677751866478, 0), (0, 50018648339575), (0, 2235443942)], [(0, 906883796344555), (0, 14670148858), (0,
    3376710)]], 2, 2⟩, ⟨[[(0, 28803411194150912), (0, 28060030294319360), (424219975725, 0)]], 2, 2⟩,
    72057594037927936, 799464264118869, 380666035937, ⟨[], 0, 0⟩, 0, 0, 0, lc0⟩ 3 1 3828)))
theorem c148 : checkR job con2 true ⟨7, 9, 7, 9, 13, 17⟩ 1 28336 t148 131 7 320 16507 39 16000 = true := by decide +kernel

def t149 : CTree :=
  .sy (.sy (.out ⟨1088, 16, 6268, 25788, 16, 41236, ⟨[[(27223827683459072, 0), (0, 5356793315701972), (0,
    70498565393)], [(109790175306000768, 0), (0, 54664332478880), (0, 2466671970)], [(0, 2087898030868244), (0,
    45615581928), (0, 9947348)]], 2, 2⟩, ⟨[[(0, 5529768295399424), (0, 28059974710928079), (423719473762, 0)]], 2,
    2⟩, 72057594037927936, 3563040506602002, 379768818247, ⟨[], 0, 0⟩, 0, 0, 0, lc0⟩ 3 1 3566) (.out ⟨1112, 16, 6440,
    25818, 16, 41333, ⟨[[(20179760246636544, 0), (0, 5515396052280961), (0, 76391813980)], [(108406496726880640, 0),
    (0, 56566950304018), (0, 2627252092)], [(0, 2148910466201104), (0, 48487007353), (0, 10546339)]], 2, 2⟩,
    ⟨[[(12602772231290880, 0), (0, 28059841716466639), (423218981863, 0)]], 2, 2⟩, 72057594037927936,
    3692552660151887, 378873779186, ⟨[], 0, 0⟩, 0, 0, 0, lc0⟩ 3 1 4193)) (.out ⟨943, 16, 5502, 12924, 16, 20727,
    ⟨[[(0, 28078796963577856), (0, 9455892735208110), (0, 281958868198)], [(86931214884419419, 0), (0,
    97734730196843), (0, 9469640989)], [(0, 1840888974402310), (0, 87166652467), (0, 37766966)]], 2, 2⟩,
    ⟨[[(5132373685174272, 0), (0, 28042924439756265), (844437485012, 0)]], 2, 2⟩, 72057594037927936,
    3223428728126350, 1510135311464, ⟨[], 0, 0⟩, 0, 0, 0, lc0⟩ 3 1 5170)
theorem c149 : checkR job con2 true ⟨7, 9, 7, 9, 13, 17⟩ 1 28336 t149 131 7 320 16585 39 16000 = true := by decide +kernel

def t150 : CTree :=
  .sy (.leaf ⟨1974, 16, 7789, 414, 16, 2438, ⟨[[(10054916006641664, 0), (0, 14427149848994498), (0, 245236872311),
    (0, 153104932), (0, 24488)], [(72701416191303205, 0), (0, 63917141838684), (0, 4137297884), (0, 1485797), (0,
    245)], [(0, 548745964966097), (0, 1760851559), (0, 1853015), (0, 805)], [(1379328801711, 0), (291643761, 0),
    (113935, 0), (29, 0)]], 3, 4⟩, ⟨[[(0, 9679136981643264), (0, 5924998810281159), (0, 399797761474), (0,
    138429772), (0, 25689)], [(0, 125024095933501001), (0, 13465099938944), (0, 4622986053), (0, 1131681), (0, 167)],
    [(119189764882714, 0), (0, 7780811058), (0, 5726904), (0, 1336)], [(0, 39715200364), (103915648, 0), (47189, 0),
    (11, 0)]], 3, 4⟩, 72057594037927936, 2318092317975, 850839415807, ⟨[[(14045228586434, 0), (23116319248, 0),
    (9212803, 0), (1009, 0), (38, 0)], [(0, 9469279191), (0, 16444151), (1915, 0), (1, 0)], [(6882792, 0), (14864,
    0), (0, 42)], [(0, 4240), (0, 28)]], 3, 4⟩, 17592186044416, 1430273,
    13321190854214980173312213461473402961099047122368084902114082548682761688535124832639011509680475870241538148112723345786381214,
    lc0⟩) (.sx (.leaf ⟨2656, 16, 10580, 679, 16, 4004, ⟨[[(0, 22445049639829504), (0, 19345577203594473), (0,
    361682798853), (0, 211145922), (0, 33474)], [(48617177011321307, 0), (0, 43849726877759), (0, 3039488398), (0,
    1057565), (0, 174)], [(0, 191419240120142), (0, 1796783364), (0, 1120624), (0, 393)], [(240358536802, 0),
    (51704206, 0), (20042, 0), (5, 0)]], 3, 4⟩, ⟨[[(14863212136931328, 0), (0, 9755979363917374), (0, 683355736227),
    (0, 234021055), (0, 43074)], [(0, 104233815220999662), (0, 11613154060117), (0, 3982480307), (0, 964340), (0,
    141)], [(48819256565016, 0), (0, 4048332476), (0, 2697740), (0, 634)], [(0, 7466259767), (22499141, 0), (10140,
    0), (2, 0)]], 3, 4⟩, 72057594037927936, 190045482817, 95081496568, ⟨[[(14211084035541, 0), (14259059847, 0),
    (3396033, 0), (193, 0), (7, 0)], [(0, 7156544281), (0, 7635566), (991, 0), (1, 0)], [(3856097, 0), (5485, 0), (0,
    10)], [(0, 1741), (0, 8)]], 3, 4⟩, 17592186044416, 238529,
    9450448348288886896643879165020171520251359711993726961213990469349032560837519589389546071692849189954597014073823889693018059,
    lc0⟩) (.sy (.leaf ⟨4178, 16, 16555, 807, 16, 4884, ⟨[[(0, 6980227910205440), (0, 15603766267636231), (0,
    153055285719), (0, 43661870), (0, 3476)], [(69243416366588498, 0), (0, 34229720935111), (0, 1172368847), (0,
    205765), (0, 17)], [(0, 283882235850616), (330883682, 0), (0, 97411), (0, 34)], [(367630463361, 0), (41202811,
    0), (8076, 0), (1, 0)]], 3, 4⟩, ⟨[[(15220166662840320, 0), (0, 6032259040879949), (0, 221154323647), (0,
    37225107), (0, 3399)], [(0, 125203105272011209), (0, 7048019103773), (0, 1218246760), (0, 147819), (0, 11)],
    [(59291220921328, 0), (0, 1829390033), (0, 682036), (0, 80)], [(0, 7205001157), (13924105, 0), (3110, 0)]], 3,
    4⟩, 72057594037927936, 301417157260, 99727429142, ⟨[[(13865752025809, 0), (11505353536, 0), (2291208, 0), (0,
    140), (3, 0)], [(0, 4421457798), (0, 3934375), (261, 0), (1, 0)], [(1507362, 0), (1830, 0), (0, 2)], [(0, 411),
    (0, 2)]], 3, 4⟩, 17592186044416, 112613,
    7177697346603465416550963640280348120749475296548650805745247357239228604030315622161573779340376371998382975214444603224760836,
    lc0⟩) (.sx (.leaf ⟨5442, 16, 21669, 1326, 16, 8029, ⟨[[(5539213002473472, 0), (0, 20298554540731832), (0,
    208283656633), (0, 57617469), (0, 4567)], [(44873951709913335, 0), (0, 22524402994025), (0, 798498390), (0,
    137974), (0, 11)], [(0, 94163100043256), (0, 42301565), (0, 62968), (0, 15)], [(60963409449, 0), (6896310, 0),
    (1347, 0)]], 3, 4⟩, ⟨[[(21562022498025472, 0), (0, 9932890003332615), (0, 370893055457), (0, 62089496), (0,
    5645)], [(0, 103711677018462811), (0, 5940124254995), (0, 1025991805), (0, 123831), (0, 9)], [(24335009250431,
    0), (0, 858175014), (0, 301857), (0, 35)], [(0, 1374001114), (2941368, 0), (654, 0)]], 3, 4⟩, 72057594037927936,
    24199677164, 10703072404, ⟨[[(13951671872255, 0), (7046684941, 0), (845547, 0), (0, 39)], [(0, 3423983427), (0,
    1864193), (101, 0)], [(894109, 0), (689, 0), (0, 1)], [(0, 185), (0, 1)]], 3, 4⟩, 17592186044416, 124120,
    9456372203119559704175517087876690994685774342932868379883124941970863742387403741762347709240452791858803482556773402272020641,
    lc0⟩) (.sy (.leaf ⟨8602, 16, 34161, 1593, 16, 9773, ⟨[[(0, 34120392470953984), (0, 16242116864465605), (0,
    85129867926), (0, 11662877), (0, 463)], [(67335097388726062, 0), (0, 17728035699523), (0, 311908798), (0, 27079),
    (0, 1)], [(0, 144437041585423), (196920520, 0), (0, 2116), (0, 2)], [(95008263152, 0), (5477428, 0), (538, 0)]],
    3, 4⟩, ⟨[[(17194725457903616, 0), (0, 6086828179675850), (0, 116120075934), (0, 9643484), (0, 437)], [(0,
    125269657433930423), (0, 3604306009475), (0, 312452188), (0, 18876), (0, 1)], [(29574054197946, 0), (0,
    440085811), (0, 82887), (0, 5)], [(0, 1454437415), (1799291, 0), (199, 0)]], 3, 4⟩, 72057594037927936,
    38509961680, 12047205672, ⟨[[(13781489051069, 0), (5743162471, 0), (573411, 0), (0, 38)], [(0, 2135392710), (0,
    962695), (30, 0)], [(351840, 0), (226, 0)], [(0, 45)]], 3, 4⟩, 17592186044416, 44099,
    10311986132848003565943123549246838094640493737625786656414846692351497128324169321047617696728657035404844785459656894988186117,
    lc0⟩) (.out ⟨6253, 16, 33769, 51059, 16, 80804, ⟨[[(22009110241083392, 0), (0, 16069076539914224), (0,
    86867565965)], [(65193614343985838, 0), (0, 17573195267874), (0, 314633678)], [(0, 142764445770822), (194306298,
    0), (0, 2454)]], 2, 2⟩, ⟨[[(0, 4285298611060736), (0, 28068022128942805), (214127311578, 0)]], 2, 2⟩,
    72057594037927936, 33195982892357, 96930063307, ⟨[], 0, 0⟩, 0, 0, 0, lc0⟩ 3 1 1181)))))
theorem c150 : checkR job con2 true ⟨7, 9, 7, 9, 13, 17⟩ 1 28336 t150 283 7 640 16351 39 16000 = true := by decide +kernel

def t151 : CTree :=
  .sy (.sx (.leaf ⟨2702, 16, 10609, 660, 16, 4067, ⟨[[(13731401327345664, 0), (0, 20564396786002780), (0,
    393290033460), (0, 229860687), (0, 36874)], [(41971233279757065, 0), (0, 43487616832379), (0, 2817900896), (0,
    1016808), (0, 168)], [(0, 172275119712206), (2599421607, 0), (628768, 0), (42, 0)], [(227976537776, 0),
    (51795588, 0), (20546, 0), (5, 0)]], 3, 4⟩, ⟨[[(22402218670972928, 0), (0, 10120988940387991), (0, 748867668940),
    (0, 250970322), (0, 45818)], [(0, 102202765929913947), (0, 11338233118903), (0, 3943143445), (0, 964149), (0,
    143)], [(49273316991929, 0), (0, 1850189602), (0, 1760637), (0, 406)], [(0, 5584176535), (22546590, 0), (10065,
    0), (2, 0)]], 3, 4⟩, 72057594037927936, 201769815694, 71870038903, ⟨[[(13534998415250, 0), (13558704372, 0),
    (3325173, 0), (0, 453), (6, 0)], [(0, 6636255254), (0, 7127036), (97, 0), (4, 0)], [(3497637, 0), (4970, 0), (0,
    6)], [(0, 1446), (0, 7)]], 3, 4⟩, 17592186044416, 176930,
    8465816414288310993631695187120772928007632173947193089150325372586000522371312767106750515468491437618084200411543907931236192,
    lc0⟩) (.sy (.leaf ⟨4373, 16, 17084, 791, 16, 5000, ⟨[[(2498125864763392, 0), (0, 17034062367856594), (0,
    168429106599), (0, 48517461), (0, 3905)], [(61394837355275355, 0), (0, 34844796615771), (0, 1098741432), (0,
    201221), (0, 17)], [(0, 262308708319262), (3816385591, 0), (599757, 0), (52, 0)], [(357920731788, 0), (41903790,
    0), (8392, 0), (1, 0)]], 3, 4⟩, ⟨[[(0, 2996454408798208), (0, 6300069992684433), (0, 242507424119), (0,
    40083338), (0, 3636)], [(0, 123685460594275822), (0, 6898408687455), (0, 1207846953), (0, 147963), (0, 11)],
    [(60349278932669, 0), (0, 518103602), (0, 405225), (0, 46)], [(0, 5560842981), (13854548, 0), (3074, 0)]], 3, 4⟩,
    72057594037927936, 330717355764, 74668081496, ⟨[[(13222876451393, 0), (10860436985, 0), (2219492, 0), (0, 420),
    (3, 0)], [(0, 3990413068), (0, 3530681), (0, 127), (2, 0)], [(1295549, 0), (1525, 0), (0, 1)], [(0, 317), (0,
    1)]], 3, 4⟩, 17592186044416, 90537,
    9359287398008646226849495271144297287017457481817251250131368223053681481981421061411368657318555703916089071765916407589950387,
    lc0⟩) (.sy (.leaf ⟨6357, 16, 24915, 881, 16, 5606, ⟨[[(27060509546905600, 0), (0, 12435821025728538), (0,
    64542353956), (0, 9012550), (0, 362)], [(86558793623796334, 0), (0, 25503769714416), (0, 413596655), (0, 37397),
    (0, 2)], [(0, 382217723191435), (2834432646, 0), (222014, 0), (10, 0)], [(525602422612, 0), (31279767, 0), (3128,
    0)]], 3, 4⟩, ⟨[[(5398402699231232, 0), (0, 3547957688538034), (0, 69967677104), (0, 5737895), (0, 259)], [(0,
    139133274322750336), (0, 3947327411297), (0, 345902009), (0, 21102), (0, 1)], [(67628063798570, 0), (0,
    317293934), (0, 115870), (0, 7)], [(0, 5314215685), (7970635, 0), (880, 0)]], 3, 4⟩, 72057594037927936,
    478779425379, 84016665353, ⟨[[(13222186800803, 0), (9710214262, 0), (1772769, 0), (0, 358), (2, 0)], [(0,
    2748473028), (0, 2185265), (0, 70), (1, 0)], [(611503, 0), (669, 0)], [(0, 100)]], 3, 4⟩, 17592186044416, 99543,
    12843487274315754391580590665374539460243522494441235305138025016973550513210883300610912509227281504806046973727458772266694686,
    lc0⟩) (.out ⟨4662, 16, 24730, 50938, 16, 80420, ⟨[[(10850301365714944, 0), (0, 12353639801735975), (0,
    66169541199)], [(83939034952132187, 0), (0, 25379120351766), (0, 419267435)], [(0, 379158873246547), (2847938674,
    0), (222620, 0)]], 2, 2⟩, ⟨[[(0, 33282762885562368), (0, 28068092914536993), (214638736356, 0)]], 2, 2⟩,
    72057594037927936, 181338784905466, 97392807772, ⟨[], 0, 0⟩, 0, 0, 0, lc0⟩ 3 1 1144)))) (.sx (.sy (.sx (.leaf
    ⟨5484, 16, 21682, 1307, 16, 8092, ⟨[[(31145352738701312, 0), (0, 20906783563221278), (0, 216579645381), (0,
    60016803), (0, 4785)], [(41519232444392503, 0), (0, 22401707033031), (0, 767296131), (0, 134998), (0, 11)], [(0,
    89185179272405), (537885327, 0), (52605, 0), (0, 1)], [(59323424264, 0), (6887408, 0), (1360, 0)]], 3, 4⟩,
    ⟨[[(24585841121984512, 0), (0, 10117400315282936), (0, 387729237726), (0, 64261399), (0, 5822)], [(0,
    102691016705869934), (0, 5866700373323), (0, 1020229002), (0, 123739), (0, 9)], [(24475752285906, 0), (0,
    574304932), (0, 241699), (0, 28)], [(0, 1156341753), (2937933, 0), (651, 0)]], 3, 4⟩, 72057594037927936,
    25057039538, 9267886285, ⟨[[(13617660464867, 0), (6871960332, 0), (840304, 0), (0, 80)], [(0, 3300663829), (0,
    1800723), (36, 0)], [(852871, 0), (654, 0)], [(0, 168)]], 3, 4⟩, 17592186044416, 120312,
    11073354370296077127969371759279462118065757143523590215025175721843161412093550439825744149575152883588526257642975479703766032,
    lc0⟩) (.sy (.out ⟨6381, 16, 34039, 50968, 16, 80516, ⟨[[(31768674090287104, 0), (0, 16650167391431769), (0,
    87796764534)], [(62000818795101147, 0), (0, 17546127702167), (0, 297166883)], [(0, 136146480650720), (647305752,
    0), (43098, 0)]], 2, 2⟩, ⟨[[(0, 4107895791157248), (0, 28068105077145974), (214510879708, 0)]], 2, 2⟩,
    72057594037927936, 32417932535486, 97277312497, ⟨[], 0, 0⟩, 0, 0, 0, lc0⟩ 3 1 950) (.out ⟨6417, 16, 34323, 50998,
    16, 80612, ⟨[[(0, 35854958661730304), (0, 16803119603162368), (0, 91395773302)], [(61136262260980379, 0), (0,
    17739752609828), (0, 305893470)], [(0, 137231225124859), (659509037, 0), (43756, 0)]], 2, 2⟩,
    ⟨[[(22456462850129920, 0), (0, 28068097286302073), (214383023000, 0)]], 2, 2⟩, 72057594037927936, 32846236227598,
    97160986936, ⟨[], 0, 0⟩, 0, 0, 0, lc0⟩ 3 1 1304))) (.sy (.out ⟨4511, 16, 24219, 51029, 16, 80708, ⟨[[(0,
    27991820053512192), (0, 11778957037635735), (0, 64995110461)], [(87052340312089125, 0), (0, 25115088336634), (0,
    441374018)], [(0, 392750384974433), (1547081555, 0), (91352, 0)]], 2, 2⟩, ⟨[[(0, 25642618061848576), (0,
    28068069613240638), (214255166777, 0)]], 2, 2⟩, 72057594037927936, 183708281588019, 97045212194, ⟨[], 0, 0⟩, 0,
    0, 0, lc0⟩ 3 1 1425) (.out ⟨4553, 16, 24517, 51059, 16, 80804, ⟨[[(14340833113866240, 0), (0, 11934314796530834),
    (0, 67861847701)], [(86137648397159771, 0), (0, 25494528730866), (0, 455965635)], [(0, 397460217964355),
    (1580574052, 0), (92867, 0)]], 2, 2⟩, ⟨[[(0, 4285298611060736), (0, 28068022128942805), (214127311578, 0)]], 2,
    2⟩, 72057594037927936, 186844891448415, 96930063307, ⟨[], 0, 0⟩, 0, 0, 0, lc0⟩ 3 1 1719))) (.sy (.sy (.out ⟨4706,
    16, 25037, 50968, 16, 80516, ⟨[[(34783293745201152, 0), (0, 12517617450310608), (0, 69150377495)],
    [(82974313633346158, 0), (0, 25761093999541), (0, 433436926)], [(0, 383639506008985), (2918633210, 0), (227700,
    0)]], 2, 2⟩, ⟨[[(0, 4107895791157248), (0, 28068105077145974), (214510879708, 0)]], 2, 2⟩, 72057594037927936,
    184463213787974, 97277312497, ⟨[], 0, 0⟩, 0, 0, 0, lc0⟩ 3 1 1451) (.out ⟨4752, 16, 25353, 50998, 16, 80612,
    ⟨[[(11373290705453056, 0), (0, 12686702264116482), (0, 72237258076)], [(81984143958061989, 0), (0,
    26155418261684), (0, 448102415)], [(0, 388249608855576), (2991624855, 0), (232953, 0)]], 2, 2⟩,
    ⟨[[(22456462850129920, 0), (0, 28068097286302073), (214383023000, 0)]], 2, 2⟩, 72057594037927936,
    187689501290410, 97160986936, ⟨[], 0, 0⟩, 0, 0, 0, lc0⟩ 3 1 1778)) (.out ⟨3285, 16, 17601, 25514, 16, 40366,
    ⟨[[(0, 13331163836710912), (0, 17639181986286041), (0, 209966670082)], [(54787659618385079, 0), (0,
    36463996823933), (0, 1283276790)], [(0, 269292164372597), (4230071265, 0), (656995, 0)]], 2, 2⟩,
    ⟨[[(22592112838311936, 0), (0, 28059706756559445), (428255166383, 0)]], 2, 2⟩, 72057594037927936,
    134545336581204, 387948962700, ⟨[], 0, 0⟩, 0, 0, 0, lc0⟩ 3 1 2250)))
theorem c151 : checkR job con2 true ⟨7, 9, 7, 9, 13, 17⟩ 1 28336 t151 297 7 640 16351 39 16000 = true := by decide +kernel

def t152 : CTree :=
  .sx (.sy (.sx (.sy (.leaf ⟨4118, 16, 16502, 806, 16, 4805, ⟨[[(0, 25452845718831104), (0, 15121703538681275), (0,
    155752628954), (0, 42717777), (0, 3367)], [(71812324767193682, 0), (0, 34482898337222), (0, 1258980429), (0,
    214261), (0, 18)], [(0, 298733407612679), (0, 1506690317), (0, 464372), (0, 80)], [(379721989204, 0), (42191746,
    0), (8164, 0), (1, 0)]], 3, 4⟩, ⟨[[(0, 33374210314059776), (0, 5903267350597108), (0, 217605205345), (0,
    36641251), (0, 3337)], [(0, 125917651305221979), (0, 7253772956157), (0, 1246443569), (0, 149668), (0, 11)],
    [(58290108384504, 0), (0, 2622452722), (0, 843480), (0, 99)], [(0, 7338144317), (14227122, 0), (3173, 0)]], 3,
    4⟩, 72057594037927936, 285826207238, 115181647840, ⟨[[(14219507930310, 0), (11942384002, 0), (2344484, 0), (0,
    29), (4, 0)], [(0, 4630385202), (0, 4185609), (570, 0), (1, 0)], [(1601290, 0), (2072, 0), (0, 3)], [(0, 450),
    (0, 2)]], 3, 4⟩, 17592186044416, 71886,
    12093656328247029271510702048370006354263206480091803223314539780942876637877937966495897558071353153718083184648292438092712168,
    lc0⟩) (.sy (.out ⟨4110, 16, 22496, 51150, 16, 81093, ⟨[[(0, 31514984305459200), (0, 10319892004939208), (0,
    55660317877)], [(95140717328950967, 0), (0, 23605949620633), (0, 442008412)], [(0, 407364299884272), (0,
    1064574961), (0, 163063)]], 2, 2⟩, ⟨[[(17619325458317312, 0), (0, 28068107637097607), (213746393307, 0)]], 2, 2⟩,
    72057594037927936, 180060589185877, 96584735551, ⟨[], 0, 0⟩, 0, 0, 0, lc0⟩ 3 1 1203) (.out ⟨4146, 16, 22757,
    51180, 16, 81189, ⟨[[(0, 4562117162893312), (0, 10448545249895442), (0, 58072025437)], [(94379181052276809, 0),
    (0, 23950270729187), (0, 456002772)], [(0, 412175576469692), (0, 1102915232), (0, 168244)]], 2, 2⟩,
    ⟨[[(28591186261835776, 0), (0, 28067981201794718), (213618542858, 0)]], 2, 2⟩, 72057594037927936,
    182960315809756, 96469737218, ⟨[], 0, 0⟩, 0, 0, 0, lc0⟩ 3 1 1513))) (.sy (.sy (.out ⟨4311, 16, 23370, 51089, 16,
    80900, ⟨[[(16521048289837056, 0), (0, 11044831826771331), (0, 60464216479)], [(91120676523270894, 0), (0,
    24394477819109), (0, 444159752)], [(0, 400683588984222), (213399621, 0), (0, 39457)]], 2, 2⟩,
    ⟨[[(14475467938070528, 0), (0, 28067954904136497), (213999457941, 0)]], 2, 2⟩, 72057594037927936,
    182231001088616, 96814316671, ⟨[], 0, 0⟩, 0, 0, 0, lc0⟩ 3 1 1318) (.out ⟨4351, 16, 23649, 51120, 16, 80997,
    ⟨[[(0, 29200782240841728), (0, 11186383493631089), (0, 63102997327)], [(90280271937387319, 0), (0,
    24756528900953), (0, 458511753)], [(0, 405450505030887), (209601168, 0), (0, 41435)]], 2, 2⟩,
    ⟨[[(4064800083017728, 0), (0, 28068214543299220), (213874246922, 0)]], 2, 2⟩, 72057594037927936, 185253403499002,
    96699698584, ⟨[], 0, 0⟩, 0, 0, 0, lc0⟩ 3 1 1657)) (.out ⟨3123, 16, 17045, 25575, 16, 40558, ⟨[[(0,
    29680523731566592), (0, 16146932236904097), (0, 190344169530)], [(62977212751707493, 0), (0, 35843481020934), (0,
    1361652009)], [(0, 292210905472252), (287777742, 0), (0, 126067)]], 2, 2⟩, ⟨[[(0, 15823824391241728), (0,
    28059398932588511), (427233261760, 0)]], 2, 2⟩, 72057594037927936, 137457832882559, 386103439202, ⟨[], 0, 0⟩, 0,
    0, 0, lc0⟩ 3 1 2116))) (.sy (.out ⟨2120, 16, 11661, 25606, 16, 40655, ⟨[[(10943460157947904, 0), (0,
    10894842070462198), (0, 131292356304)], [(88008638271539035, 0), (0, 49335157585063), (0, 1932821174)], [(0,
    822239188869606), (0, 2000102446), (0, 900815)]], 2, 2⟩, ⟨[[(0, 33429638890913792), (0, 28059817858661583),
    (426732839460, 0)]], 2, 2⟩, 72057594037927936, 752880885602364, 385193625208, ⟨[], 0, 0⟩, 0, 0, 0, lc0⟩ 3 1 2316)
    (.out ⟨2160, 16, 11946, 25636, 16, 40751, ⟨[[(0, 8921004072730624), (0, 11182717711680148), (0, 142465538744)],
    [(86205212455402185, 0), (0, 50855855977958), (0, 2057772760)], [(0, 842500598054817), (0, 2196191351), (0,
    964590)]], 2, 2⟩, ⟨[[(0, 29559294097096704), (0, 28059467462552573), (426221917011, 0)]], 2, 2⟩,
    72057594037927936, 778571573304579, 384276051319, ⟨[], 0, 0⟩, 0, 0, 0, lc0⟩ 3 1 2944))) (.sy (.sy (.out ⟨2326,
    16, 12559, 25545, 16, 40462, ⟨[[(34207176086159360, 0), (0, 12427034184627817), (0, 152231546738)],
    [(79570259070575973, 0), (0, 52404895470760), (0, 1918438908)], [(0, 790724326849369), (9452315123, 0), (1336163,
    0)]], 2, 2⟩, ⟨[[(0, 30054265828147200), (0, 28059592149774247), (427744205701, 0)]], 2, 2⟩, 72057594037927936,
    768277147507251, 387025015535, ⟨[], 0, 0⟩, 0, 0, 0, lc0⟩ 3 1 2443) (.out ⟨2373, 16, 12884, 25575, 16, 40558,
    ⟨[[(0, 9692636569042944), (0, 12773704159620124), (0, 165469433811)], [(77423872232014857, 0), (0,
    54074250750049), (0, 2048010865)], [(0, 810421829478825), (9912631800, 0), (1394907, 0)]], 2, 2⟩, ⟨[[(0,
    15823824391241728), (0, 28059398932588511), (427233261760, 0)]], 2, 2⟩, 72057594037927936, 796013756848824,
    386103439202, ⟨[], 0, 0⟩, 0, 0, 0, lc0⟩ 3 1 3077)) (.out ⟨1643, 16, 8999, 12802, 16, 20339, ⟨[[(0,
    10804413799153664), (0, 17900350123202406), (0, 502484668852)], [(49638795715359506, 0), (0, 76227305418244), (0,
    6067636444)], [(0, 565226314745971), (14309289887, 0), (4002290, 0)]], 2, 2⟩, ⟨[[(30103563071389696, 0), (0,
    28042417923720245), (852430857638, 0)]], 2, 2⟩, 72057594037927936, 581108728522547, 1538905233303, ⟨[], 0, 0⟩, 0,
    0, 0, lc0⟩ 3 1 3967))
theorem c152 : checkR job con2 true ⟨7, 9, 7, 9, 13, 17⟩ 1 28336 t152 145 7 320 16429 39 16000 = true := by decide +kernel

def t153 : CTree :=
  .sy (.sy (.out ⟨1132, 16, 6292, 12833, 16, 20436, ⟨[[(0, 11180179793281024), (0, 12195257882113910), (0,
    358283513833)], [(72432284732310418, 0), (0, 108170151270610), (0, 9203798600)], [(0, 1675769569379687),
    (15407834092, 0), (1283463, 0)]], 2, 2⟩, ⟨[[(3383575500947456, 0), (0, 28043017069423202), (850432663212, 0)]],
    2, 2⟩, 72057594037927936, 3313598819541857, 1531661980688, ⟨[], 0, 0⟩, 0, 0, 0, lc0⟩ 3 1 4460) (.out ⟨1180, 16,
    6636, 12864, 16, 20533, ⟨[[(0, 16572702390517760), (0, 12924100044123325), (0, 418555050149)],
    [(67433230095088293, 0), (0, 115656293076135), (0, 10455688243)], [(0, 1766112858399152), (16447410105, 0),
    (1173186, 0)]], 2, 2⟩, ⟨[[(0, 33753082468368384), (0, 28043298236814713), (848434279394, 0)]], 2, 2⟩,
    72057594037927936, 3568947772812817, 1524452654351, ⟨[], 0, 0⟩, 0, 0, 0, lc0⟩ 3 1 5449)) (.out ⟨820, 16, 4696,
    6447, 16, 10327, ⟨[[(0, 2794480347750400), (0, 18440836509225807), (0, 1368248534570)], [(38038562912217504, 0),
    (0, 167347872631946), (0, 32981653762)], [(0, 1248426741142832), (23619938173, 0), (2511927, 0)]], 2, 2⟩, ⟨[[(0,
    10986678061891584), (0, 28009907873648446), (1688869935101, 0)]], 2, 2⟩, 72057594037927936, 2712016241137150,
    6054761018651, ⟨[], 0, 0⟩, 0, 0, 0, lc0⟩ 3 1 6856)
theorem c153 : checkR job con2 true ⟨7, 9, 7, 9, 13, 17⟩ 1 28336 t153 145 7 320 8273 39 8000 = true := by decide +kernel

def t154 : CTree :=
  .sx (.sy (.sx (.leaf ⟨1271, 16, 4655, 371, 16, 2176, ⟨[[(22504273001709568, 0), (0, 19085216008313200), (0,
    181938008829), (0, 632202117), (0, 214637)], [(48453767465267648, 0), (0, 71710562808529), (0, 4389892902), (0,
    4720812), (0, 1606)], [(0, 268293531399703), (18796678072, 0), (14080069, 0), (5432, 0), (2, 0)], [(670383475034,
    0), (233687134, 0), (195938, 0), (102, 0)]], 3, 4⟩, ⟨[[(0, 429585053159424), (0, 10416714580219530), (0,
    1031782328683), (0, 786988870), (0, 309942)], [(0, 99847036089061851), (0, 16201000259092), (0, 11029334087), (0,
    5878549), (0, 1855)], [(103443007217693, 0), (5341439335, 0), (0, 4257256), (0, 1427), (0, 1)], [(0,
    54738326770), (115966567, 0), (113500, 0), (56, 0)]], 3, 4⟩, 72057594037927936, 1546707603730, 395218564741,
    ⟨[[(12780512706500, 0), (23424729481, 0), (11142251, 0), (0, 85), (0, 4)], [(0, 12816528044), (0, 24835779), (0,
    9763), (0, 28)], [(14580760, 0), (23865, 0), (0, 26)], [(0, 14865), (0, 42)]], 3, 4⟩, 17592186044416, 2693573,
    7243130957205452372467503577257072637331769222853459990768080577076457726728703983611172868328513061012651526698675232096922657,
    lc0⟩) (.leaf ⟨1294, 16, 4707, 355, 16, 2198, ⟨[[(23102266802110464, 0), (0, 20309201267222446), (0,
    242777466852), (0, 704732667), (0, 239242)], [(41790383845193344, 0), (0, 71840367475575), (0, 3922750755), (0,
    4558634), (0, 1542)], [(0, 243581155211266), (28936013233, 0), (22661324, 0), (9872, 0), (4, 0)], [(641601268902,
    0), (235671568, 0), (202217, 0), (105, 0)]], 3, 4⟩, ⟨[[(31112307048497152, 0), (0, 10749757869733381), (0,
    1198714656662), (0, 878205096), (0, 339397)], [(0, 97961737552674103), (0, 16144595219704), (0, 11194038822), (0,
    5945218), (0, 1882)], [(102334655294194, 0), (10337146982, 0), (489869, 0), (919, 0)], [(0, 47658795614),
    (117700079, 0), (113111, 0), (56, 0)]], 3, 4⟩, 72057594037927936, 1579695930284, 299604489264,
    ⟨[[(12220436251551, 0), (22549588069, 0), (10862079, 0), (0, 909), (18, 0)], [(0, 11958496249), (0, 23550439),
    (0, 8987), (0, 2)], [(13442389, 0), (22818, 0), (0, 15)], [(0, 13172), (0, 43)]], 3, 4⟩, 17592186044416, 2136551,
    10686464004301131807217226081676850163510810514132904771779794586616831095479700273320462496773452697239427337198372682436405498,
    lc0⟩)) (.sx (.leaf ⟨1294, 16, 4816, 354, 16, 2144, ⟨[[(0, 8031394592800768), (0, 19787039537966966), (0,
    349641192641), (0, 726609778), (0, 243213)], [(44312719085436453, 0), (0, 74991662337082), (0, 5747249807), (0,
    5428334), (0, 1830)], [(0, 275964630915766), (21826110696, 0), (15965189, 0), (6341, 0), (2, 0)], [(713712469299,
    0), (275390554, 0), (228799, 0), (118, 0)]], 3, 4⟩, ⟨[[(24298375138803712, 0), (0, 10436865249178591), (0,
    1209565957971), (0, 875361115), (0, 335623)], [(0, 99692724962958939), (0, 17767284138778), (0, 12291098127), (0,
    6386681), (0, 1985)], [(102306077884640, 0), (4581492504, 0), (0, 4550320), (0, 1640), (0, 1)], [(0,
    44313698085), (132750946, 0), (125462, 0), (61, 0)]], 3, 4⟩, 72057594037927936, 1594937343118, 397431621734,
    ⟨[[(12767355406830, 0), (24026063865, 0), (11660456, 0), (0, 214), (24, 0)], [(0, 12685433505), (0, 25182423),
    (0, 7819), (0, 4)], [(14197779, 0), (26277, 0), (0, 36)], [(0, 13772), (0, 56)]], 3, 4⟩, 17592186044416, 2817075,
    12134564904008208636355389390619655124792266472818489728080213178956825825476174711006903228862084319907295853411148987902457404,
    lc0⟩) (.sy (.leaf ⟨2093, 16, 7709, 424, 16, 2688, ⟨[[(0, 15982064133767168), (0, 16660281098475113), (0,
    152102276321), (0, 156139156), (0, 26233)], [(61536665443083730, 0), (0, 59244319386164), (0, 1946997928), (0,
    1009864), (0, 170)], [(0, 396028093401568), (25951956353, 0), (10019720, 0), (2205, 0)], [(1074545765781, 0),
    (213270385, 0), (90662, 0), (23, 0)]], 3, 4⟩, ⟨[[(0, 5568157821968384), (0, 6664540414472758), (0, 415788830800),
    (0, 146827407), (0, 27833)], [(0, 121003680293008183), (0, 10710950609203), (0, 3753445905), (0, 978310), (0,
    153)], [(125889924102863, 0), (6361667962, 0), (199705, 0), (144, 0)], [(0, 49375639129), (80420732, 0), (37693,
    0), (9, 0)]], 3, 4⟩, 72057594037927936, 2581832459837, 353951947431, ⟨[[(12226432455631, 0), (18603546110, 0),
    (7378680, 0), (0, 975), (12, 0)], [(0, 7448619319), (0, 12071182), (0, 3533), (6, 0)], [(5175249, 0), (7751, 0),
    (0, 4)], [(0, 3035), (0, 10)]], 3, 4⟩, 17592186044416, 452274,
    11170748449092687229217654512540763005998493863527145058848598647076122678791643222761898891406291807125667711230052701593039936,
    lc0⟩) (.leaf ⟨2135, 16, 7932, 413, 16, 2667, ⟨[[(0, 18281100634554368), (0, 17169615300473098), (0,
    195096057456), (0, 169271619), (0, 28246)], [(58549331494244224, 0), (0, 61289911859105), (0, 2252941661), (0,
    1094898), (0, 183)], [(0, 405337464225938), (28353172754, 0), (10855888, 0), (2402, 0)], [(1123324790780, 0),
    (234438526, 0), (99060, 0), (25, 0)]], 3, 4⟩, ⟨[[(30065088652722176, 0), (0, 6679541997470854), (0,
    447653490846), (0, 154498680), (0, 28919)], [(0, 120910390065990985), (0, 11226242470985), (0, 3956883492), (0,
    1019082), (0, 158)], [(125400016013545, 0), (6345494828, 0), (231757, 0), (144, 0)], [(0, 42534143390),
    (85796792, 0), (39600, 0), (10, 0)]], 3, 4⟩, 72057594037927936, 2666311440261, 349495690043, ⟨[[(12216981064687,
    0), (18855468446, 0), (7589711, 0), (0, 1583), (15, 0)], [(0, 7330533557), (0, 12055505), (0, 3539), (11, 0)],
    [(4984026, 0), (8014, 0), (0, 4)], [(0, 2773), (0, 11)]], 3, 4⟩, 17592186044416, 419976,
    10712730765224494320011867233786904993281588946136004296597662180941839094012048545132451960148416754250943350334667698606142940,
    lc0⟩)))) (.sy (.sx (.sy (.leaf ⟨2107, 16, 7585, 429, 16, 2776, ⟨[[(3726551667965952, 0), (0, 17160198323573278),
    (0, 100092856243), (0, 150323008), (0, 25585)], [(59174055089217499, 0), (0, 57023373985702), (0, 1178574312),
    (0, 828135), (0, 139)], [(0, 351522421778969), (30239967379, 0), (12220112, 0), (2795, 0), (1, 0)],
    [(967937399366, 0), (178988237, 0), (78771, 0), (20, 0)]], 3, 4⟩, ⟨[[(0, 3502956520210432), (0,
    6896853058782741), (0, 410347192006), (0, 147280381), (0, 28192)], [(0, 119753910087195374), (0, 9699227886671),
    (0, 3401876466), (0, 906635), (0, 144)], [(126499930084978, 0), (9501604286, 0), (1574792, 0), (498, 0)], [(0,
    55981460425), (70320563, 0), (33638, 0), (8, 0)]], 3, 4⟩, 72057594037927936, 2546172020777, 265775532310,
    ⟨[[(11722823514289, 0), (17344028172, 0), (6774427, 0), (0, 1015), (8, 0)], [(0, 6982741529), (0, 11139043), (0,
    3666), (3, 0)], [(4848932, 0), (6521, 0)], [(0, 2886), (0, 7)]], 3, 4⟩, 17592186044416, 346891,
    10401109548714928095446299322714300350572558045985523829365259812752603845920277847551329914480287466885075065202063183174937864,
    lc0⟩) (.leaf ⟨2147, 16, 7798, 418, 16, 2755, ⟨[[(8264363107516416, 0), (0, 17661010780915548), (0, 140042220233),
    (0, 162944328), (0, 27551)], [(56255258565677669, 0), (0, 58829524805412), (0, 1416206754), (0, 897152), (0,
    150)], [(0, 358891010291625), (33102498562, 0), (13255397, 0), (3043, 0), (1, 0)], [(1009974736484, 0),
    (197039547, 0), (86051, 0), (22, 0)]], 3, 4⟩, ⟨[[(18874269071441920, 0), (0, 6910930931119909), (0,
    442483454995), (0, 155104468), (0, 29326)], [(0, 119619780196147749), (0, 10169230468141), (0, 3591993996), (0,
    945435), (0, 149)], [(126288242328357, 0), (9682683149, 0), (1681026, 0), (516, 0)], [(0, 49907398318),
    (75149206, 0), (35360, 0), (9, 0)]], 3, 4⟩, 72057594037927936, 2642631582734, 257631473655, ⟨[[(11717973530899,
    0), (17579867035, 0), (6976686, 0), (0, 1409), (9, 0)], [(0, 6884488770), (0, 11106886), (0, 3737), (7, 0)],
    [(4691069, 0), (6650, 0)], [(0, 2671), (0, 8)]], 3, 4⟩, 17592186044416, 313298,
    11355816706626784295326185581123389064624016935517872485775770091377900658102500930869778473508984585665335850237907068996889470,
    lc0⟩)) (.sy (.sx (.leaf ⟨2664, 16, 9554, 670, 16, 4517, ⟨[[(16352157927931904, 0), (0, 22364552584652111), (0,
    139852098910), (0, 199880284), (0, 33990)], [(32816982666283726, 0), (0, 35476227672524), (0, 564311196), (0,
    480340), (0, 80)], [(0, 101312018975359), (11269595492, 0), (4623437, 0), (1082, 0)], [(145420132473, 0),
    (27223971, 0), (12186, 0), (3, 0)]], 3, 4⟩, ⟨[[(0, 7752370252169216), (0, 11386169946622141), (0, 725477449071),
    (0, 255034248), (0, 48323)], [(0, 95282889796878007), (0, 7709997632162), (0, 2731839105), (0, 726916), (0,
    116)], [(50767205590843, 0), (4754938110, 0), (1064680, 0), (307, 0)], [(0, 10614615328), (13918496, 0), (6612,
    0), (2, 0)]], 3, 4⟩, 72057594037927936, 202585715635, 20156579222, ⟨[[(11371989175188, 0), (10461181377, 0),
    (2572012, 0), (0, 349), (1, 0)], [(0, 5332540219), (0, 5321362), (0, 1171), (1, 0)], [(2944148, 0), (2445, 0),
    (1, 0)], [(0, 1364), (0, 2)]], 3, 4⟩, 17592186044416, 113780,
    10387846058057877778079692362470600168617719522145829936926460125723978351540095478977401047271825431772255465027816630130912054,
    lc0⟩) (.leaf ⟨2671, 16, 9557, 655, 16, 4540, ⟨[[(12345488708337664, 0), (0, 22866114577960885), (0,
    146859068569), (0, 206449139), (0, 35083)], [(30074276876520411, 0), (0, 35155862069010), (0, 427865929), (0,
    448335), (0, 74)], [(0, 95332570337165), (12400009989, 0), (5132245, 0), (1214, 0)], [(140780567813, 0),
    (26403154, 0), (11959, 0), (3, 0)]], 3, 4⟩, ⟨[[(0, 11880160149331968), (0, 11551661605705511), (0, 767384126633),
    (0, 266496609), (0, 50190)], [(0, 94345531244913243), (0, 7607277475915), (0, 2711913918), (0, 721033), (0,
    115)], [(50586074901203, 0), (5359797453, 0), (1345428, 0), (376, 0)], [(0, 10282815770), (13650253, 0), (6462,
    0), (2, 0)]], 3, 4⟩, 72057594037927936, 203996717290, 16056773792, ⟨[[(11149074801126, 0), (10281797413, 0),
    (2559442, 0), (0, 405), (1, 0)], [(0, 5198248864), (0, 5219401), (0, 1220), (1, 0)], [(2873392, 0), (2364, 0),
    (1, 0)], [(0, 1314), (0, 2)]], 3, 4⟩, 17592186044416, 99743,
    10595456020704173715938040716621523477377837745460951386669980880526774144071831638750338944671550830853091619057569256209107245,
    lc0⟩)) (.leaf ⟨2230, 16, 8063, 402, 16, 2803, ⟨[[(29633136947429376, 0), (0, 19105526417383516), (0,
    162372645007), (0, 180789038), (0, 30539)], [(48378161916970697, 0), (0, 59752209792086), (0, 1028609833), (0,
    826093), (0, 137)], [(0, 328559934640375), (42600643150, 0), (17401026, 0), (4102, 0), (1, 0)], [(980651049659,
    0), (194247579, 0), (86654, 0), (22, 0)]], 3, 4⟩, ⟨[[(18096143229362176, 0), (0, 7174049939542134), (0,
    500923971040), (0, 171146678), (0, 31947)], [(0, 118135061045221614), (0, 10026122808602), (0, 3585838946), (0,
    942095), (0, 149)], [(126460843646753, 0), (13005343461, 0), (3187772, 0), (887, 0)], [(0, 46152079135),
    (73496637, 0), (34297, 0), (8, 0)]], 3, 4⟩, 72057594037927936, 2781899512254, 167462383591, ⟨[[(11255383583649,
    0), (16858756569, 0), (6819348, 0), (0, 1974), (6, 0)], [(0, 6329821855), (0, 10263520), (0, 4027), (10, 0)],
    [(4178883, 0), (5804, 0), (4, 0)], [(0, 2226), (0, 7)]], 3, 4⟩, 17592186044416, 265741,
    10911665942096342612607398866753340795140628403698651733796542230614302888447151781290215594168450968180393011645108696291696006,
    lc0⟩))) (.sx (.sy (.leaf ⟨2189, 16, 8022, 408, 16, 2734, ⟨[[(8022040757796864, 0), (0, 18193916916801999), (0,
    184339898697), (0, 176674493), (0, 29676)], [(53141386216039397, 0), (0, 60763838102538), (0, 1678587179), (0,
    972343), (0, 162)], [(0, 366459634291727), (36238862857, 0), (14390018, 0), (3314, 0), (1, 0)], [(1055346734103,
    0), (216934803, 0), (94030, 0), (24, 0)]], 3, 4⟩, ⟨[[(0, 27973424913555456), (0, 6929618865072662), (0,
    476207441796), (0, 163216543), (0, 30485)], [(0, 119517269570939977), (0, 10665204300274), (0, 3789650034), (0,
    985487), (0, 155)], [(126085497115377, 0), (9878601806, 0), (1790680, 0), (535, 0)], [(0, 43492393790),
    (80210367, 0), (37159, 0), (9, 0)]], 3, 4⟩, 72057594037927936, 2745037258354, 248899681300, ⟨[[(11729517931068,
    0), (17833680254, 0), (7192598, 0), (0, 1894), (10, 0)], [(0, 6793818548), (0, 11086388), (0, 3894), (11, 0)],
    [(4532882, 0), (6807, 0), (1, 0)], [(0, 2452), (0, 9)]], 3, 4⟩, 17592186044416, 314689,
    10857401219808220466931773841011503230352539802280330830602958706484582528078303647220083902446784140604279970179516546225607377,
    lc0⟩) (.leaf ⟨2233, 16, 8258, 397, 16, 2711, ⟨[[(16001105723817984, 0), (0, 18762146749070333), (0,
    233453433507), (0, 191624465), (0, 31975)], [(49814750105206190, 0), (0, 62839608891824), (0, 1968388328), (0,
    1054341), (0, 175)], [(0, 374238991194875), (39679318181, 0), (15634630, 0), (3610, 0), (1, 0)], [(1104413684954,
    0), (238879938, 0), (102785, 0), (26, 0)]], 3, 4⟩, ⟨[[(0, 21344250775724032), (0, 6947998292628101), (0,
    511193237161), (0, 171494580), (0, 31646)], [(0, 119360040055336192), (0, 11179824403701), (0, 3992111028), (0,
    1026065), (0, 160)], [(125799898434561, 0), (10082309110, 0), (1902352, 0), (553, 0)], [(0, 36694228175),
    (85451013, 0), (39012, 0), (10, 0)]], 3, 4⟩, 72057594037927936, 2853970333892, 239396772633, ⟨[[(11728562106333,
    0), (18096985615, 0), (7447848, 0), (0, 2547), (11, 0)], [(0, 6692948684), (0, 11074790), (0, 4212), (16, 0)],
    [(4363236, 0), (6998, 0), (2, 0)], [(0, 2215), (0, 10)]], 3, 4⟩, 17592186044416, 334472,
    11506522186436360136125968945591360704596678102294251825971591763543751876037721694012917323430430533312327704412675401780617592,
    lc0⟩)) (.sy (.sy (.leaf ⟨3475, 16, 12652, 452, 16, 3194, ⟨[[(34773139166887936, 0), (0, 15006032094282952), (0,
    76391961114), (0, 36886706), (0, 3101)], [(70421522332279662, 0), (0, 46981042900048), (0, 461498370), (0,
    168430), (0, 14)], [(0, 511552254812033), (35054092260, 0), (7114680, 0), (839, 0)], [(1557085105280, 0),
    (160538543, 0), (35568, 0), (5, 0)]], 3, 4⟩, ⟨[[(0, 21750306462973952), (0, 4121798869511027), (0, 151445468379),
    (0, 25461051), (0, 2355)], [(0, 135296667727127186), (0, 5956963023348), (0, 1069491769), (0, 139238), (0, 11)],
    [(144980872960463, 0), (7627501445, 0), (953268, 0), (131, 0)], [(0, 47554996761), (44210501, 0), (10199, 0), (1,
    0)]], 3, 4⟩, 72057594037927936, 4392293764563, 176544499442, ⟨[[(11263406781985, 0), (14870459927, 0), (5327635,
    0), (0, 1536), (4, 0)], [(0, 4081630365), (0, 5817758), (0, 2129), (5, 0)], [(1726038, 0), (2172, 0), (2, 0)],
    [(0, 573), (0, 2)]], 3, 4⟩, 17592186044416, 163493,
    10450733690364477796726205367060344448890485112339064962842865129214692548123545798175201589122076311039497543689460561494613098,
    lc0⟩) (.leaf ⟨3539, 16, 12945, 445, 16, 3181, ⟨[[(24687196013854720, 0), (0, 15366435728974395), (0,
    87109152836), (0, 38742180), (0, 3246)], [(68300030823512704, 0), (0, 48145881989086), (0, 513035517), (0,
    176829), (0, 15)], [(0, 520556745513123), (37017306534, 0), (7483277, 0), (883, 0)], [(1606180339591, 0),
    (170019832, 0), (37504, 0), (5, 0)]], 3, 4⟩, ⟨[[(29055535309180928, 0), (0, 4129019242538422), (0, 156848993581),
    (0, 26097785), (0, 2400)], [(0, 135215290972879598), (0, 6101430922289), (0, 1097989318), (0, 142114), (0, 11)],
    [(144989143687422, 0), (7746960399, 0), (980271, 0), (134, 0)], [(0, 43864668351), (45637947, 0), (10452, 0), (1,
    0)]], 3, 4⟩, 72057594037927936, 4528520609625, 168748472903, ⟨[[(11252187412559, 0), (14969939225, 0), (5432268,
    0), (0, 1717), (3, 0)], [(0, 4014246037), (0, 5756688), (0, 2238), (6, 0)], [(1664155, 0), (2150, 0), (2, 0)],
    [(0, 529), (0, 2)]], 3, 4⟩, 17592186044416, 119930,
    10165994035447588305151465471745782692290415768899978080769403574470596828450745152723526923336343356440936236448597151653424778,
    lc0⟩)) (.leaf ⟨2320, 16, 8545, 380, 16, 2757, ⟨[[(0, 11513120699187200), (0, 20315820041184633), (0,
    266620773331), (0, 212751638), (0, 35481)], [(41361664044463781, 0), (0, 63730436441710), (0, 1521704197), (0,
    970517), (0, 160)], [(0, 340692253972208), (51230636730, 0), (20594975, 0), (4865, 0), (1, 0)], [(1073715286310,
    0), (236310969, 0), (103581, 0), (26, 0)]], 3, 4⟩, ⟨[[(14252761051627520, 0), (0, 7222818543390019), (0,
    576218109025), (0, 188876661), (0, 34440)], [(0, 117824194200370505), (0, 11031932454201), (0, 3982688140), (0,
    1022127), (0, 160)], [(126460732256764, 0), (13835950283, 0), (3563835, 0), (959, 0)], [(0, 33264184213),
    (83440930, 0), (37817, 0), (9, 0)]], 3, 4⟩, 72057594037927936, 3040526430270, 140723515519, ⟨[[(11252174477125,
    0), (17352276475, 0), (7355873, 0), (0, 3001), (5, 0)], [(0, 6147513801), (0, 10196095), (0, 4972), (16, 0)],
    [(3873921, 0), (5980, 0), (7, 0)], [(0, 1799), (0, 8)]], 3, 4⟩, 17592186044416, 258433,
    10487521390142599036718330151415919165346746281125758750991447147550356717761921501038674559050301521022409919990199427895920941,
    lc0⟩))))
theorem c154 : checkR job con2 true ⟨7, 9, 7, 9, 13, 17⟩ 1 28336 t154 83 7 160 8039 39 8000 = true := by decide +kernel

end PyX.Kron.V3b
