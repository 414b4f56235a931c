import Verif.Lemmas.T1psJob

/-!
# Temperature from pressure and entropy in region 1, part D of the certificate
-/

namespace PyX.Kron.T1ps

set_option Elab.async false

def t28 : CTree :=
  .sx (.sx (.leaf ⟨1342, 16, 79, 3500, 16, 614, ⟨[[(2116995290074112, 0)], [(0, 574327699745538)]], 2, 3⟩, ⟨[[(0,
    1388958236649472), (351229241418205, 0), (31956791044, 0), (12797595, 0)], [(54177164335202, 0), (27663390491,
    0), (15466403, 0), (8573, 0)], [(4514576485, 0), (5819191, 0), (5136, 0), (3, 0)]], 2, 3⟩, 4503599627370496, 719,
    10443820138022, ⟨[[(679795706870363, 0), (133304945667, 0), (0, 181001795), (0, 299333)], [(12470448582, 0),
    (44232307, 0), (124967, 0), (295, 0)], [(0, 1551638), (0, 10576), (0, 40)]], 2, 3⟩, 1099511627776, 29295487,
    42630913719439467669041400652447418472458274539367936267775384733687886179225173499404530, lc0⟩) (.leaf ⟨1312,
    16, 79, 3417, 16, 599, ⟨[[(0, 1762319227232256)], [(0, 574327699745538)]], 2, 3⟩, ⟨[[(422434003128320, 0),
    (349531207156189, 0), (35140379997, 0), (14714823, 0)], [(55110519351455, 0), (29974904998, 0), (17758521, 0),
    (10122, 0)], [(4937014168, 0), (6699634, 0), (6056, 0), (4, 0)]], 2, 3⟩, 4503599627370496, 334, 12171993453425,
    ⟨[[(679757811312874, 0), (134294158115, 0), (0, 196670921), (0, 336778)], [(12680197095, 0), (46672443, 0),
    (136338, 0), (331, 0)], [(0, 1599236), (0, 11233), (0, 44)]], 2, 3⟩, 1099511627776, 34111659,
    40811520471512732334109936265811706802837554395570430509085557754580575017032497774889871, lc0⟩)) (.sy (.leaf
    ⟨625, 16, 39, 5188, 16, 910, ⟨[[(0, 1576374218789376)], [(0, 567057728862683)]], 2, 3⟩, ⟨[[(0, 1508829729980416),
    (269169891673337, 0), (14371300264, 0), (3105849, 0)], [(170450906090651, 0), (48321922870, 0), (14879151, 0),
    (4324, 0)], [(31801507561, 0), (22344450, 0), (10276, 0), (3, 0)]], 2, 3⟩, 4503599627370496, 431, 29209624325052,
    ⟨[[(678900835571667, 0), (87512708170, 0), (0, 87041216), (0, 99286)], [(25790119269, 0), (62866045, 0), (121443,
    0), (194, 0)], [(0, 6594430), (0, 30581), (0, 79)]], 2, 3⟩, 1099511627776, 15102343,
    34320355480290283557041691006708402730133453239950591134027419076358244648045919994086239, lc0⟩) (.sx (.leaf
    ⟨1281, 16, 79, 5956, 16, 1041, ⟨[[(0, 1138034117166080)], [(0, 574327699745538)]], 2, 3⟩, ⟨[[(5997436448768, 0),
    (316808834554158, 0), (19440378818, 0), (4391080, 0)], [(105577261991750, 0), (32566237097, 0), (10640353, 0),
    (3151, 0)], [(10991212150, 0), (8111286, 0), (3783, 0), (1, 0)]], 2, 3⟩, 4503599627370496, 686, 5876505215958,
    ⟨[[(680688035305798, 0), (74029582414, 0), (0, 70127918), (0, 70127)], [(13274617464, 0), (28943113, 0), (49599,
    0), (70, 0)], [(0, 1740641), (0, 7115), (0, 16)]], 2, 3⟩, 1099511627776, 5132252,
    22308940604225741501767443781257213893789008092997314530242491282242897490836817378816745, lc0⟩) (.sx (.leaf
    ⟨2515, 16, 158, 6470, 16, 1130, ⟨[[(912159244449792, 0)], [(0, 574327699745538)]], 2, 3⟩, ⟨[[(0,
    374584639082496), (350613533357456, 0), (23340687347, 0), (5434198, 0)], [(59577471752130, 0), (19382508182, 0),
    (6575951, 0), (1975, 0)], [(3293327044, 0), (2509276, 0), (1183, 0)]], 2, 3⟩, 4503599627370496, 318,
    2098812236015, ⟨[[(680697609094868, 0), (66984684157, 0), (0, 61326127), (0, 56964)], [(6743561761, 0),
    (13693545, 0), (21774, 0), (28, 0)], [(0, 447571), (0, 1692), (0, 4)]], 2, 3⟩, 1099511627776, 3175411,
    36348707749673267444452282344489750696326353159297393411697558268197134358696841022151277, lc0⟩) (.sy (.leaf
    ⟨2484, 16, 158, 11760, 16, 2055, ⟨[[(1536444354514944, 0)], [(0, 574327699745538)]], 2, 3⟩, ⟨[[(0,
    2226060947423232), (319354940018624, 0), (10685922058, 0), (1249663, 0)], [(108156819282458, 0), (17680825012,
    0), (3014192, 0), (454, 0)], [(5991715288, 0), (2293319, 0), (542, 0)]], 2, 3⟩, 4503599627370496, 301,
    1294662187997, ⟨[[(680259060625480, 0), (36831924226, 0), (0, 18569019), (0, 9515)], [(6724321462, 0), (7505291,
    0), (6562, 0), (5, 0)], [(0, 444726), (0, 925), (0, 1)]], 2, 3⟩, 1099511627776, 434220,
    36182302439905198104120585463376572593320343360492584356583344818563861568870383696997845, lc0⟩) (.sy (.leaf
    ⟨2484, 16, 158, 19327, 16, 3372, ⟨[[(1536444354514944, 0)], [(0, 574327699745538)]], 2, 3⟩, ⟨[[(0,
    1306339447341056), (266833967021489, 0), (4811416331, 0), (287630, 0)], [(185442294685171, 0), (15884665533, 0),
    (1392815, 0), (106, 0)], [(10883525151, 0), (2130976, 0), (253, 0)]], 2, 3⟩, 4503599627370496, 301,
    2015109959555, ⟨[[(680932781430514, 0), (22022580649, 0), (0, 7095552), (0, 2223)], [(6865176173, 0), (4724606,
    0), (2536, 0), (1, 0)], [(0, 462172), (0, 588)]], 2, 3⟩, 1099511627776, 215108,
    43836253100024173184920138677385774058561905996429084220176177256699050208159521093039744, lc0⟩) (.sx (.leaf
    ⟨5000, 16, 317, 22890, 16, 3990, ⟨[[(0, 515579693961216)], [(0, 576145192466252)]], 2, 3⟩, ⟨[[(2080389297831936,
    0), (318651468294834, 0), (5957952642, 0), (359593, 0)], [(112279995721898, 0), (9834440608, 0), (873001, 0),
    (66, 0)], [(3389412569, 0), (670109, 0), (80, 0)]], 2, 3⟩, 4503599627370496, 650, 333717256469,
    ⟨[[(681375208520727, 0), (18431326936, 0), (0, 5137515), (0, 1362)], [(3459855795, 0), (2024101, 0), (921, 0)],
    [(0, 117219), (0, 126)]], 2, 3⟩, 1099511627776, 69170,
    43974997717934085690303379239143398317791123028654668436646505421677591509688507405116850, lc0⟩) (.skip)))))))
theorem c28 : checkC job ⟨6, 8, 5, 6, 9, 13⟩ 1 40 B1.zlims t28 15635 121 2560 29747 175 30336 = true := by decide +kernel

def t29 : CTree :=
  .sy (.leaf ⟨655, 16, 39, 4899, 16, 854, ⟨[[(543607344865280, 0)], [(0, 567057728862683)]], 2, 3⟩,
    ⟨[[(1150122232881152, 0), (261345066093824, 0), (16553080274, 0), (3743222, 0)], [(178860767376597, 0),
    (55993398571, 0), (18375669, 0), (5425, 0)], [(38390718526, 0), (28380639, 0), (13180, 0), (4, 0)]], 2, 3⟩,
    4503599627370496, 214, 38001944507006, ⟨[[(682460492789249, 0), (89171952545, 0), (0, 105698271), (0, 127797)],
    [(27496311440, 0), (73743534, 0), (154848, 0), (266, 0)], [(0, 7467943), (0, 37292), (0, 103)]], 2, 3⟩,
    1099511627776, 19232251,
    43803477152719312037951833888368836143362400822317669232972996134284942623894231486121565, lc0⟩) (.sx (.leaf
    ⟨1342, 16, 79, 5654, 16, 982, ⟨[[(2116995290074112, 0)], [(0, 574327699745538)]], 2, 3⟩, ⟨[[(1928727334178816,
    0), (310809054285290, 0), (22638435166, 0), (5328956, 0)], [(112174261495588, 0), (38252948256, 0), (13222282,
    0), (3957, 0)], [(13432779609, 0), (10353905, 0), (4854, 0), (2, 0)]], 2, 3⟩, 4503599627370496, 719,
    7619376247896, ⟨[[(684248794658979, 0), (74642027869, 0), (0, 84401307), (0, 89020)], [(14195473474, 0),
    (33906736, 0), (62828, 0), (94, 0)], [(0, 1978751), (0, 8658), (0, 21)]], 2, 3⟩, 1099511627776, 6776650,
    26315613213980610539216217745743864354466600822111429488361057397324419254022420576188855, lc0⟩) (.sy (.leaf
    ⟨1312, 16, 79, 9282, 16, 1612, ⟨[[(0, 1762319227232256)], [(0, 574327699745538)]], 2, 3⟩, ⟨[[(238138236657664,
    0), (259593308843999, 0), (10066155696, 0), (1212898, 0)], [(189514564472746, 0), (33718716859, 0), (5992468, 0),
    (906, 0)], [(23717580502, 0), (9359974, 0), (2213, 0)]], 2, 3⟩, 4503599627370496, 334, 9960160860352,
    ⟨[[(683851998052770, 0), (44801957344, 0), (0, 32070836), (0, 20803)], [(14329447224, 0), (21007192, 0), (23827,
    0), (22, 0)], [(0, 2009106), (0, 5372), (0, 8)]], 2, 3⟩, 1099511627776, 2085749,
    37334182659890363474323558014236116367660662667114191890098086458322496297170036358157355, lc0⟩) (.sx (.leaf
    ⟨2639, 16, 158, 10956, 16, 1899, ⟨[[(0, 1584981195812864)], [(0, 574327699745538)]], 2, 3⟩, ⟨[[(0,
    1993113444294656), (311984935753864, 0), (12990987734, 0), (1593466, 0)], [(117126435961486, 0), (21769329266,
    0), (3956820, 0), (601, 0)], [(7744668980, 0), (3110292, 0), (737, 0)]], 2, 3⟩, 4503599627370496, 1677,
    1799579804582, ⟨[[(684766744051736, 0), (37161571817, 0), (0, 23809241), (0, 13137)], [(7344062410, 0), (9257570,
    0), (8981, 0), (7, 0)], [(0, 525600), (0, 1198), (0, 1)]], 2, 3⟩, 1099511627776, 614803,
    37689537656324667416414531790701422033591573603503003257746377659005070680495172890363201, lc0⟩) (.sy (.leaf
    ⟨2608, 16, 158, 18017, 16, 3123, ⟨[[(0, 960696085745664)], [(0, 574327699745538)]], 2, 3⟩, ⟨[[(1690868511129600,
    0), (259042634784939, 0), (5568269071, 0), (345242, 0)], [(195711708617318, 0), (18585002120, 0), (1710763, 0),
    (130, 0)], [(13232064499, 0), (2685578, 0), (319, 0)]], 2, 3⟩, 4503599627370496, 367, 2607673708590,
    ⟨[[(684523159426332, 0), (22433835059, 0), (0, 8900707), (0, 3000)], [(7372865517, 0), (5669974, 0), (3352, 0),
    (2, 0)], [(0, 528772), (0, 734), (0, 1)]], 2, 3⟩, 1099511627776, 284167,
    45539468447255604753039893729164064304193080351329982849815571645035529048492232159874620, lc0⟩) (.sx (.leaf
    ⟨5248, 16, 317, 21546, 16, 3731, ⟨[[(0, 1991194667180032)], [(0, 576145192466252)]], 2, 3⟩, ⟨[[(368205978632192,
    0), (312865717562368, 0), (6970250964, 0), (435766, 0)], [(119903359424549, 0), (11637798922, 0), (1082411, 0),
    (83, 0)], [(4166096359, 0), (852252, 0), (101, 0)]], 2, 3⟩, 4503599627370496, 1404, 434047303951,
    ⟨[[(684979231828041, 0), (18546507157, 0), (0, 6331547), (0, 1789)], [(3721718707, 0), (2411326, 0), (1198, 0)],
    [(0, 134430), (0, 156)]], 2, 3⟩, 1099511627776, 92394,
    45734045823384543987186117266814437418437370511728645329386498753648260904670836943784331, lc0⟩) (.sy (.leaf
    ⟨5217, 16, 317, 35476, 16, 6143, ⟨[[(0, 1806742795530240)], [(0, 576145192466252)]], 2, 3⟩, ⟨[[(0,
    1288684790972416), (258888890893691, 0), (2930571486, 0), (92087, 0)], [(199077607910164, 0), (9766525025, 0),
    (456962, 0), (17, 0)], [(6994386969, 0), (719039, 0), (43, 0)]], 2, 3⟩, 4503599627370496, 1306, 669528028665,
    ⟨[[(684875387568324, 0), (11213991701, 0), (0, 2350595), (0, 404)], [(3731596773, 0), (1471364, 0), (444, 0)],
    [(0, 134999), (0, 95)]], 2, 3⟩, 1099511627776, 39166,
    49855499259131056705892769598923103892525272244770202609827114954542915750064700613250401, lc0⟩) (.sx (.leaf
    ⟨10449, 16, 634, 42721, 16, 7394, ⟨[[(0, 1453911713202176)], [(0, 576145192466252)]], 2, 3⟩,
    ⟨[[(1180660746518528, 0), (313389436609744, 0), (3611613358, 0), (113941, 0)], [(121375308974944, 0),
    (6019867292, 0), (283058, 0), (11, 0)], [(2161520085, 0), (223042, 0), (13, 0)]], 2, 3⟩, 4503599627370496, 3304,
    106596168374, ⟨[[(685093302459168, 0), (9259324329, 0), (0, 1634441), (0, 234)], [(1877331188, 0), (616917, 0),
    (155, 0)], [(0, 34129), (0, 20)]], 2, 3⟩, 1099511627776, 9105,
    49948913263267496763904650037895104500756058588851613339644059654545574156630293347416981, lc0⟩) (.skip))))))))
theorem c29 : checkC job ⟨6, 8, 5, 6, 9, 13⟩ 1 40 B1.zlims t29 31149 121 5120 30097 175 30336 = true := by decide +kernel

def t30 : CTree :=
  .sy (.sx (.sy (.leaf ⟨1281, 16, 79, 9602, 16, 1673, ⟨[[(0, 1138034117166080)], [(0, 574327699745538)]], 2, 3⟩,
    ⟨[[(563677915250688, 0), (263562091714897, 0), (9370356535, 0), (1107696, 0)], [(184688724369904, 0),
    (31228072299, 0), (5409499, 0), (815, 0)], [(21543600764, 0), (8339936, 0), (1970, 0)]], 2, 3⟩, 4503599627370496,
    686, 8761546611419, ⟨[[(682047779080206, 0), (44384605103, 0), (0, 28724412), (0, 17992)], [(13833828411, 0),
    (19210909, 0), (20786, 0), (18, 0)], [(0, 1879529), (0, 4819), (0, 7)]], 2, 3⟩, 1099511627776, 1853569,
    36544636785536178984006799517833521636958875373338382039620653170274525946513731576228921, lc0⟩) (.sx (.leaf
    ⟨2577, 16, 158, 11288, 16, 1963, ⟨[[(0, 336410975680512)], [(0, 574327699745538)]], 2, 3⟩, ⟨[[(0,
    701370049314816), (314981161821133, 0), (12029606733, 0), (1449407, 0)], [(113450073514591, 0), (20044680615, 0),
    (3558119, 0), (539, 0)], [(6996996066, 0), (2761409, 0), (654, 0)]], 2, 3⟩, 4503599627370496, 350, 1582783067218,
    ⟨[[(682960496096889, 0), (37038965892, 0), (0, 21480767), (0, 11490)], [(7082368647, 0), (8487848, 0), (7886, 0),
    (6, 0)], [(0, 491001), (0, 1077), (0, 1)]], 2, 3⟩, 1099511627776, 527892,
    36797537235945096914873757065897364414302459407890256389199543325577486480661841042500273, lc0⟩) (.sy (.leaf
    ⟨2546, 16, 158, 18683, 16, 3249, ⟨[[(287874134382592, 0)], [(0, 574327699745538)]], 2, 3⟩, ⟨[[(0,
    1245099347951616), (262975188588432, 0), (5181273488, 0), (315702, 0)], [(190526683615258, 0), (17192942863, 0),
    (1546645, 0), (118, 0)], [(12011992026, 0), (2397370, 0), (285, 0)]], 2, 3⟩, 4503599627370496, 1727,
    2297663253066, ⟨[[(682740662162782, 0), (22218681155, 0), (0, 7931119), (0, 2575)], [(7112959359, 0), (5168807,
    0), (2908, 0), (1, 0)], [(0, 494360), (0, 656)]], 2, 3⟩, 1099511627776, 254555,
    44586248409474481570866208144937548098851660191314005224247849961721492341261388168440691, lc0⟩) (.sx (.leaf
    ⟨5124, 16, 317, 22235, 16, 3863, ⟨[[(0, 1253387180572672)], [(0, 576145192466252)]], 2, 3⟩, ⟨[[(0,
    1133801773744128), (315819883991992, 0), (6451088476, 0), (396601, 0)], [(116040763560379, 0), (10705768938, 0),
    (974032, 0), (74, 0)], [(3761599685, 0), (757360, 0), (90, 0)]], 2, 3⟩, 4503599627370496, 1076, 381423208142,
    ⟨[[(683192498113789, 0), (18481563280, 0), (0, 5692294), (0, 1556)], [(3587809316, 0), (2206449, 0), (1048, 0)],
    [(0, 125546), (0, 140)]], 2, 3⟩, 1099511627776, 77637,
    44807747156385687496105247692486652376078093861238857554774863916011106191349595728394018, lc0⟩) (.skip))))) (.sy
    (.sx (.sy (.leaf ⟨2515, 16, 158, 19008, 16, 3311, ⟨[[(912159244449792, 0)], [(0, 574327699745538)]], 2, 3⟩,
    ⟨[[(423508446281728, 0), (264922073717591, 0), (4994247117, 0), (301481, 0)], [(187976524675375, 0),
    (16528622003, 0), (1468452, 0), (112, 0)], [(11436646516, 0), (2261492, 0), (269, 0)]], 2, 3⟩, 4503599627370496,
    318, 2153010017878, ⟨[[(681829758516932, 0), (22124475044, 0), (0, 7494284), (0, 2389)], [(6985332826, 0),
    (4937454, 0), (2712, 0), (1, 0)], [(0, 477712), (0, 621)]], 2, 3⟩, 1099511627776, 234864,
    44162541052220902905286130562778533503672040104654428318129725940221969578850178684591210, lc0⟩) (.sx (.leaf
    ⟨5062, 16, 317, 22566, 16, 3927, ⟨[[(0, 884483437268992)], [(0, 576145192466252)]], 2, 3⟩, ⟨[[(0,
    50277421285376), (317238936133576, 0), (6200910259, 0), (377801, 0)], [(114142633722826, 0), (10262030366, 0),
    (922545, 0), (70, 0)], [(3571350131, 0), (712750, 0), (85, 0)]], 2, 3⟩, 4503599627370496, 2289, 356870796065,
    ⟨[[(682287388647205, 0), (18455510680, 0), (0, 5405564), (0, 1455)], [(3523072312, 0), (2112701, 0), (982, 0)],
    [(0, 121312), (0, 133)]], 2, 3⟩, 1099511627776, 72955,
    44353101356527109423395188510110025694710198693512301394128515087006047176987858741934972, lc0⟩) (.skip)))
    (.skip)) (.skip))) (.sx (.sy (.sx (.sy (.leaf ⟨2577, 16, 158, 18356, 16, 3187, ⟨[[(0, 336410975680512)], [(0,
    574327699745538)]], 2, 3⟩, ⟨[[(1487081855729664, 0), (261071187424355, 0), (5373841554, 0), (330367, 0)],
    [(193147208195041, 0), (17882392514, 0), (1627790, 0), (124, 0)], [(12613187278, 0), (2539296, 0), (302, 0)]], 2,
    3⟩, 4503599627370496, 350, 2449448773665, ⟨[[(683627063036680, 0), (22325326730, 0), (0, 8391229), (0, 2775)],
    [(7239409370, 0), (5408399, 0), (3117, 0), (1, 0)], [(0, 511031), (0, 693), (0, 1)]], 2, 3⟩, 1099511627776,
    276644, 45063069648966252764241516995776989803828706698340710289317078145296761511559873352583903, lc0⟩) (.sx
    (.leaf ⟨5186, 16, 317, 21897, 16, 3798, ⟨[[(0, 1622290923876352)], [(0, 576145192466252)]], 2, 3⟩, ⟨[[(0,
    1291057309728768), (314391295256034, 0), (6708257129, 0), (415970, 0)], [(117972512831474, 0), (11165491870, 0),
    (1027432, 0), (78, 0)], [(3960217364, 0), (803940, 0), (96, 0)]], 2, 3⟩, 4503599627370496, 191, 407238194755,
    ⟨[[(684091010284146, 0), (18509349068, 0), (0, 5999537), (0, 1666)], [(3654167962, 0), (2305789, 0), (1120, 0)],
    [(0, 129927), (0, 148)]], 2, 3⟩, 1099511627776, 85403,
    45289319215328338605018520815593133429138051795447847441777082221163646929257462988545436, lc0⟩) (.sy (.leaf
    ⟨5155, 16, 317, 36161, 16, 6272, ⟨[[(0, 1437839052226560)], [(0, 576145192466252)]], 2, 3⟩, ⟨[[(0,
    2108007734542336), (260864853867733, 0), (2827768656, 0), (88143, 0)], [(196386355718829, 0), (9394207933, 0),
    (434939, 0), (17, 0)], [(6666001425, 0), (680153, 0), (41, 0)]], 2, 3⟩, 4503599627370496, 2518, 629327503403,
    ⟨[[(683981997625916, 0), (11163196381, 0), (0, 2213163), (0, 373)], [(3662788856, 0), (1402166, 0), (413, 0)],
    [(0, 130411), (0, 90)]], 2, 3⟩, 1099511627776, 34559,
    49396884193679965270889894808591639016059150953013271772325566172360924964941118545295751, lc0⟩) (.skip)))) (.sy
    (.sx (.sy (.leaf ⟨5124, 16, 317, 36499, 16, 6336, ⟨[[(0, 1253387180572672)], [(0, 576145192466252)]], 2, 3⟩,
    ⟨[[(1162612617117696, 0), (261846155380599, 0), (2777108421, 0), (86203, 0)], [(195048930061693, 0), (9211903651,
    0), (424160, 0), (16, 0)], [(6506182578, 0), (661221, 0), (39, 0)]], 2, 3⟩, 4503599627370496, 1076, 609756510760,
    ⟨[[(683525127025474, 0), (11141470584, 0), (0, 2147621), (0, 359)], [(3628090148, 0), (1368623, 0), (398, 0)],
    [(0, 128116), (0, 88)]], 2, 3⟩, 1099511627776, 36028,
    49141424140310374622586182695624461439849292764258258883996890372847489974604507595737002, lc0⟩) (.skip))
    (.skip)) (.skip))) (.sx (.sy (.sx (.sy (.leaf ⟨5186, 16, 317, 35821, 16, 6208, ⟨[[(0, 1622290923876352)], [(0,
    576145192466252)]], 2, 3⟩, ⟨[[(1241050073595904, 0), (259893244653467, 0), (2879086421, 0), (90110, 0)],
    [(197740152382768, 0), (9579619791, 0), (445899, 0), (17, 0)], [(6829114662, 0), (699465, 0), (42, 0)]], 2, 3⟩,
    4503599627370496, 191, 649019955297, ⟨[[(684421747623890, 0), (11190918745, 0), (0, 2279476), (0, 388)],
    [(3695976221, 0), (1435544, 0), (428, 0)], [(0, 132621), (0, 93)]], 2, 3⟩, 1099511627776, 35340,
    49638186125620163608863116121431206913166574090653795275709044860317651421293473744471852, lc0⟩) (.sx (.leaf
    ⟨10387, 16, 634, 43072, 16, 7461, ⟨[[(0, 1085007969894400)], [(0, 576145192466252)]], 2, 3⟩,
    ⟨[[(1979902272569344, 0), (314095096004032, 0), (3542592562, 0), (111328, 0)], [(120361393841015, 0),
    (5895224677, 0), (275797, 0), (11, 0)], [(2107131638, 0), (216652, 0), (13, 0)]], 2, 3⟩, 4503599627370496, 421,
    103323994914, ⟨[[(684644682130015, 0), (9253920807, 0), (0, 1590056), (0, 225)], [(1859601399, 0), (602910, 0),
    (150, 0)], [(0, 33535), (0, 20)]], 2, 3⟩, 1099511627776, 11066,
    49747868198938682573945558251061451085186471677084128571443634658842405292358902302616141, lc0⟩) (.skip)))
    (.skip)) (.skip)) (.skip))) (.skip))
theorem c30 : checkC job ⟨6, 8, 5, 6, 9, 13⟩ 1 40 B1.zlims t30 31391 121 5120 30097 175 30336 = true := by decide +kernel

def t31 : CTree :=
  .sx (.sy (.sx (.leaf ⟨594, 16, 39, 3340, 16, 593, ⟨[[(807243844926976, 0)], [(0, 567057728862683)]], 2, 3⟩, ⟨[[(0,
    498609197711360), (327043407139071, 0), (22521043301, 0), (8340507, 0)], [(88293960364827, 0), (38896611790, 0),
    (19102380, 0), (10046, 0)], [(11711611669, 0), (13518118, 0), (11459, 0), (8, 0)]], 2, 3⟩, 4503599627370496, 136,
    16250733936180, ⟨[[(672414852212494, 0), (146945995010, 0), (0, 172576429), (0, 300723)], [(22600983348, 0),
    (78457148, 0), (220987, 0), (532, 0)], [(0, 5081828), (0, 35051), (0, 139)]], 2, 3⟩, 1099511627776, 36482886,
    22417611755958726073693804619296530649157576724770573449738904196613209454860002292132418, lc0⟩) (.sx (.leaf
    ⟨1157, 16, 79, 3552, 16, 630, ⟨[[(1359106323094528, 0)], [(0, 574327699745538)]], 2, 3⟩, ⟨[[(703506272415744, 0),
    (355460366808229, 0), (28050269389, 0), (11092229, 0)], [(49329967758279, 0), (23589119107, 0), (12691982, 0),
    (7039, 0)], [(3599073676, 0), (4516921, 0), (4013, 0), (3, 0)]], 2, 3⟩, 4503599627370496, 621, 8894958835956,
    ⟨[[(672386400734500, 0), (135468680285, 0), (0, 160282989), (0, 266246)], [(11408308926, 0), (37934583, 0),
    (101941, 0), (233, 0)], [(0, 1290595), (0, 8448), (0, 32)]], 2, 3⟩, 1099511627776, 25713963,
    30498416498385748437782082023781144123676694875522728390800758867650677241612754938941705, lc0⟩) (.sy (.leaf
    ⟨1126, 16, 79, 6578, 16, 1168, ⟨[[(1983391433159680, 0)], [(0, 574327699745538)]], 2, 3⟩, ⟨[[(0,
    1508994204979200), (330230628795362, 0), (13070571681, 0), (2606998, 0)], [(90849260205324, 0), (21827936896, 0),
    (5923884, 0), (1655, 0)], [(6618282043, 0), (4190282, 0), (1875, 0), (1, 0)]], 2, 3⟩, 4503599627370496, 604,
    2901696351312, ⟨[[(671500582874494, 0), (73117999436, 0), (0, 46630808), (0, 42008)], [(11339050287, 0),
    (20310717, 0), (29429, 0), (36, 0)], [(0, 1272728), (0, 4491), (0, 9)]], 2, 3⟩, 1099511627776, 2836939,
    33873911235056716331622381350927819667387246717994025602927282255078196444237627810098088, lc0⟩) (.sx (.leaf
    ⟨2268, 16, 158, 6975, 16, 1234, ⟨[[(1402840497600512, 0)], [(0, 574327699745538)]], 2, 3⟩, ⟨[[(2089648218095616,
    0), (357990502445775, 0), (16654475503, 0), (3525130, 0)], [(51925610247312, 0), (13721536550, 0), (4057512, 0),
    (1176, 0)], [(2142197102, 0), (1461557, 0), (674, 0)]], 2, 3⟩, 4503599627370496, 187, 1252849491725,
    ⟨[[(673318716007354, 0), (67188227834, 0), (0, 44347999), (0, 37980)], [(5910317425, 0), (10272237, 0), (14334,
    0), (17, 0)], [(0, 345339), (0, 1166), (0, 2)]], 2, 3⟩, 1099511627776, 1928429,
    40830909336541191547877851912017075611288352645272294384218079153387214896225052453980961, lc0⟩) (.skip))))) (.sx
    (.sx (.leaf ⟨1219, 16, 79, 3450, 16, 608, ⟨[[(110536102963200, 0)], [(0, 574327699745538)]], 2, 3⟩, ⟨[[(0,
    1237711347253248), (351835767031835, 0), (33010412833, 0), (13749740, 0)], [(52606680439825, 0), (27700936022,
    0), (16156583, 0), (9235, 0)], [(4414733686, 0), (5932519, 0), (5393, 0), (4, 0)]], 2, 3⟩, 4503599627370496, 383,
    11328924058874, ⟨[[(676151821561903, 0), (135056551417, 0), (0, 185168200), (0, 317339)], [(12146777636, 0),
    (43262165, 0), (123164, 0), (294, 0)], [(0, 1464196), (0, 10071), (0, 39)]], 2, 3⟩, 1099511627776, 31920846,
    25075577168677160794090267150444935415062904267792226268908246820203701417132656611366002, lc0⟩) (.sy (.leaf
    ⟨1188, 16, 79, 6353, 16, 1121, ⟨[[(734821213028352, 0)], [(0, 574327699745538)]], 2, 3⟩, ⟨[[(38066666045440, 0),
    (325183601736410, 0), (15349213655, 0), (3226394, 0)], [(96452035907350, 0), (25569378349, 0), (7529705, 0),
    (2167, 0)], [(8101168209, 0), (5495852, 0), (2515, 0), (1, 0)]], 2, 3⟩, 4503599627370496, 400, 3870135008223,
    ⟨[[(675194766721560, 0), (73391303738, 0), (0, 54379427), (0, 50833)], [(12051473110, 0), (23227925, 0), (35829,
    0), (46, 0)], [(0, 1439220), (0, 5366), (0, 11)]], 2, 3⟩, 1099511627776, 3562540,
    27149504555557436939044559212802413575185903590271560430105598411474267902112719008045647, lc0⟩) (.sx (.leaf
    ⟨2392, 16, 158, 6741, 16, 1185, ⟨[[(0, 1094299942660096)], [(0, 574327699745538)]], 2, 3⟩, ⟨[[(1811204138328064,
    0), (354491658652562, 0), (19747772128, 0), (4395030, 0)], [(55597483334430, 0), (16297565795, 0), (5190202, 0),
    (1537, 0)], [(2656939748, 0), (1926013, 0), (901, 0)]], 2, 3⟩, 4503599627370496, 252, 1633989852813,
    ⟨[[(677020035229706, 0), (67069947742, 0), (0, 51773404), (0, 46016)], [(6301657406, 0), (11791833, 0), (17506,
    0), (22, 0)], [(0, 392301), (0, 1398), (0, 3)]], 2, 3⟩, 1099511627776, 2448246,
    37129105379830736003741388651702301630254868473140552516678131544152713924975154905079007, lc0⟩) (.sy (.leaf
    ⟨2361, 16, 158, 12326, 16, 2168, ⟨[[(0, 470014832594944)], [(0, 574327699745538)]], 2, 3⟩, ⟨[[(2191228641804288,
    0), (324718590123174, 0), (9078356950, 0), (1014794, 0)], [(101457710575593, 0), (14929116263, 0), (2388596, 0),
    (355, 0)], [(4853549976, 0), (1767329, 0), (415, 0)]], 2, 3⟩, 4503599627370496, 236, 975703955360,
    ⟨[[(676571950836321, 0), (36673659814, 0), (0, 15473642), (0, 7539)], [(6281498538, 0), (6420423, 0), (5209, 0),
    (4, 0)], [(0, 389504), (0, 759), (0, 1)]], 2, 3⟩, 1099511627776, 361818,
    37704563364225348813977918273379470374121557266675936652942218268352889528493213145987219, lc0⟩) (.sx (.leaf
    ⟨4752, 16, 317, 13308, 16, 2336, ⟨[[(960035279257600, 0)], [(0, 576145192466252)]], 2, 3⟩, ⟨[[(0,
    1802274411339776), (356068376706512, 0), (10840995385, 0), (1245216, 0)], [(57283791706380, 0), (8883778149, 0),
    (1473892, 0), (221, 0)], [(1464640063, 0), (549555, 0), (130, 0)]], 2, 3⟩, 4503599627370496, 159, 274727482996,
    ⟨[[(677524395944194, 0), (33353810857, 0), (0, 13788032), (0, 6254)], [(3209163149, 0), (3087540, 0), (2346, 0),
    (1, 0)], [(0, 101433), (0, 184)]], 2, 3⟩, 1099511627776, 217249,
    43893629082950911982202500613842612067571148165345802451760146867182330889352057133607405, lc0⟩) (.skip))))))
    (.sy (.sx (.sx (.leaf ⟨2330, 16, 158, 6862, 16, 1210, ⟨[[(154270277470208, 0)], [(0, 574327699745538)]], 2, 3⟩,
    ⟨[[(0, 1544917331787776), (356214076547320, 0), (18136740300, 0), (3938591, 0)], [(53712575820006, 0),
    (14946060414, 0), (4592684, 0), (1347, 0)], [(2384933385, 0), (1679531, 0), (781, 0)]], 2, 3⟩, 4503599627370496,
    219, 1433057800530, ⟨[[(675227213007163, 0), (67055609045, 0), (0, 47961570), (0, 41829)], [(6109497099, 0),
    (11019856, 0), (15862, 0), (19, 0)], [(0, 368955), (0, 1280), (0, 3)]], 2, 3⟩, 1099511627776, 2175671,
    38628761475733338218255290478447619724268882401381935179417745799247835188540110178174050, lc0⟩) (.sy (.leaf
    ⟨2299, 16, 158, 12587, 16, 2221, ⟨[[(778555387535360, 0)], [(0, 574327699745538)]], 2, 3⟩, ⟨[[(1825718343163904,
    0), (327323464800972, 0), (8357523250, 0), (911495, 0)], [(98306484005833, 0), (13724316528, 0), (2118428, 0),
    (312, 0)], [(4366886161, 0), (1544650, 0), (360, 0)]], 2, 3⟩, 4503599627370496, 203, 842394928948,
    ⟨[[(674729097749600, 0), (36586856429, 0), (0, 14209110), (0, 6769)], [(6081646180, 0), (5967273, 0), (4676, 0),
    (3, 0)], [(0, 365343), (0, 690), (0, 1)]], 2, 3⟩, 1099511627776, 305192,
    39566557819090574990476230234778841097228235735013480784718497243068119351242731226592775, lc0⟩) (.sx (.leaf
    ⟨4628, 16, 317, 13560, 16, 2388, ⟨[[(1697842765869056, 0)], [(0, 576145192466252)]], 2, 3⟩, ⟨[[(0,
    65299849707520), (357614286064505, 0), (9936510731, 0), (1114752, 0)], [(55258717675450, 0), (8123428883, 0),
    (1303176, 0), (194, 0)], [(1311195609, 0), (479031, 0), (113, 0)]], 2, 3⟩, 4503599627370496, 1568, 239777983008,
    ⟨[[(675672293313408, 0), (33407870496, 0), (0, 12701178), (0, 5643)], [(3103228930, 0), (2870796, 0), (2111, 0),
    (1, 0)], [(0, 94964), (0, 168)]], 2, 3⟩, 1099511627776, 183416,
    44879801126524625153033230638358148543768840628216314826046694214480458740884415359959553, lc0⟩) (.skip))))
    (.skip)) (.skip)))) (.sy (.sx (.sy (.sx (.sx (.leaf ⟨2207, 16, 158, 7077, 16, 1256, ⟨[[(0, 1852188909639680)],
    [(0, 574327699745538)]], 2, 3⟩, ⟨[[(1049521998299136, 0), (359525745826573, 0), (15281120444, 0), (3149909, 0)],
    [(50190426837771, 0), (12604512374, 0), (3577565, 0), (1022, 0)], [(1924591967, 0), (1268694, 0), (579, 0)]], 2,
    3⟩, 4503599627370496, 154, 1091306567616, ⟨[[(671473880712051, 0), (67288881457, 0), (0, 41254751), (0, 34768)],
    [(5730837399, 0), (9626495, 0), (13054, 0), (15, 0)], [(0, 324509), (0, 1069), (0, 2)]], 2, 3⟩, 1099511627776,
    1705850, 43637347754410569579556706446558728749310936084895466631850088044414142832761382499432725, lc0⟩)
    (.skip)) (.skip)) (.skip)) (.skip)) (.skip))
theorem c31 : checkC job ⟨6, 8, 5, 6, 9, 13⟩ 1 40 B1.zlims t31 7999 121 1280 14611 175 15168 = true := by decide +kernel

def t32 : CTree :=
  .sx (.sy (.sx (.sy (.sx (.sx (.leaf ⟨2453, 16, 158, 6609, 16, 1158, ⟨[[(2160729464580096, 0)], [(0,
    574327699745538)]], 2, 3⟩, ⟨[[(0, 237398874656768), (352525816705246, 0), (21475813488, 0), (4892089, 0)],
    [(57536316080880, 0), (17769724610, 0), (5848967, 0), (1746, 0)], [(2958275534, 0), (2201436, 0), (1035, 0)]], 2,
    3⟩, 4503599627370496, 285, 1855055687617, ⟨[[(678875478522853, 0), (67002558985, 0), (0, 56315457), (0, 51142)],
    [(6519518602, 0), (12702524, 0), (19508, 0), (25, 0)], [(0, 419247), (0, 1538), (0, 3)]], 2, 3⟩, 1099511627776,
    2768874, 36376271638633962901394595451275222045879223195888169496539305989274683405611800673511647, lc0⟩) (.sy
    (.leaf ⟨2423, 16, 158, 12052, 16, 2113, ⟨[[(0, 1718585052725248)], [(0, 574327699745538)]], 2, 3⟩,
    ⟨[[(2068778811850752, 0), (322115162983268, 0), (9855813672, 0), (1127679, 0)], [(104757899371845, 0),
    (16249086638, 0), (2687321, 0), (402, 0)], [(5394909058, 0), (2016736, 0), (475, 0)]], 2, 3⟩, 4503599627370496,
    268, 1126447248089, ⟨[[(678407397350376, 0), (36762680265, 0), (0, 16901480), (0, 8435)], [(6492993830, 0),
    (6925017, 0), (5825, 0), (4, 0)], [(0, 415614), (0, 836), (0, 1)]], 2, 3⟩, 1099511627776, 367515,
    36572141193491443479476601810540939754142465789403291443568915515486251272110443636855061, lc0⟩) (.sx (.leaf
    ⟨4876, 16, 317, 13031, 16, 2280, ⟨[[(222227792650240, 0)], [(0, 576145192466252)]], 2, 3⟩, ⟨[[(0,
    1204171159093248), (354304039532397, 0), (11811711432, 0), (1386999, 0)], [(59375421493125, 0), (9712342176, 0),
    (1661746, 0), (251, 0)], [(1634639246, 0), (628202, 0), (149, 0)]], 2, 3⟩, 4503599627370496, 2321, 313200123955,
    ⟨[[(679347823081552, 0), (33335860163, 0), (0, 15022156), (0, 6971)], [(3319543873, 0), (3328290, 0), (2618, 0),
    (2, 0)], [(0, 108319), (0, 203)]], 2, 3⟩, 1099511627776, 233025,
    43629944028287697233962468482529079039477111880085611917125243068669671048951317183250154, lc0⟩) (.skip)))) (.sy
    (.sx (.sx (.leaf ⟨4814, 16, 317, 13169, 16, 2308, ⟨[[(591131535953920, 0)], [(0, 576145192466252)]], 2, 3⟩,
    ⟨[[(1738844684820480, 0), (355137377650406, 0), (11315643093, 0), (1314414, 0)], [(58308885377212, 0),
    (9287415933, 0), (1565318, 0), (236, 0)], [(1547183103, 0), (587714, 0), (139, 0)]], 2, 3⟩, 4503599627370496,
    1109, 293355788970, ⟨[[(678413508486147, 0), (33369919572, 0), (0, 14375827), (0, 6594)], [(3261272283, 0),
    (3201517, 0), (2474, 0), (2, 0)], [(0, 104671), (0, 193)]], 2, 3⟩, 1099511627776, 226778,
    43673685829180713470448409609363898436837462483218439514706900376226563940337057333193498, lc0⟩) (.skip))
    (.skip)) (.skip))) (.sx (.sy (.sx (.sy (.leaf ⟨2453, 16, 158, 19639, 16, 3432, ⟨[[(2160729464580096, 0)], [(0,
    574327699745538)]], 2, 3⟩, ⟨[[(0, 1807604938162176), (268714371971197, 0), (4633059972, 0), (274171, 0)],
    [(182929190126580, 0), (15261703006, 0), (1319818, 0), (100, 0)], [(10352782993, 0), (2005888, 0), (238, 0)]], 2,
    3⟩, 4503599627370496, 285, 1883502735267, ⟨[[(680026976906583, 0), (21928474118, 0), (0, 6724324), (0, 2072)],
    [(6747195035, 0), (4523437, 0), (2373, 0), (1, 0)], [(0, 447066), (0, 557)]], 2, 3⟩, 1099511627776, 197972,
    43640564025923052767974748254430718020908498668400807553045135318644015466120101258175740, lc0⟩) (.skip))
    (.skip)) (.skip)) (.skip))) (.skip)) (.skip)) (.skip)
theorem c32 : checkC job ⟨6, 8, 5, 6, 9, 13⟩ 1 40 B1.zlims t32 7999 121 1280 14961 175 15168 = true := by decide +kernel

def t33 : CTree :=
  .sx (.sy (.leaf ⟨98, 16, 9, 1770, 16, 340, ⟨[[(1999140837715328, 0)], [(0, 523437903565554)]], 2, 3⟩,
    ⟨[[(1840962206445568, 0), (336918764121528, 0), (0, 1269895978), (3660883, 0)], [(80121712966795, 0),
    (30530474882, 0), (10710860, 0), (3921, 0)], [(11506180230, 0), (10660117, 0), (6575, 0), (3, 0)]], 2, 3⟩,
    4503599627370496, 59, 52452196810236, ⟨[[(625846695692691, 0), (333269398644, 0), (0, 160347518), (0, 556632)],
    [(50690054388, 0), (203822738, 0), (666439, 0), (2198, 0)], [(0, 23465420), (0, 200186), (0, 1164), (0, 5)]], 2,
    3⟩, 1099511627776, 152419568,
    21672576638806011534708164463673728014313487084652392211198172108386974115096222179210074, lc0⟩) (.sx (.leaf
    ⟨223, 16, 19, 1933, 16, 366, ⟨[[(0, 1482933322614016)], [(0, 552517787096973)]], 2, 3⟩, ⟨[[(0, 1526010655945728),
    (360792576099947, 0), (2406596978, 0), (4875753, 0)], [(48657585515661, 0), (20343483678, 0), (7950827, 0),
    (3161, 0)], [(4132284806, 0), (4161473, 0), (2752, 0), (1, 0)]], 2, 3⟩, 4503599627370496, 69, 18713881225245,
    ⟨[[(634719138374028, 0), (302555944161, 0), (0, 173734053), (0, 528277)], [(26506649676, 0), (105085868, 0),
    (344085, 0), (1116, 0)], [(0, 6512586), (0, 55480), (0, 316), (0, 1)]], 2, 3⟩, 1099511627776, 81598338,
    20464368802011926952693360194785156305997875848339096327717951086266459158827170079412854, lc0⟩) (.leaf ⟨193, 16,
    19, 1904, 16, 360, ⟨[[(0, 84248978966784)], [(0, 552517787096973)]], 2, 3⟩, ⟨[[(0, 1780093007301632),
    (359973389344291, 0), (4429978880, 0), (5642593, 0)], [(49937736644857, 0), (22158951775, 0), (9280222, 0),
    (3934, 0)], [(4533700043, 0), (4810835, 0), (3361, 0), (2, 0)]], 2, 3⟩, 4503599627370496, 114, 27217643406585,
    ⟨[[(634734862897128, 0), (303304456531, 0), (0, 195364988), (0, 604354)], [(27202344644, 0), (112342856, 0),
    (386126, 0), (1307, 0)], [(0, 6862924), (0, 60737), (0, 357), (0, 2)]], 2, 3⟩, 1099511627776, 97572751,
    39850577182120804596445302282430340679504217509459454614934347385495666896630900772426053, lc0⟩))) (.sy (.sx
    (.leaf ⟨163, 16, 19, 1883, 16, 361, ⟨[[(1314435364680704, 0)], [(0, 552517787096973)]], 2, 3⟩,
    ⟨[[(1259569045129216, 0), (364012940327911, 0), (968286177, 0), (4769844, 0)], [(44916839609319, 0),
    (18499543558, 0), (7144440, 0), (2825, 0)], [(3523284825, 0), (3511041, 0), (2300, 0), (1, 0)]], 2, 3⟩,
    4503599627370496, 112, 17643631562725, ⟨[[(625919489098559, 0), (308648365297, 0), (0, 160633128), (0, 519573)],
    [(24834434419, 0), (97005249, 0), (311998, 0), (1008, 0)], [(0, 5632768), (0, 46631), (0, 262), (0, 1)]], 2, 3⟩,
    1099511627776, 79167889,
    37990286878511843544899979781250351478020662676063846297343586688227838531924624988227652, lc0⟩) (.sy (.leaf
    ⟨134, 16, 19, 3450, 16, 663, ⟨[[(0, 1790479919042560)], [(0, 552517787096973)]], 2, 3⟩, ⟨[[(614854269413376, 0),
    (338233181618935, 0), (664477459, 0), (1170405, 0)], [(82632709411568, 0), (17394366129, 0), (3450535, 0), (699,
    0)], [(6538281528, 0), (3322037, 0), (1109, 0)]], 2, 3⟩, 4503599627370496, 71, 3674193514451,
    ⟨[[(623817128955338, 0), (167317474910, 0), (0, 48213627), (0, 85678)], [(24723484927, 0), (52751221, 0), (92922,
    0), (165, 0)], [(0, 5561831), (0, 25042), (0, 77)]], 2, 3⟩, 1099511627776, 13703688,
    45060956819832991770670209464033776683348089270438643580826609074854514824499317075529312, lc0⟩) (.skip))) (.sx
    (.sy (.sx (.leaf ⟨350, 16, 39, 3787, 16, 718, ⟨[[(1861789845173504, 0)], [(0, 567057728862683)]], 2, 3⟩, ⟨[[(0,
    1693582705571840), (362204178444645, 0), (2304080046, 0), (1460794, 0)], [(49493965005950, 0), (11102133759, 0),
    (2357866, 0), (508, 0)], [(2238473195, 0), (1199819, 0), (425, 0)]], 2, 3⟩, 4503599627370496, 80, 872962140814,
    ⟨[[(632542583672297, 0), (151836945420, 0), (0, 48893841), (0, 76679)], [(13116621551, 0), (27119202, 0), (46730,
    0), (79, 0)], [(0, 1589010), (0, 7014), (0, 21)]], 2, 3⟩, 1099511627776, 6487359,
    38971213753377924874513577741953388765698752615334518814447732696202585600270176728345097, lc0⟩) (.leaf ⟨320, 16,
    39, 3758, 16, 712, ⟨[[(0, 258191718480896)], [(0, 567057728862683)]], 2, 3⟩, ⟨[[(0, 1587135906637824),
    (361913311263986, 0), (2876378022, 0), (1578796, 0)], [(50185320796800, 0), (11609829562, 0), (2555208, 0), (575,
    0)], [(2347894642, 0), (1293640, 0), (478, 0)]], 2, 3⟩, 4503599627370496, 42, 991207830853, ⟨[[(632550283419172,
    0), (152017123912, 0), (0, 51813567), (0, 82014)], [(13286462671, 0), (28036448, 0), (49471, 0), (86, 0)], [(0,
    1630098), (0, 7331), (0, 22)]], 2, 3⟩, 1099511627776, 7019724,
    50534730852980277081657506155135590531771074400017980447911416963951346765557771860551955, lc0⟩)) (.sx (.sx
    (.leaf ⟨725, 16, 79, 3963, 16, 746, ⟨[[(1091898609265664, 0)], [(0, 574327699745538)]], 2, 3⟩, ⟨[[(0,
    578658771978240), (377790071269144, 0), (3962028420, 0), (1797260, 0)], [(27723530702014, 0), (6636689872, 0),
    (1515447, 0), (356, 0)], [(695073053, 0), (394802, 0), (152, 0)]], 2, 3⟩, 4503599627370496, 391, 612367331917,
    ⟨[[(636752731208651, 0), (143628957533, 0), (0, 51041792), (0, 75777)], [(6844138041, 0), (14123021, 0), (24431,
    0), (41, 0)], [(0, 436160), (0, 1925), (0, 6)]], 2, 3⟩, 1099511627776, 5322928,
    45271110470958448571301244813012568717572581226281049926882805859729613279361698176897039, lc0⟩) (.skip))
    (.skip))) (.skip)))
theorem c33 : checkC job ⟨6, 8, 5, 6, 9, 13⟩ 1 40 B1.zlims t33 4181 121 640 6343 175 7584 = true := by decide +kernel

def t34 : CTree :=
  .sx (.leaf ⟨223, 16, 19, 1907, 16, 356, ⟨[[(0, 1482933322614016)], [(0, 552517787096973)]], 2, 3⟩,
    ⟨[[(1090463972133888, 0), (354528060155834, 0), (8278101495, 0), (6775641, 0)], [(55353709280327, 0),
    (26578485963, 0), (12107131, 0), (5628, 0)], [(5840323479, 0), (6630868, 0), (5070, 0), (4, 0)]], 2, 3⟩,
    4503599627370496, 69, 41301053304248, ⟨[[(642916124177689, 0), (299877664260, 0), (0, 235021402), (0, 710022)],
    [(29690566420, 0), (130476440, 0), (479644, 0), (1699, 0)], [(0, 8314189), (0, 78664), (0, 482), (0, 2)]], 2, 3⟩,
    1099511627776, 121006328,
    36877050634520734360091393769581346337027855759924138141993733890560945689258654970068106, lc0⟩) (.sy (.sx (.leaf
    ⟨411, 16, 39, 3805, 16, 712, ⟨[[(1598153345111808, 0)], [(0, 567057728862683)]], 2, 3⟩, ⟨[[(430314555666432, 0),
    (357892427358341, 0), (4342989555, 0), (1776774, 0)], [(55131788223661, 0), (13424220611, 0), (3115716, 0), (745,
    0)], [(2907565607, 0), (1675192, 0), (659, 0)]], 2, 3⟩, 4503599627370496, 158, 1330188376792,
    ⟨[[(640894934329073, 0), (149518166628, 0), (0, 59065516), (0, 90258)], [(14362196841, 0), (31596231, 0), (58270,
    0), (104, 0)], [(0, 1937412), (0, 9146), (0, 28)]], 2, 3⟩, 1099511627776, 8076332,
    38486405168536562645449310027946963781467285130372981075362962270603282801070389241711545, lc0⟩) (.sx (.leaf
    ⟨787, 16, 79, 3978, 16, 744, ⟨[[(0, 156671610864640)], [(0, 574327699745538)]], 2, 3⟩, ⟨[[(2050915481042944, 0),
    (376582607264758, 0), (5152724586, 0), (2007156, 0)], [(29369768140023, 0), (7343696025, 0), (1760819, 0), (442,
    0)], [(797274897, 0), (471999, 0), (195, 0)]], 2, 3⟩, 4503599627370496, 424, 755280219772, ⟨[[(640854061397315,
    0), (142182116187, 0), (0, 55792952), (0, 81834)], [(7163632619, 0), (15230762, 0), (27198, 0), (47, 0)], [(0,
    481945), (0, 2194), (0, 6)]], 2, 3⟩, 1099511627776, 5873080,
    44755757369701270640308690614086991412562298814812060426179787475197299826445927444287236, lc0⟩) (.sy (.leaf
    ⟨756, 16, 79, 7556, 16, 1415, ⟨[[(467613499200512, 0)], [(0, 574327699745538)]], 2, 3⟩, ⟨[[(0, 1763028258242560),
    (358939572336040, 0), (2401169668, 0), (475758, 0)], [(55369310291267, 0), (6907228853, 0), (826825, 0), (104,
    0)], [(1487541439, 0), (439679, 0), (91, 0)]], 2, 3⟩, 4503599627370496, 408, 192609474259, ⟨[[(639908407916580,
    0), (74809237684, 0), (0, 15311190), (0, 11859)], [(7116079254, 0), (7934290, 0), (7433, 0), (7, 0)], [(0,
    474590), (0, 1132), (0, 2)]], 2, 3⟩, 1099511627776, 635294,
    45020100682635395491773216023428162147045901974950950011966915867258940597198462185931470, lc0⟩) (.sx (.leaf
    ⟨1528, 16, 158, 7931, 16, 1480, ⟨[[(0, 1628715370317824)], [(0, 574327699745538)]], 2, 3⟩, ⟨[[(557169869643776,
    0), (376901699527587, 0), (3005755193, 0), (551483, 0)], [(30171922993545, 0), (3904226652, 0), (488625, 0), (66,
    0)], [(428630285, 0), (131726, 0), (29, 0)]], 2, 3⟩, 4503599627370496, 219, 77977426562, ⟨[[(641951754151033, 0),
    (70781679427, 0), (0, 14830485), (0, 10928)], [(3662545197, 0), (3980160, 0), (3639, 0), (3, 0)], [(0, 126261),
    (0, 293)]], 2, 3⟩, 1099511627776, 446188,
    47925951306305019527186892974474475405136474452603168982433573488148518005933126037715205, lc0⟩) (.skip))))) (.sx
    (.leaf ⟨411, 16, 39, 3758, 16, 698, ⟨[[(1598153345111808, 0)], [(0, 567057728862683)]], 2, 3⟩, ⟨[[(0,
    1456823411267584), (354525416406613, 0), (6307422727, 0), (2193615, 0)], [(59062607271612, 0), (15605683620, 0),
    (3997419, 0), (1105, 0)], [(3516684242, 0), (2206959, 0), (1008, 0)]], 2, 3⟩, 4503599627370496, 158,
    1967477593262, ⟨[[(645087883461446, 0), (148866327530, 0), (0, 69952648), (0, 108088)], [(15308148054, 0),
    (35874781, 0), (70700, 0), (132, 0)], [(0, 2221080), (0, 11125), (0, 36)]], 2, 3⟩, 1099511627776, 10174161,
    49929974119575303248066456424795000507008316636377148298696435901271748619734144854222776, lc0⟩) (.sx (.sx (.sy
    (.leaf ⟨1589, 16, 158, 7936, 16, 1476, ⟨[[(1626314036922368, 0)], [(0, 574327699745538)]], 2, 3⟩, ⟨[[(0,
    1690198277066752), (376165421946111, 0), (3348278592, 0), (587202, 0)], [(31062164026502, 0), (4115808780, 0),
    (530138, 0), (74, 0)], [(460182178, 0), (145137, 0), (34, 0)]], 2, 3⟩, 4503599627370496, 187, 87572781427,
    ⟨[[(644046833732355, 0), (70416114646, 0), (0, 15571720), (0, 11435)], [(3754338804, 0), (4152689, 0), (3865, 0),
    (3, 0)], [(0, 133276), (0, 315)]], 2, 3⟩, 1099511627776, 488084,
    47202317554911380381456048186702759680505898230011400251155766465377405032617783006151122, lc0⟩) (.sy (.leaf
    ⟨1589, 16, 158, 14988, 16, 2780, ⟨[[(1626314036922368, 0)], [(0, 574327699745538)]], 2, 3⟩, ⟨[[(0,
    456033553039360), (356021486021331, 0), (1805426719, 0), (152768, 0)], [(60610961038237, 0), (4153429982, 0),
    (279730, 0), (21, 0)], [(943144044, 0), (154988, 0), (19, 0)]], 2, 3⟩, 4503599627370496, 187, 57544368811,
    ⟨[[(645564453124305, 0), (37019611925, 0), (0, 4603842), (0, 1792)], [(3846124254, 0), (2296314, 0), (1154, 0),
    (1, 0)], [(0, 140321), (0, 178)]], 2, 3⟩, 1099511627776, 104250,
    50210592240437152152581157989419713738917552821403460885361790605526983328992392460457333, lc0⟩) (.skip)))
    (.skip)) (.skip))))
theorem c34 : checkC job ⟨6, 8, 5, 6, 9, 13⟩ 1 40 B1.zlims t34 8241 121 1280 13211 175 15168 = true := by decide +kernel

def t35 : CTree :=
  .sx (.sy (.leaf ⟨223, 16, 19, 3374, 16, 623, ⟨[[(0, 1482933322614016)], [(0, 552517787096973)]], 2, 3⟩,
    ⟨[[(493471893372928, 0), (315385184084106, 0), (6392411718, 0), (2099233, 0)], [(110744723605261, 0),
    (30061075102, 0), (7934999, 0), (2278, 0)], [(14024385792, 0), (9045015, 0), (4294, 0), (2, 0)]], 2, 3⟩,
    4503599627370496, 69, 17703901041588, ⟨[[(649103038389224, 0), (165148689566, 0), (0, 92708417), (0, 158150)],
    [(32658947652, 0), (87477279, 0), (196726, 0), (415, 0)], [(0, 10201015), (0, 58384), (0, 211), (0, 1)]], 2, 3⟩,
    1099511627776, 33050387,
    46708735876120022888536285056286685740751419917659221663339921411081340812797406231791463, lc0⟩) (.sx (.leaf
    ⟨472, 16, 39, 3719, 16, 682, ⟨[[(1334516845050368, 0)], [(0, 567057728862683)]], 2, 3⟩, ⟨[[(0, 406273677137920),
    (348707159044476, 0), (9088338996, 0), (2853178, 0)], [(65814027466759, 0), (19210409669, 0), (5584515, 0),
    (1840, 0)], [(4662328868, 0), (3290206, 0), (1797, 0), (1, 0)]], 2, 3⟩, 4503599627370496, 54, 3169795055795,
    ⟨[[(653134824406253, 0), (147291403277, 0), (0, 85817794), (0, 132936)], [(16878201552, 0), (42897422, 0),
    (91408, 0), (180, 0)], [(0, 2748707), (0, 14817), (0, 49)]], 2, 3⟩, 1099511627776, 13350581,
    41061180295986210397039104954983230806990561945349235389524414669961038070358857280440326, lc0⟩) (.sx (.leaf
    ⟨910, 16, 79, 3913, 16, 717, ⟨[[(1849787576244736, 0)], [(0, 574327699745538)]], 2, 3⟩, ⟨[[(0, 1855024457672704),
    (370387029223462, 0), (10687076705, 0), (3388532, 0)], [(35516340698917, 0), (10766108419, 0), (3316379, 0),
    (1186, 0)], [(1312533202, 0), (979619, 0), (582, 0)]], 2, 3⟩, 4503599627370496, 35, 1889976643471,
    ⟨[[(653185755263952, 0), (138661998061, 0), (0, 80669571), (0, 119647)], [(8459184172, 0), (20728467, 0), (42594,
    0), (80, 0)], [(0, 690223), (0, 3571), (0, 11)]], 2, 3⟩, 1099511627776, 9490706,
    49373612125869963411931775575304524231148260289965980979114689619366419607174729062162005, lc0⟩) (.sy (.sx (.leaf
    ⟨1775, 16, 158, 7863, 16, 1443, ⟨[[(0, 2119396623468544)], [(0, 574327699745538)]], 2, 3⟩, ⟨[[(0,
    1506071250247680), (372800850125541, 0), (5232663971, 0), (834177, 0)], [(35273509066741, 0), (5304718494, 0),
    (809417, 0), (143, 0)], [(640997828, 0), (237114, 0), (70, 0)]], 2, 3⟩, 4503599627370496, 88, 163797783862,
    ⟨[[(652160104711358, 0), (69147868893, 0), (0, 19620252), (0, 14503)], [(4183059962, 0), (5063102, 0), (5144, 0),
    (5, 0)], [(0, 168393), (0, 431), (0, 1)]], 2, 3⟩, 1099511627776, 611662,
    47803729958087917261016720681869476216478635480526278818411319594625240740836832014378738, lc0⟩) (.sx (.leaf
    ⟨3514, 16, 317, 8093, 16, 1485, ⟨[[(0, 669089109385216)], [(0, 576145192466252)]], 2, 3⟩, ⟨[[(0, 70486311784448),
    (384650558177416, 0), (5538558560, 0), (885934, 0)], [(18270874752634, 0), (2774573118, 0), (429872, 0), (78,
    0)], [(167843001, 0), (63021, 0), (19, 0)]], 2, 3⟩, 4503599627370496, 224, 130033400548, ⟨[[(652137926357885, 0),
    (67033585052, 0), (0, 18686705), (0, 13444)], [(2091698989, 0), (2467596, 0), (2443, 0), (2, 0)], [(0, 42097),
    (0, 105)]], 2, 3⟩, 1099511627776, 518951,
    49882012368561821459028845643780552456169999857297870465008092967761320164219988191888879, lc0⟩) (.skip))) (.sy
    (.sy (.sx (.leaf ⟨1775, 16, 158, 26346, 16, 4824, ⟨[[(0, 2119396623468544)], [(0, 574327699745538)]], 2, 3⟩,
    ⟨[[(0, 466527836209152), (313588649879742, 0), (1214076381, 0), (48589, 0)], [(121934602979235, 0), (4747712577,
    0), (190684, 0), (9, 0)], [(2328200281, 0), (226350, 0), (18, 0)]], 2, 3⟩, 4503599627370496, 88, 153634297954,
    ⟨[[(653388876516826, 0), (20470285969, 0), (0, 1826533), (0, 404)], [(4275165610, 0), (1570889, 0), (484, 0)],
    [(0, 176309), (0, 136)]], 2, 3⟩, 1099511627776, 56071,
    49087608963341752128269090297869073675099241189916065759723467927241667012026777704829585, lc0⟩) (.sx (.sx (.leaf
    ⟨7043, 16, 634, 31288, 16, 5728, ⟨[[(821395659087872, 0)], [(0, 576145192466252)]], 2, 3⟩, ⟨[[(0,
    459918328217600), (373212886921000, 0), (1476325500, 0), (59349, 0)], [(36406890069807, 0), (1429980585, 0),
    (58237, 0), (3, 0)], [(175522069, 0), (17300, 0), (1, 0)]], 2, 3⟩, 4503599627370496, 355, 5120433266,
    ⟨[[(653387692851982, 0), (17200730004, 0), (0, 1305856), (0, 244)], [(1068771208, 0), (331672, 0), (86, 0)], [(0,
    11017), (0, 7)]], 2, 3⟩, 1099511627776, 8115,
    50147939713604201477081364706714291826547666684054585733322647747275247215279887375968099, lc0⟩) (.sx (.leaf
    ⟨14051, 16, 1269, 32294, 16, 5912, ⟨[[(0, 5833184067584)], [(0, 576599565646430)]], 2, 3⟩, ⟨[[(2124556879200256,
    0), (385470037691696, 0), (1534706080, 0), (61783, 0)], [(18821151717206, 0), (741213104, 0), (30314, 0), (1,
    0)], [(45506816, 0), (4504, 0)]], 2, 3⟩, 4503599627370496, 4351, 2850984861, ⟨[[(653378699750515, 0),
    (16655677814, 0), (0, 1228329), (0, 222)], [(534369067, 0), (160784, 0), (41, 0)], [(0, 2754), (0, 2)]], 2, 3⟩,
    1099511627776, 6197, 50683601226054755537970554169921606676535897997138141600812738690088511228903401693297613,
    lc0⟩) (.skip))) (.skip))) (.skip)) (.skip)))))) (.sy (.sx (.sx (.sy (.leaf ⟨849, 16, 79, 7479, 16, 1382, ⟨[[(0,
    1405241830995456)], [(0, 574327699745538)]], 2, 3⟩, ⟨[[(1919491578245120, 0), (353662558129615, 0), (3920304458,
    0), (643495, 0)], [(62324958793489, 0), (8723304669, 0), (1205218, 0), (186, 0)], [(2025232132, 0), (681515, 0),
    (175, 0)]], 2, 3⟩, 4503599627370496, 68, 336459212235, ⟨[[(648076251745466, 0), (73913012554, 0), (0, 19355887),
    (0, 15031)], [(7894432615, 0), (9616022, 0), (9851, 0), (9, 0)], [(0, 594535), (0, 1541), (0, 3)]], 2, 3⟩,
    1099511627776, 880929, 48219858929149939449791880581194062994522140773217657629972409538636124661537321720768896,
    lc0⟩) (.sx (.leaf ⟨1713, 16, 158, 7875, 16, 1450, ⟨[[(0, 870826403338240)], [(0, 574327699745538)]], 2, 3⟩,
    ⟨[[(2155336338567168, 0), (373595402003104, 0), (4788160392, 0), (771311, 0)], [(34235031892196, 0), (5006452596,
    0), (735396, 0), (124, 0)], [(593411375, 0), (211672, 0), (59, 0)]], 2, 3⟩, 4503599627370496, 121, 142839840323,
    ⟨[[(650096037743495, 0), (69503305974, 0), (0, 18637979), (0, 13769)], [(4074364567, 0), (4831021, 0), (4815, 0),
    (4, 0)], [(0, 159040), (0, 400), (0, 1)]], 2, 3⟩, 1099511627776, 596139,
    50198405417967199187984306170042501001270525726106457961186144009470962199448741285871825, lc0⟩) (.sx (.sx (.sy
    (.leaf ⟨6796, 16, 634, 16271, 16, 2998, ⟨[[(0, 2206588995063808)], [(0, 576145192466252)]], 2, 3⟩, ⟨[[(0,
    1832668265349120), (386140117269774, 0), (2428058735, 0), (196292, 0)], [(17562969595407, 0), (1277327009, 0),
    (93164, 0), (8, 0)], [(75352788, 0), (13351, 0), (2, 0)]], 2, 3⟩, 4503599627370496, 1109, 12556680166,
    ⟨[[(649639171197997, 0), (33668288722, 0), (0, 4329161), (0, 1549)], [(1010383327, 0), (577869, 0), (278, 0)],
    [(0, 9770), (0, 12)]], 2, 3⟩, 1099511627776, 38287,
    48171658633173143245984683040188368558450974689525009318840424622395985513149901336396767, lc0⟩) (.sy (.leaf
    ⟨6796, 16, 634, 31499, 16, 5796, ⟨[[(0, 2206588995063808)], [(0, 576145192466252)]], 2, 3⟩, ⟨[[(1539747414687744,
    0), (374532421596569, 0), (1250532019, 0), (50389, 0)], [(34615212691828, 0), (1283613736, 0), (48156, 0), (2,
    0)], [(152711027, 0), (13903, 0), (1, 0)]], 2, 3⟩, 4503599627370496, 1109, 3744838702, ⟨[[(650376456347954, 0),
    (17315511086, 0), (0, 1185895), (0, 219)], [(1023209260, 0), (305312, 0), (77, 0)], [(0, 10035), (0, 6)]], 2, 3⟩,
    1099511627776, 8938, 49590902215531608191113313819677568984266037040650211378983246066738706507748280881962532,
    lc0⟩) (.sy (.leaf ⟨6796, 16, 634, 59328, 16, 10909, ⟨[[(0, 2206588995063808)], [(0, 576145192466252)]], 2, 3⟩,
    ⟨[[(0, 318586451820544), (353092743410819, 0), (607390185, 0), (12231, 0)], [(65791881461254, 0), (1232190155,
    0), (23456, 0), (1, 0)], [(294428472, 0), (13595, 0), (1, 0)]], 2, 3⟩, 4503599627370496, 1109, 4970930827,
    ⟨[[(650760775769184, 0), (9171622352, 0), (0, 338916), (0, 33)], [(1030034087, 0), (164036, 0), (22, 0)], [(0,
    10177), (0, 3)]], 2, 3⟩, 1099511627776, 4228,
    50311797532396365694481573926803040012595708566343702531639410543067792820830961719838782, lc0⟩) (.skip))))
    (.skip)) (.skip)))) (.sy (.sx (.sy (.leaf ⟨1651, 16, 158, 14956, 16, 2765, ⟨[[(377743816792064, 0)], [(0,
    574327699745538)]], 2, 3⟩, ⟨[[(0, 2145136694624256), (354687001075773, 0), (1985747641, 0), (163607, 0)],
    [(62318026237533, 0), (4381347201, 0), (305073, 0), (24, 0)], [(1013651853, 0), (171852, 0), (22, 0)]], 2, 3⟩,
    4503599627370496, 154, 65461360375, ⟨[[(647617163484789, 0), (36901994107, 0), (0, 4851482), (0, 1889)],
    [(3943355569, 0), (2402961, 0), (1232, 0), (1, 0)], [(0, 148175), (0, 192)]], 2, 3⟩, 1099511627776, 104037,
    48938474559040899145596793839285895170755501278716234130586284087153307178773955527694843, lc0⟩) (.skip))
    (.skip)) (.skip))) (.skip)) (.skip))
theorem c35 : checkC job ⟨6, 8, 5, 6, 9, 13⟩ 1 40 B1.zlims t35 8241 121 1280 13561 175 15168 = true := by decide +kernel

def t36 : CTree :=
  .sy (.sx (.sy (.sx (.sy (.sx (.sy (.leaf ⟨725, 16, 79, 13742, 16, 2575, ⟨[[(1091898609265664, 0)], [(0,
    574327699745538)]], 2, 3⟩, ⟨[[(1407895870046208, 0), (327737049888662, 0), (1126836539, 0), (110945, 0)],
    [(100969616968906, 0), (6346971646, 0), (383870, 0), (24, 0)], [(2724758952, 0), (406271, 0), (43, 0)]], 2, 3⟩,
    4503599627370496, 391, 249609747109, ⟨[[(639346214282440, 0), (41050673204, 0), (0, 4643827), (0, 1983)],
    [(7109185258, 0), (4361131, 0), (2250, 0), (1, 0)], [(0, 473066), (0, 620), (0, 1)]], 2, 3⟩, 1099511627776,
    245382, 48222552765717897996493596882673526328745085022345759527035048773648225250005240625720270, lc0⟩) (.skip))
    (.skip)) (.skip)) (.skip)) (.skip)) (.skip)) (.skip)
theorem c36 : checkC job ⟨6, 8, 5, 6, 9, 13⟩ 1 40 B1.zlims t36 8483 121 1280 6693 175 7584 = true := by decide +kernel

def t37 : CTree :=
  .sy (.sx (.sy (.sx (.sy (.sx (.sx (.leaf ⟨972, 16, 79, 3888, 16, 708, ⟨[[(601217356114432, 0)], [(0,
    574327699745538)]], 2, 3⟩, ⟨[[(403082379425792, 0), (368339290008229, 0), (12630507255, 0), (3999311, 0)],
    [(37676948223154, 0), (12120360862, 0), (4049488, 0), (1587, 0)], [(1537055278, 0), (1240051, 0), (805, 0)]], 2,
    3⟩, 4503599627370496, 10, 2434193225667, ⟨[[(657076997170710, 0), (137634561683, 0), (0, 89179084), (0, 132926)],
    [(8895717766, 0), (22734732, 0), (48531, 0), (94, 0)], [(0, 769575), (0, 4122), (0, 13)]], 2, 3⟩, 1099511627776,
    10799616, 42164350775496134935944213250549603768893681271370794569674918830412441215802384948527067, lc0⟩) (.sy
    (.leaf ⟨941, 16, 79, 7311, 16, 1333, ⟨[[(1225502466179584, 0)], [(0, 574327699745538)]], 2, 3⟩, ⟨[[(0,
    1438503275151360), (347422683271396, 0), (5910283770, 0), (942421, 0)], [(70338111685749, 0), (11306063383, 0),
    (1892814, 0), (373, 0)], [(2845040904, 0), (1150664, 0), (376, 0)]], 2, 3⟩, 4503599627370496, 19, 651856979990,
    ⟨[[(656129012822562, 0), (73191600545, 0), (0, 25029912), (0, 19903)], [(8832442598, 0), (11959028, 0), (13538,
    0), (14, 0)], [(0, 756988), (0, 2148), (0, 4)]], 2, 3⟩, 1099511627776, 1192280,
    45839688392340297598431367718929491987796261114025959038192173087673843848547489333080798, lc0⟩) (.sx (.leaf
    ⟨1898, 16, 158, 7722, 16, 1403, ⟨[[(0, 112937436359680)], [(0, 574327699745538)]], 2, 3⟩, ⟨[[(600164141969408,
    0), (369602394108485, 0), (7223956532, 0), (1180072, 0)], [(39020978214908, 0), (6635575001, 0), (1205410, 0),
    (259, 0)], [(855163443, 0), (374333, 0), (133, 0)]], 2, 3⟩, 4503599627370496, 1047, 287488792160,
    ⟨[[(658068142849558, 0), (68374200429, 0), (0, 23920295), (0, 18083)], [(4568138318, 0), (6007743, 0), (6587, 0),
    (6, 0)], [(0, 203182), (0, 556), (0, 1)]], 2, 3⟩, 1099511627776, 796386,
    46680517192341317733125601107827119932455202047286781560168408232480147745089160978931256, lc0⟩) (.skip)))) (.sx
    (.sy (.sx (.leaf ⟨1836, 16, 158, 7752, 16, 1413, ⟨[[(1135632783771648, 0)], [(0, 574327699745538)]], 2, 3⟩,
    ⟨[[(2063997833662464, 0), (370489673532039, 0), (6642808996, 0), (1075035, 0)], [(37838391624164, 0),
    (6222295459, 0), (1079950, 0), (222, 0)], [(785518731, 0), (329169, 0), (112, 0)]], 2, 3⟩, 4503599627370496, 55,
    248109152427, ⟨[[(656078769346694, 0), (68686280254, 0), (0, 22668674), (0, 17069)], [(4446410091, 0), (5715109,
    0), (6140, 0), (6, 0)], [(0, 191743), (0, 515), (0, 1)]], 2, 3⟩, 1099511627776, 722336,
    50437297353603217677919210718692773041627914963288709973095081519076497759178741882801725, lc0⟩) (.sx (.sy (.leaf
    ⟨3638, 16, 317, 15548, 16, 2836, ⟨[[(0, 1406896595994624)], [(0, 576145192466252)]], 2, 3⟩, ⟨[[(1735208267702272,
    0), (371768665652161, 0), (3289971664, 0), (266452, 0)], [(37712866159676, 0), (3087441311, 0), (266562, 0), (27,
    0)], [(388002689, 0), (80910, 0), (14, 0)]], 2, 3⟩, 4503599627370496, 601, 34668379873, ⟨[[(655605886592462, 0),
    (34279415723, 0), (0, 5593135), (0, 2101)], [(2205156063, 0), (1408604, 0), (753, 0)], [(0, 47112), (0, 63)]], 2,
    3⟩, 1099511627776, 76127,
    49732054967664720941649000781085319375495284393555117408175887805438412547555701673518843, lc0⟩) (.sy (.sy (.leaf
    ⟨3638, 16, 317, 51727, 16, 9424, ⟨[[(0, 1406896595994624)], [(0, 576145192466252)]], 2, 3⟩, ⟨[[(1145902722842624,
    0), (310074093930904, 0), (720756461, 0), (14730, 0)], [(127607114144610, 0), (2665128806, 0), (59269, 0), (2,
    0)], [(1350402887, 0), (72474, 0), (3, 0)]], 2, 3⟩, 4503599627370496, 601, 49811368859, ⟨[[(656234787592949, 0),
    (10253240380, 0), (0, 517139), (0, 59)], [(2231334232, 0), (432343, 0), (70, 0)], [(0, 48288), (0, 20)]], 2, 3⟩,
    1099511627776, 10654, 50400892528838029969506496117728168851401690791501158653632739418556400496984429837113644,
    lc0⟩) (.skip)) (.skip))) (.skip))) (.skip)) (.skip))) (.sx (.sx (.sy (.leaf ⟨972, 16, 79, 7146, 16, 1294,
    ⟨[[(601217356114432, 0)], [(0, 574327699745538)]], 2, 3⟩, ⟨[[(0, 804431190982656), (343499290828703, 0),
    (7448930859, 0), (1242225, 0)], [(75245687996253, 0), (13371606432, 0), (2579961, 0), (584, 0)], [(3524719533,
    0), (1634393, 0), (609, 0)]], 2, 3⟩, 4503599627370496, 10, 1002137388617, ⟨[[(660042594669696, 0), (73063591237,
    0), (0, 29443908), (0, 24099)], [(9417082799, 0), (13677641, 0), (16509, 0), (18, 0)], [(0, 866465), (0, 2602),
    (0, 5)]], 2, 3⟩, 1099511627776, 1501902,
    47618512745112026476723752553705871951644635902650225467752172111028757154578071897484677, lc0⟩) (.sx (.leaf
    ⟨1960, 16, 158, 7554, 16, 1363, ⟨[[(0, 1361507656487936)], [(0, 574327699745538)]], 2, 3⟩, ⟨[[(321158603677696,
    0), (366852988870968, 0), (9182105043, 0), (1599065, 0)], [(42010646742999, 0), (7985614274, 0), (1687915, 0),
    (411, 0)], [(1080770344, 0), (546617, 0), (218, 0)]], 2, 3⟩, 4503599627370496, 1047, 448914831788,
    ⟨[[(661970704413384, 0), (67998691798, 0), (0, 28133049), (0, 21902)], [(4881618311, 0), (6889098, 0), (8045, 0),
    (8, 0)], [(0, 233430), (0, 675), (0, 1)]], 2, 3⟩, 1099511627776, 994321,
    48902514079126182827430402319826758239223037905978274794668577931169936332996272155614226, lc0⟩) (.skip)))
    (.skip)) (.skip))) (.skip)) (.skip)) (.skip)) (.skip)
theorem c37 : checkC job ⟨6, 8, 5, 6, 9, 13⟩ 1 40 B1.zlims t37 4181 121 640 3609 175 3792 = true := by decide +kernel

def t38 : CTree :=
  .skip
theorem c38 : checkC job ⟨6, 8, 5, 6, 9, 13⟩ 1 40 B1.zlims t38 4423 121 640 1717 175 1896 = true := by decide +kernel

end PyX.Kron.T1ps
