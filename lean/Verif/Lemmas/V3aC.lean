import Verif.Lemmas.V3aJob

/-!
# The volume from pressure and enthalpy in subregion 3a, part C of the certificate
-/

namespace PyX.Kron.V3a

set_option Elab.async false

def t45 : CTree :=
  .sy (.sx (.sy (.leaf ⟨615, 16, 1425, 376, 16, 1671, ⟨[[(24355260153487360, 0), (0, 2292383928009596), (34358128455,
    0), (640641, 0), (46, 0)], [(22918952298962042, 0), (0, 4161526445101), (33122702, 0), (0, 1171)],
    [(75620887241248, 0), (0, 5253574916), (0, 150357), (0, 14)], [(178694534698, 0), (0, 1282767), (234, 0)]], 3,
    4⟩, ⟨[[(32002763992276992, 0), (0, 1273800959380624), (2063717264, 0), (0, 539380), (0, 29)], [(0,
    37482078180107727), (362991237525, 0), (47725667, 0), (3340, 0)], [(16829087450358, 0), (0, 1075589803), (0,
    96669), (0, 6)], [(0, 10677960026), (0, 1203965), (0, 117)]], 3, 4⟩, 72057594037927936, 42666337094903,
    9666020958902, ⟨[[(14105329444261, 0), (22871383842, 0), (37318203, 0), (13421, 0), (0, 92)], [(0, 12693674238),
    (0, 74891927), (0, 170559), (153, 0), (1, 0)], [(35250917, 0), (283775, 0), (569, 0), (0, 3)], [(0, 128868), (0,
    1160), (0, 1)]], 3, 4⟩, 17592186044416, 73407348,
    9534540935706880596796454035627924168523064454292143177326564803514606366437664798692442320764995852708073697586861925675426365,
    lc0⟩) (.leaf ⟨630, 16, 1497, 369, 16, 1678, ⟨[[(0, 15920284870721536), (0, 2371437529138019), (37182375071, 0),
    (773706, 0), (52, 0)], [(21890935813441954, 0), (0, 4337785719307), (32949681, 0), (0, 1221)], [(76629496772144,
    0), (0, 5688945326), (0, 180901), (0, 16)], [(187110355322, 0), (0, 1091083), (266, 0)]], 3, 4⟩,
    ⟨[[(8363306621194240, 0), (0, 1277480758819726), (1211926157, 0), (0, 601782), (0, 31)], [(0, 37443597041820489),
    (415252369132, 0), (53240387, 0), (3709, 0)], [(16332172629867, 0), (0, 1182027104), (0, 106101), (0, 6)], [(0,
    11360580824), (0, 1334938), (0, 133)]], 3, 4⟩, 72057594037927936, 45829030593062, 10336233481772,
    ⟨[[(14105514032415, 0), (23308805555, 0), (39418490, 0), (14027, 0), (0, 111)], [(0, 12530862989), (0, 76965143),
    (0, 183487), (189, 0), (2, 0)], [(35453355, 0), (300761, 0), (630, 0), (0, 3)], [(0, 134244), (0, 1276), (0,
    1)]], 3, 4⟩, 17592186044416, 78582216,
    8077881181344621508401549452598725129401941089461496607896017233049232215931238078421672512328351219527402339051261569126519812,
    lc0⟩)) (.sy (.leaf ⟨529, 16, 1195, 366, 16, 1722, ⟨[[(0, 4524022524862464), (0, 2076787568252385), (29773740008,
    0), (476487, 0), (37, 0)], [(25393759438089509, 0), (0, 3863525672686), (18449185, 0), (0, 1883)],
    [(84237889267017, 0), (0, 4468398148), (0, 93502), (0, 10)], [(180943147980, 0), (27212, 0), (314, 0)]], 3, 4⟩,
    ⟨[[(0, 11895223912816640), (0, 1298996467478665), (4009532423, 0), (0, 422325), (0, 23)], [(0,
    37213223186730392), (276096757606, 0), (40350869, 0), (2904, 0)], [(16462704149755, 0), (0, 1204672880), (0,
    108597), (0, 7)], [(0, 3078007761), (0, 308661), (0, 23)]], 3, 4⟩, 72057594037927936, 37580465685661,
    9173320716259, ⟨[[(13474512255486, 0), (19725343334, 0), (31654910, 0), (19347, 0), (0, 60)], [(0, 12335251587),
    (0, 69717229), (0, 175150), (0, 4), (1, 0)], [(35833740, 0), (292251, 0), (809, 0), (0, 1)], [(0, 138618), (0,
    1364), (0, 3)]], 3, 4⟩, 17592186044416, 96592575,
    10763345146429454633994630479784039196228660317437811021877164630961618938453357685623017120097681487379985023374500802729186721,
    lc0⟩) (.leaf ⟨539, 16, 1251, 358, 16, 1728, ⟨[[(0, 22490009943982080), (0, 2142418744108767), (31981349209, 0),
    (581252, 0), (43, 0)], [(24557996744630958, 0), (0, 4026699345014), (16278993, 0), (0, 2059)], [(85811207453735,
    0), (0, 4783971022), (0, 113887), (0, 11)], [(189522385162, 0), (374995, 0), (362, 0)]], 3, 4⟩,
    ⟨[[(3006861510107136, 0), (0, 1299815141889236), (3349922192, 0), (0, 471307), (0, 25)], [(0, 37193219910911774),
    (319994492194, 0), (45118066, 0), (3234, 0)], [(15884873845938, 0), (0, 1323556570), (0, 119632), (0, 7)], [(0,
    3250600104), (0, 336164), (0, 29)]], 3, 4⟩, 72057594037927936, 39953432958423, 9780480660720, ⟨[[(13467264757292,
    0), (20073870128, 0), (33498682, 0), (21670, 0), (0, 74)], [(0, 12156975050), (0, 71554133), (0, 190380), (0, 8),
    (1, 0)], [(35888386, 0), (309961, 0), (925, 0), (0, 2)], [(0, 144021), (0, 1516), (0, 4)]], 3, 4⟩,
    17592186044416, 104391857,
    10409098342953365438287569580500921596877300344334809957569417695442307646201409126933069604432028097959651928791587713712273506,
    lc0⟩))) (.sx (.sy (.leaf ⟨646, 16, 1577, 362, 16, 1685, ⟨[[(12191921695268864, 0), (0, 2458196825469440),
    (40482834899, 0), (930892, 0), (60, 0)], [(20775438793253120, 0), (0, 4535717880696), (32783156, 0), (0, 1272)],
    [(77665926036062, 0), (0, 6197396883), (0, 217073), (0, 18)], [(196604968152, 0), (0, 857243), (302, 0)]], 3, 4⟩,
    ⟨[[(0, 20020409312727040), (0, 1282061015622950), (258602549, 0), (0, 669218), (0, 33)], [(0, 37376515780096798),
    (473572509955, 0), (59359459, 0), (4112, 0)], [(15776792190716, 0), (0, 1298801865), (0, 116389), (0, 7)], [(0,
    12115985818), (0, 1483070), (0, 151)]], 3, 4⟩, 72057594037927936, 49466066638247, 11082326826550,
    ⟨[[(14119438704362, 0), (23867717433, 0), (42015849, 0), (14407, 0), (0, 141)], [(0, 12445008026), (0, 80051517),
    (0, 200453), (244, 0), (2, 0)], [(36212893, 0), (325463, 0), (712, 0), (0, 4)], [(0, 143067), (0, 1439), (0,
    1)]], 3, 4⟩, 17592186044416, 85162912,
    5633514048779507502739786896596751574851059414472447989806461775917976691209912993223593151082509403015709314482737968498933422,
    lc0⟩) (.leaf ⟨665, 16, 1666, 354, 16, 1693, ⟨[[(0, 21902578118631424), (0, 2553213287032932), (44347640281, 0),
    (1116904, 0), (69, 0)], [(19551053532523962, 0), (0, 4757936537144), (32623310, 0), (0, 1324)], [(78702121307537,
    0), (0, 6792557068), (0, 259986), (0, 21)], [(207328525365, 0), (0, 572670), (344, 0)]], 3, 4⟩,
    ⟨[[(33518249897431040, 0), (0, 1288412735564152), (0, 804825174), (0, 742269), (0, 36)], [(0, 37299543472636934),
    (538928055928, 0), (66175805, 0), (4552, 0)], [(15166248392419, 0), (0, 1427701526), (0, 127697), (0, 7)], [(0,
    12961172186), (0, 1651074), (0, 170)]], 3, 4⟩, 72057594037927936, 53657003625423, 11914799043569,
    ⟨[[(14095341183255, 0), (24293539336, 0), (44738100, 0), (15885, 0), (0, 182)], [(0, 12212961131), (0, 82576179),
    (0, 220862), (291, 0), (3, 0)], [(36400556, 0), (349350, 0), (835, 0), (0, 5)], [(0, 149118), (0, 1605), (0,
    2)]], 3, 4⟩, 17592186044416, 89977007,
    5038429661703545824387002661959169221449814642594152215283184419663573184190179314100632835590760093165452262123173061979413956,
    lc0⟩)) (.sy (.leaf ⟨549, 16, 1311, 350, 16, 1735, ⟨[[(88511451463680, 0), (0, 2211039557378872), (34502679803,
    0), (703629, 0), (49, 0)], [(23621508615144978, 0), (0, 4204353625922), (13738523, 0), (0, 2254)],
    [(87378523255482, 0), (0, 5142387130), (0, 137862), (0, 13)], [(198908026869, 0), (791798, 0), (416, 0)]], 3, 4⟩,
    ⟨[[(29615689717829632, 0), (0, 1302074083292300), (2612734662, 0), (0, 524385), (0, 26)], [(0,
    37170761436790217), (369313400581, 0), (50448885, 0), (3594, 0)], [(15250878614661, 0), (0, 1455274471), (0,
    131753), (0, 8)], [(0, 3441188809), (0, 370447), (0, 36)]], 3, 4⟩, 72057594037927936, 42585658678639,
    10456577894779, ⟨[[(13463276645876, 0), (20466823455, 0), (35661213, 0), (24668, 0), (0, 92)], [(0, 12022397427),
    (0, 74049545), (0, 210112), (0, 15), (2, 0)], [(36353391, 0), (334730, 0), (1084, 0), (0, 2)], [(0, 152667), (0,
    1726), (0, 5)]], 3, 4⟩, 17592186044416, 114249152,
    9186451008888056244356028165638780046834362727901634132456687420092913826836616075218441093407877672126943450821317766296402127,
    lc0⟩) (.leaf ⟨561, 16, 1378, 343, 16, 1743, ⟨[[(0, 293673384058880), (0, 2287040084812015), (37460289283, 0),
    (848066, 0), (56, 0)], [(22613597046677781, 0), (0, 4406540054831), (10794543, 0), (0, 2474)], [(89092410007948,
    0), (0, 5561269711), (0, 166341), (0, 15)], [(209604746695, 0), (1291431, 0), (478, 0)]], 3, 4⟩, ⟨[[(0,
    5617671516749824), (0, 1305854485312886), (1790519367, 0), (0, 581695), (0, 28)], [(0, 37142663460897652),
    (424723381600, 0), (56399304, 0), (3987, 0)], [(14552881892885, 0), (0, 1601171031), (0, 145083), (0, 9)], [(0,
    3653643081), (0, 412294), (0, 44)]], 3, 4⟩, 72057594037927936, 45600362522391, 11217689798918,
    ⟨[[(13472956217461, 0), (20920822676, 0), (38110336, 0), (28136, 0), (0, 115)], [(0, 11926470070), (0, 77073786),
    (0, 233415), (0, 22), (2, 0)], [(37109762, 0), (364839, 0), (1275, 0), (0, 2)], [(0, 163422), (0, 1975), (0,
    6)]], 3, 4⟩, 17592186044416, 126990619,
    6915064339320983576668709031509296168155904738338866860506924027211495806741466629000094861151397474730218507665463637692169376,
    lc0⟩)))
theorem c45 : checkR job con0 true ⟨7, 9, 7, 9, 13, 17⟩ 1 9016 t45 453 21 320 31247 251 32000 = true := by decide +kernel

def t46 : CTree :=
  .sy (.sx (.sy (.leaf ⟨454, 16, 994, 355, 16, 1772, ⟨[[(11391315217817600, 0), (0, 1868986235400940), (25293759304,
    0), (317758, 0), (29, 0)], [(27852026127171237, 0), (0, 3524547675105), (10314361, 0), (0, 2140)],
    [(90724999210009, 0), (0, 3672168367), (0, 40873), (0, 6)], [(177520959161, 0), (626007, 0), (316, 0)]], 3, 4⟩,
    ⟨[[(0, 32386133796196352), (0, 1326975955184976), (5672680002, 0), (0, 321520), (0, 17)], [(0,
    36874173585956181), (179778414700, 0), (32167476, 0), (2394, 0)], [(17012066083480, 0), (0, 1228022378), (0,
    109197), (0, 7)], [(4134918765, 0), (466757, 0), (61, 0)]], 3, 4⟩, 72057594037927936, 32219034327198,
    8251753698074, ⟨[[(12897769037878, 0), (16949014672, 0), (26085180, 0), (20417, 0), (0, 31)], [(0, 12049567294),
    (0, 63886723), (0, 165837), (0, 114), (1, 0)], [(36381601, 0), (288374, 0), (929, 0)], [(0, 146181), (0, 1460),
    (0, 5)]], 3, 4⟩, 17592186044416, 122248372,
    11187153205467033697630114387386201483175629462498756109442247587732007750775745129555933791389063971342963360613903297690375133,
    lc0⟩) (.sx (.leaf ⟨670, 16, 1523, 540, 16, 2730, ⟨[[(30581826426912768, 0), (0, 2768413478695627), (39436143489,
    0), (616102, 0), (50, 0)], [(18598396804027060, 0), (0, 2633434359443), (6243373, 0), (0, 1637)],
    [(31936617762519, 0), (0, 1434853677), (0, 23204), (0, 3)], [(32754128054, 0), (159821, 0), (65, 0)]], 3, 4⟩,
    ⟨[[(22594428239806464, 0), (0, 2039685486880199), (7349664035, 0), (0, 595371), (0, 31)], [(0,
    28592564402659096), (186657478751, 0), (29674938, 0), (2181, 0)], [(6261736284389, 0), (0, 522584357), (0,
    46996), (0, 3)], [(493116951, 0), (64184, 0), (8, 0)]], 3, 4⟩, 72057594037927936, 3093683853381, 874891884626,
    ⟨[[(13029341894741, 0), (11582663115, 0), (12149623, 0), (6317, 0), (0, 8)], [(0, 8530656502), (0, 30976271), (0,
    55054), (0, 23)], [(18492722, 0), (101417, 0), (224, 0)], [(0, 54523), (0, 380), (0, 1)]], 3, 4⟩, 17592186044416,
    24721595,
    10359340254379503289761136659900935714307324020166728900784652709991188889039867235617686039350042680117204518981225745355799024,
    lc0⟩) (.leaf ⟨631, 16, 1408, 530, 16, 2762, ⟨[[(0, 30421327634309120), (0, 2663954532635851), (36667488381, 0),
    (502016, 0), (44, 0)], [(19838719490746883, 0), (0, 2545152631970), (4295983, 0), (0, 1697)], [(33494579376336,
    0), (0, 1305174619), (0, 13624), (0, 2)], [(32730795833, 0), (187621, 0), (63, 0)]], 3, 4⟩, ⟨[[(0,
    4202659055321088), (0, 2056588787410857), (8613661837, 0), (0, 514978), (0, 27)], [(0, 28391670028870955),
    (144912201315, 0), (26087014, 0), (1954, 0)], [(6442469159632, 0), (0, 515781403), (0, 45993), (0, 3)],
    [(1194992089, 0), (138123, 0), (16, 0)]], 3, 4⟩, 72057594037927936, 2884104297213, 813519280140,
    ⟨[[(12747232823683, 0), (10717707764, 0), (10933810, 0), (6180, 0), (0, 5)], [(0, 8266678650), (0, 28879411), (0,
    51319), (0, 31)], [(17822372, 0), (95137, 0), (219, 0)], [(0, 52006), (0, 358), (0, 1)]], 3, 4⟩, 17592186044416,
    24230061,
    10588276509755000262170955491151955064592992208685959376467318030026587667033988801934661182419226915674096000992106673897849089,
    lc0⟩))) (.sy (.sx (.leaf ⟨593, 16, 1261, 532, 16, 2785, ⟨[[(20296498992922624, 0), (0, 2516458094160736),
    (32461363740, 0), (311601, 0), (34, 0)], [(21640408386600101, 0), (0, 2381040546860), (5514298, 0), (0, 1532)],
    [(34404945809740, 0), (0, 1142267641), (0, 3331), (0, 1)], [(31450579454, 0), (131663, 0), (51, 0)]], 3, 4⟩,
    ⟨[[(19731764086063104, 0), (0, 2078554771025299), (10341492696, 0), (0, 397773), (0, 21)], [(0,
    28121275104563535), (81937881446, 0), (20056730, 0), (1536, 0)], [(6928552954078, 0), (0, 456680741), (0, 39671),
    (0, 3)], [(1751130638, 0), (176917, 0), (22, 0)]], 3, 4⟩, 72057594037927936, 2597916388759, 711537855006,
    ⟨[[(12482112205404, 0), (9774472815, 0), (9329010, 0), (5189, 0), (0, 3)], [(0, 8075524437), (0, 26190154), (0,
    43755), (0, 29)], [(17053526, 0), (84191, 0), (183, 0)], [(0, 47804), (0, 301), (0, 1)]], 3, 4⟩, 17592186044416,
    22224253,
    10106682075166801090923969856265989719284081473916467853770125979439741980627949297992076426710512967181257515886616446523138002,
    lc0⟩) (.leaf ⟨561, 16, 1165, 522, 16, 2819, ⟨[[(0, 30491026329837568), (0, 2419122844419284), (30202076900, 0),
    (227042, 0), (29, 0)], [(22820321017568853, 0), (0, 2287763642864), (5082140, 0), (0, 1475)], [(35576717442397,
    0), (0, 1039687702), (2737, 0)], [(31123416600, 0), (124014, 0), (45, 0)]], 3, 4⟩, ⟨[[(25548373938413568, 0), (0,
    2101248217157840), (11251307740, 0), (0, 342030), (0, 18)], [(0, 27865085850795282), (45134769837, 0), (17054414,
    0), (1333, 0)], [(7272505154803, 0), (0, 436962899), (0, 37054), (0, 3)], [(2334852894, 0), (220156, 0), (27,
    0)]], 3, 4⟩, 72057594037927936, 2433238785012, 649374704863, ⟨[[(12219357023639, 0), (9026812003, 0), (8300098,
    0), (4731, 0), (0, 1)], [(0, 7833678171), (0, 24289952), (0, 39784), (0, 30)], [(16453741, 0), (78440, 0), (169,
    0)], [(0, 45862), (0, 278), (0, 1)]], 3, 4⟩, 17592186044416, 22052874,
    9824387658690993167609221509593949309505376406933676154896268404175423907316382306855310032985744727315963503881534056726125550,
    lc0⟩)) (.sx (.leaf ⟨594, 16, 1300, 520, 16, 2794, ⟨[[(0, 23437860577468416), (0, 2560426531488614), (34003692467,
    0), (394915, 0), (38, 0)], [(21078678779266426, 0), (0, 2450195627993), (3221882, 0), (0, 1692)],
    [(34876859977248, 0), (0, 1181878713), (0, 5142), (0, 1)], [(32505186858, 0), (191680, 0), (59, 0)]], 3, 4⟩,
    ⟨[[(0, 35874988367052800), (0, 2075168032528319), (9741087054, 0), (0, 443183), (0, 23)], [(0,
    28165614617862942), (103615699356, 0), (22580721, 0), (1727, 0)], [(6710572897937, 0), (0, 500198798), (0,
    44010), (0, 3)], [(1851506989, 0), (200115, 0), (23, 0)]], 3, 4⟩, 72057594037927936, 2685965359438, 745210911974,
    ⟨[[(12484849100908, 0), (9934673263, 0), (9819334, 0), (5825, 0), (0, 3)], [(0, 8052640171), (0, 27011275), (0,
    47444), (0, 35)], [(17326927, 0), (89563, 0), (209, 0)], [(0, 50228), (0, 337), (0, 1)]], 3, 4⟩, 17592186044416,
    24192686,
    10266557110063513919553334448948315761057942115773665331980196630924267605231542174549536694342861255226628926461348859520911996,
    lc0⟩) (.leaf ⟨560, 16, 1199, 509, 16, 2827, ⟨[[(0, 21534723351461888), (0, 2458323789655198), (31482314325, 0),
    (297003, 0), (33, 0)], [(22305469752749952, 0), (0, 2350455710866), (2858594, 0), (0, 1633)], [(36078498498507,
    0), (0, 1067592388), (2008, 0), (0, 1)], [(32107955049, 0), (177046, 0), (52, 0)]], 3, 4⟩, ⟨[[(14092813869436928,
    0), (0, 2096151459490155), (10739035061, 0), (0, 380134), (0, 19)], [(0, 27916957498602740), (63486595949, 0),
    (19241890, 0), (1506, 0)], [(7063469338816, 0), (0, 477510485), (0, 41200), (0, 3)], [(2459297314, 0), (248948,
    0), (29, 0)]], 3, 4⟩, 72057594037927936, 2498839031534, 673460062823, ⟨[[(12221761093957, 0), (9177267835, 0),
    (8743589, 0), (5319, 0), (0, 1)], [(0, 7819979926), (0, 25081315), (0, 43146), (0, 35)], [(16743259, 0), (83406,
    0), (193, 0)], [(0, 48166), (0, 310), (0, 1)]], 3, 4⟩, 17592186044416, 23923068,
    9933968595876662166264886005447947405510145527998862441005712924398997210604489235137120720102880632687416424336448045386991905,
    lc0⟩)))) (.sx (.sy (.sx (.leaf ⟨674, 16, 1577, 528, 16, 2739, ⟨[[(26573316561920000, 0), (0, 2825064470443447),
    (41875754054, 0), (746627, 0), (57, 0)], [(17890382706521100, 0), (0, 2721621680462), (3838102, 0), (0, 1795)],
    [(32316725598455, 0), (0, 1512004991), (0, 28395), (0, 3)], [(34016157680, 0), (236848, 0), (75, 0)]], 3, 4⟩,
    ⟨[[(0, 9878600957984768), (0, 2039473929180157), (6426227854, 0), (0, 661892), (0, 33)], [(0, 28585027488266453),
    (218878736467, 0), (33247654, 0), (2429, 0)], [(6006907810551, 0), (0, 573976725), (0, 51859), (0, 3)],
    [(529129632, 0), (72615, 0), (8, 0)]], 3, 4⟩, 72057594037927936, 3237494792566, 933189747226, ⟨[[(13033976625585,
    0), (11813397416, 0), (12913807, 0), (7219, 0), (0, 9)], [(0, 8526632901), (0, 32290919), (0, 61059), (0, 29)],
    [(19030663, 0), (110870, 0), (265, 0)], [(0, 59051), (0, 443), (0, 1)]], 3, 4⟩, 17592186044416, 28359045,
    9727178151532780580210531869910591006930908743818346333827017722500476716574010028383778437538433905194256957190581050576658850,
    lc0⟩) (.leaf ⟨633, 16, 1456, 517, 16, 2771, ⟨[[(1212368345661440, 0), (0, 2716285875029258), (38770496527, 0),
    (615116, 0), (50, 0)], [(19194710022651968, 0), (0, 2628813927671), (1714592, 0), (0, 1869)], [(33955098193290,
    0), (0, 1365368858), (0, 17248), (0, 2)], [(33961159990, 0), (263539, 0), (73, 0)]], 3, 4⟩,
    ⟨[[(23315499493744640, 0), (0, 2055018275845149), (7822261728, 0), (0, 572206), (0, 29)], [(0,
    28404351224829513), (173198097942, 0), (29289275, 0), (2182, 0)], [(6191681274358, 0), (0, 566116372), (0,
    50845), (0, 3)], [(1272629750, 0), (155373, 0), (17, 0)]], 3, 4⟩, 72057594037927936, 3001305108703, 863489237406,
    ⟨[[(12746628575552, 0), (10916077471, 0), (11603778, 0), (7095, 0), (0, 6)], [(0, 8249027445), (0, 30013727), (0,
    56767), (0, 39)], [(18256662, 0), (103373, 0), (259, 0)], [(0, 55866), (0, 416), (0, 1)]], 3, 4⟩, 17592186044416,
    27961299,
    10462902293840708588440753424019071401628724478439202501259758238797271382626265395674561012758456041120281620166005263887712412,
    lc0⟩)) (.sx (.leaf ⟨679, 16, 1635, 516, 16, 2749, ⟨[[(0, 5811743828238336), (0, 2884761511262810), (44673085879,
    0), (897316, 0), (64, 0)], [(17132628493346219, 0), (0, 2819158081252), (1095298, 0), (0, 1971)],
    [(32710519626270, 0), (0, 1599652951), (0, 34469), (0, 4)], [(35410655501, 0), (327183, 0), (85, 0)]], 3, 4⟩,
    ⟨[[(0, 32331998655209472), (0, 2040963844127414), (5397808487, 0), (0, 733305), (0, 35)], [(0,
    28570386572543390), (255088150082, 0), (37234831, 0), (2699, 0)], [(5726111257781, 0), (0, 630874441), (0,
    57193), (0, 4)], [(569731604, 0), (81194, 0), (8, 0)]], 3, 4⟩, 72057594037927936, 3398197440479, 997478445844,
    ⟨[[(13033714161077, 0), (12040455970, 0), (13746586, 0), (8345, 0), (0, 11)], [(0, 8510991362), (0, 33703196),
    (0, 68179), (0, 37)], [(19609362, 0), (121935, 0), (318, 0)], [(0, 64249), (0, 519), (0, 1)]], 3, 4⟩,
    17592186044416, 33047094,
    8267009656783884010300190818328001436516200699187164238330771504401274443664236512178753692922118697335567052587450247833886931,
    lc0⟩) (.leaf ⟨636, 16, 1507, 505, 16, 2781, ⟨[[(0, 18370535407042560), (0, 2770633335105418), (41168034518, 0),
    (745449, 0), (57, 0)], [(18501361645837086, 0), (0, 2720606847179), (0, 1233062), (0, 2061)], [(34430237475027,
    0), (0, 1432925604), (0, 21522), (0, 3)], [(35307347618, 0), (352536, 0), (84, 0)]], 3, 4⟩, ⟨[[(0,
    10905821467406336), (0, 2055001413410341), (6941458799, 0), (0, 633513), (0, 30)], [(0, 28411905728292462),
    (205050296741, 0), (32870516, 0), (2429, 0)], [(5915527944195, 0), (0, 621935274), (0, 56168), (0, 4)],
    [(1359922257, 0), (173706, 0), (18, 0)]], 3, 4⟩, 72057594037927936, 3130189041900, 917941010631,
    ⟨[[(12749462733790, 0), (11122454636, 0), (12329030, 0), (8179, 0), (0, 6)], [(0, 8238771511), (0, 31266065), (0,
    63120), (0, 50)], [(18770982, 0), (113123, 0), (309, 0)], [(0, 60490), (0, 486), (0, 2)]], 3, 4⟩, 17592186044416,
    33042962,
    9771863938570142536557588451892313984079048630613511741886798769545683527603370272143093882054259638759859061696898813715353464,
    lc0⟩))) (.sy (.sx (.leaf ⟨595, 16, 1342, 507, 16, 2803, ⟨[[(0, 31372259367329792), (0, 2607576527565105),
    (35778236335, 0), (491326, 0), (44, 0)], [(20490558981430248, 0), (0, 2527367750648), (603358, 0), (0, 1870)],
    [(35389676640037, 0), (0, 1226390951), (0, 7346), (0, 1)], [(33670624249, 0), (262564, 0), (68, 0)]], 3, 4⟩,
    ⟨[[(0, 21229053830688768), (0, 2072388841484497), (9067659112, 0), (0, 491875), (0, 24)], [(0,
    28198224511860120), (128053505423, 0), (25413125, 0), (1934, 0)], [(6468775665040, 0), (0, 548414810), (0,
    48752), (0, 3)], [(1964265603, 0), (224981, 0), (25, 0)]], 3, 4⟩, 72057594037927936, 2778177982791, 784741738387,
    ⟨[[(12481974166110, 0), (10098341041, 0), (10369648, 0), (6630, 0), (0, 3)], [(0, 8020535293), (0, 27915769), (0,
    51916), (0, 43)], [(17631243, 0), (96054, 0), (243, 0)], [(0, 53161), (0, 383), (0, 1)]], 3, 4⟩, 17592186044416,
    27276110,
    10456305404297662546045046184528545469574704273300846727447410684457046302770880884059374144096074312240681566232606374205423520,
    lc0⟩) (.leaf ⟨559, 16, 1236, 496, 16, 2836, ⟨[[(31148885493792768, 0), (0, 2501352505698201), (32968261683, 0),
    (378162, 0), (38, 0)], [(21777980767657198, 0), (0, 2421334287192), (316759, 0), (0, 1810)], [(36639816154079,
    0), (0, 1098960501), (1036, 0), (0, 1)], [(33204549717, 0), (240034, 0), (61, 0)]], 3, 4⟩, ⟨[[(14699220942299136,
    0), (0, 2092306582803471), (10169310035, 0), (0, 421063), (0, 20)], [(0, 27968800598742662), (84256292676, 0),
    (21713850, 0), (1693, 0)], [(6834704381500, 0), (0, 522712655), (0, 45747), (0, 3)], [(2600022053, 0), (280085,
    0), (31, 0)]], 3, 4⟩, 72057594037927936, 2568654518329, 703086008505, ⟨[[(12227363874440, 0), (9345163999, 0),
    (9251027, 0), (6046, 0), (0, 1)], [(0, 7819239802), (0, 26018776), (0, 47267), (0, 43)], [(17133018, 0), (89679,
    0), (225, 0)], [(0, 51198), (0, 354), (0, 1)]], 3, 4⟩, 17592186044416, 27017365,
    9945494931865343525162587395669816807761592603572433405968141723264662826207092337338523825104329320058701377235285865253051714,
    lc0⟩)) (.sx (.leaf ⟨596, 16, 1387, 494, 16, 2813, ⟨[[(0, 10331295015501824), (0, 2657480769832485), (37813021364,
    0), (602625, 0), (49, 0)], [(19866275687784866, 0), (0, 2612984285221), (0, 2388169), (0, 2068)],
    [(35937963209396, 0), (0, 1276321514), (0, 10004), (0, 2)], [(34954269292, 0), (345889, 0), (78, 0)]], 3, 4⟩,
    ⟨[[(3958509451239424, 0), (0, 2071031587406726), (8319083791, 0), (0, 543916), (0, 26)], [(0, 28227633106854741),
    (155637580135, 0), (28589047, 0), (2159, 0)], [(6202824343501, 0), (0, 601981584), (0, 53955), (0, 3)],
    [(2091060893, 0), (251745, 0), (27, 0)]], 3, 4⟩, 72057594037927936, 2874614181093, 830812197864,
    ⟨[[(12480704068045, 0), (10276605594, 0), (10995958, 0), (7636, 0), (0, 3)], [(0, 8000818250), (0, 28993080), (0,
    57465), (0, 54)], [(18053732, 0), (104376, 0), (289, 0)], [(0, 57070), (0, 446), (0, 2)]], 3, 4⟩, 17592186044416,
    32162251,
    10311115992116390776407801248770536635877238620681983806697523021585311734333387888118750985922502590574099783592815121353269996,
    lc0⟩) (.leaf ⟨559, 16, 1275, 483, 16, 2845, ⟨[[(16431014271950848, 0), (0, 2545819112761375), (34656511815, 0),
    (471711, 0), (43, 0)], [(21211128578861742, 0), (0, 2498853807056), (0, 2589124), (0, 2006)], [(37227007356449,
    0), (0, 1133190378), (0, 218), (0, 1)], [(34392966281, 0), (314200, 0), (70, 0)]], 3, 4⟩, ⟨[[(13761656607555584,
    0), (0, 2089033914025379), (9533995964, 0), (0, 464534), (0, 22)], [(0, 28009417997006306), (107725991166, 0),
    (24486156, 0), (1894, 0)], [(6581197764611, 0), (0, 572836414), (0, 50720), (0, 3)], [(2757433761, 0), (313685,
    0), (34, 0)]], 3, 4⟩, 72057594037927936, 2639045735938, 738521746801, ⟨[[(12225824620024, 0), (9498048717, 0),
    (9767729, 0), (6886, 0), (0, 1)], [(0, 7792277912), (0, 26899493), (0, 51739), (0, 54)], [(17450959, 0), (96228,
    0), (262, 0)], [(0, 54207), (0, 403), (0, 1)]], 3, 4⟩, 17592186044416, 30804448,
    9852325896543434724269612475644136934989068750771162320001781240255142568398187912308553941867072607632477162187076738983936441,
    lc0⟩))))
theorem c46 : checkR job con0 true ⟨7, 9, 7, 9, 13, 17⟩ 1 9016 t46 495 21 320 31247 251 32000 = true := by decide +kernel

def t47 : CTree :=
  .sy (.sx (.sy (.leaf ⟨686, 16, 1765, 347, 16, 1701, ⟨[[(0, 34810532780957696), (0, 2656831400645526), (48879314269,
    0), (1337331, 0), (80, 0)], [(18190966949683002, 0), (0, 5007025597350), (32467296, 0), (0, 1378)],
    [(79694078183094, 0), (0, 7490305794), (0, 310968), (0, 25)], [(219438380098, 0), (0, 226862), (392, 0)]], 3, 4⟩,
    ⟨[[(8475680423534592, 0), (0, 1295895185919174), (0, 1987595346), (0, 820710), (0, 39)], [(0, 37186628075610502),
    (611800087076, 0), (73716841, 0), (5032, 0)], [(14484522045357, 0), (0, 1569081395), (0, 140060), (0, 8)], [(0,
    13899804218), (0, 1840079), (0, 191)]], 3, 4⟩, 72057594037927936, 58500227561437, 12837020450500,
    ⟨[[(14101259177333, 0), (24894253704, 0), (48067377, 0), (17057, 0), (0, 238)], [(0, 12105509521), (0, 86408847),
    (0, 246184), (358, 0), (4, 0)], [(37290278, 0), (381902, 0), (983, 0), (0, 6)], [(0, 158674), (0, 1813), (0,
    2)]], 3, 4⟩, 17592186044416, 97235541,
    8124127961793498757439917622053315340159536682649455378117069122574420587572328797342186168425233620594381781282396491235889036,
    lc0⟩) (.leaf ⟨710, 16, 1878, 340, 16, 1711, ⟨[[(0, 7510939749826560), (0, 2773592307896924), (54284109730, 0),
    (1601344, 0), (93, 0)], [(16689672770489999, 0), (0, 5294005266660), (32361217, 0), (0, 1435)], [(80708661502010,
    0), (0, 8322491086), (0, 372193), (0, 29)], [(233474003115, 0), (193184, 0), (449, 0)]], 3, 4⟩,
    ⟨[[(4949876003672064, 0), (0, 1306164910652338), (0, 3302305576), (0, 905714), (0, 41)], [(0, 37076973363541047),
    (693792915944, 0), (82142302, 0), (5559, 0)], [(13740803273099, 0), (0, 1726127456), (0, 153766), (0, 9)], [(0,
    14960859475), (0, 2054585), (0, 214)]], 3, 4⟩, 72057594037927936, 64213074246471, 13872782042015,
    ⟨[[(14106785173459, 0), (25558018333, 0), (52056317, 0), (19029, 0), (0, 314)], [(0, 12019721843), (0, 91168460),
    (0, 279220), (429, 0), (5, 0)], [(38480199, 0), (422372, 0), (1188, 0), (0, 8)], [(0, 169760), (0, 2064), (0,
    3)]], 3, 4⟩, 17592186044416, 105011310,
    11073357295089819457613579403371020125056171914269748584873784147819345649974010577023443215991043465925125048029099662710225462,
    lc0⟩)) (.sy (.leaf ⟨575, 16, 1453, 335, 16, 1751, ⟨[[(0, 9464145923440640), (0, 2371152213210047), (40938406716,
    0), (1018953, 0), (65, 0)], [(21514435727915255, 0), (0, 4636947677873), (7364886, 0), (0, 2727)],
    [(90951474531499, 0), (0, 6052324435), (0, 200240), (0, 17)], [(221827295715, 0), (1890862, 0), (550, 0)]], 3,
    4⟩, ⟨[[(26087170369400832, 0), (0, 1310498490897938), (874971722, 0), (0, 642993), (0, 30)], [(0,
    37084153200130700), (486687015093, 0), (62994679, 0), (4414, 0)], [(13774325715711, 0), (0, 1761740395), (0,
    159669), (0, 10)], [(0, 3890071573), (0, 462310), (0, 52)]], 3, 4⟩, 72057594037927936, 49067352329350,
    12062561416179, ⟨[[(13461732935763, 0), (21334905772, 0), (40854060, 0), (33189, 0), (0, 143)], [(0,
    11751764104), (0, 80094896), (0, 261983), (0, 50), (3, 0)], [(37642105, 0), (398000, 0), (1525, 0), (0, 3)], [(0,
    173493), (0, 2253), (0, 8)]], 3, 4⟩, 17592186044416, 138821499,
    7435814868669922428566799891400473730038596141111927735995048223791876373573533605505763534994735464462801721985454132805183553,
    lc0⟩) (.sx (.leaf ⟨796, 16, 2082, 512, 16, 2704, ⟨[[(32190455749361664, 0), (0, 3268879783083435), (60919349704,
    0), (1694557, 0), (102, 0)], [(12477444044961090, 0), (0, 3223504271174), (5827799, 0), (0, 1751)],
    [(29018299501136, 0), (0, 2269948107), (0, 87960), (0, 7)], [(38024362448, 0), (350434, 0), (97, 0)]], 3, 4⟩,
    ⟨[[(7720096233086976, 0), (0, 2032469198841663), (0, 1379901641), (0, 1169296), (0, 53)], [(0,
    28642068639904768), (458404412415, 0), (56842534, 0), (3918, 0)], [(5026879907563, 0), (0, 736351379), (0,
    66528), (0, 4)], [(0, 1316762962), (0, 172771), (0, 19)]], 3, 4⟩, 72057594037927936, 4492191203710,
    1293712413927, ⟨[[(13627387900758, 0), (14728592117, 0), (19391945, 0), (9737, 0), (0, 37)], [(0, 9150161515),
    (0, 43523231), (0, 97213), (7, 0), (1, 0)], [(23570772, 0), (173368, 0), (434, 0), (0, 1)], [(0, 87227), (0,
    763), (0, 2)]], 3, 4⟩, 17592186044416, 43382915,
    9761287699595181368130024248093189889986863203180413641785794770890898932897376560717834690723250049928985734384466119894098623,
    lc0⟩) (.leaf ⟨742, 16, 1920, 502, 16, 2738, ⟨[[(0, 9062032137977856), (0, 3143047156185058), (56268865405, 0),
    (1483637, 0), (92, 0)], [(13946208844640890, 0), (0, 3146515025969), (0, 931212), (0, 2140)], [(31399818366040,
    0), (0, 2042143459), (0, 68649), (0, 6)], [(38576173869, 0), (483321, 0), (107, 0)]], 3, 4⟩, ⟨[[(0,
    16902791354171392), (0, 2039855806306129), (900165007, 0), (0, 1024591), (0, 46)], [(0, 28579849918440015),
    (400870576879, 0), (51822485, 0), (3622, 0)], [(4987865736939, 0), (0, 758461736), (0, 68873), (0, 4)], [(0,
    300699046), (0, 31264), (0, 5)]], 3, 4⟩, 72057594037927936, 4135492988717, 1226455977095, ⟨[[(13321965341242, 0),
    (13600171283, 0), (17617198, 0), (11254, 0), (0, 26)], [(0, 8811548105), (0, 40466429), (0, 94261), (0, 37)],
    [(22409898, 0), (164819, 0), (471, 0)], [(0, 83605), (0, 766), (0, 2)]], 3, 4⟩, 17592186044416, 44419565,
    8222669186167851557629220816069097216159937045594492606812397941478882468658206342176940112305700391621365456095470944454442475,
    lc0⟩)))) (.sx (.sy (.sx (.leaf ⟨932, 16, 2542, 519, 16, 2641, ⟨[[(27552290343927808, 0), (0, 3605277534893381),
    (76443869717, 0), (2445243, 0), (136, 0)], [(8467048938332820, 0), (0, 3437648967642), (26487881, 0), (0, 498)],
    [(23447642060581, 0), (0, 2952157304), (0, 145792), (0, 11)], [(37187012962, 0), (0, 52813), (64, 0)]], 3, 4⟩,
    ⟨[[(9455634876424192, 0), (0, 2035295507397560), (0, 8802087367), (0, 1629664), (0, 72)], [(0,
    28541969684953112), (632413342855, 0), (72819769, 0), (4859, 0)], [(5166401066501, 0), (0, 697856077), (0,
    61586), (0, 4)], [(0, 3692278381), (0, 527771), (0, 55)]], 3, 4⟩, 72057594037927936, 5566918557900,
    1476306201189, ⟨[[(14280717052847, 0), (17679983039, 0), (24563436, 0), (3350, 0), (0, 79)], [(0, 9989740716),
    (0, 52646843), (0, 106586), (152, 0), (1, 0)], [(27186890, 0), (202951, 0), (351, 0), (0, 2)], [(0, 99050), (0,
    793), (0, 1)]], 3, 4⟩, 17592186044416, 40039695,
    9739653274376549163727779383390011403880003326976873001550867608625064359097576700721233621431934907019079650458511365152753775,
    lc0⟩) (.leaf ⟨870, 16, 2358, 510, 16, 2679, ⟨[[(2870129689722880, 0), (0, 3483072291390869), (71708955995, 0),
    (2231407, 0), (126, 0)], [(9871449791023715, 0), (0, 3418570889207), (13581427, 0), (0, 1286)], [(26372026482882,
    0), (0, 2725570774), (0, 125732), (0, 10)], [(38874264793, 0), (248878, 0), (91, 0)]], 3, 4⟩, ⟨[[(0,
    10812328964362240), (0, 2038921897692141), (0, 5940280617), (0, 1452705), (0, 64)], [(0, 28530111973536957),
    (579529516719, 0), (68357498, 0), (4609, 0)], [(4844774621743, 0), (0, 764196151), (0, 68356), (0, 4)], [(0,
    2546207198), (0, 359275), (0, 38)]], 3, 4⟩, 72057594037927936, 5224379916761, 1448355797331, ⟨[[(13947011308954,
    0), (16368356085, 0), (22965263, 0), (8406, 0), (0, 64)], [(0, 9583632279), (0, 49865744), (0, 112459), (70, 0),
    (1, 0)], [(26183915, 0), (203139, 0), (461, 0), (0, 1)], [(0, 99232), (0, 864), (0, 1)]], 3, 4⟩, 17592186044416,
    44659796,
    11083964121844100921550851814524982770288861112953701590668062639956263986635836894378983277409366877884024385118088870192332186,
    lc0⟩)) (.sx (.leaf ⟨956, 16, 2677, 507, 16, 2651, ⟨[[(0, 19115124036272128), (0, 3713899524255753), (84604004488,
    0), (2874375, 0), (155, 0)], [(7106332665854499, 0), (0, 3592587961157), (27156713, 0), (0, 455)],
    [(23092046146717, 0), (0, 3271932984), (0, 171411), (0, 12)], [(39151284293, 0), (13914, 0), (71, 0)]], 3, 4⟩,
    ⟨[[(0, 12237548130553856), (0, 2053146488999399), (0, 11409995347), (0, 1784629), (0, 76)], [(0,
    28312317023957784), (711997538654, 0), (80785065, 0), (5341, 0)], [(4818275708223, 0), (0, 765326705), (0,
    67402), (0, 4)], [(0, 3986503721), (0, 587741), (0, 61)]], 3, 4⟩, 72057594037927936, 6093033013034,
    1594694875423, ⟨[[(14279818269306, 0), (18255695800, 0), (27094131, 0), (4352, 0), (0, 104)], [(0, 10100874285),
    (0, 57168343), (0, 126396), (173, 0), (1, 0)], [(29009775, 0), (232643, 0), (455, 0), (0, 2)], [(0, 109270), (0,
    932), (0, 1)]], 3, 4⟩, 17592186044416, 44219709,
    9328811771234110304062950116465691066421810606278016008691077576113957174085098863597978764653402396567026776685137717514083780,
    lc0⟩) (.leaf ⟨890, 16, 2481, 497, 16, 2689, ⟨[[(11572616700870656, 0), (0, 3587164278240166), (79192070368, 0),
    (2626222, 0), (144, 0)], [(8584161814751925, 0), (0, 3583572648703), (12241757, 0), (0, 1367)], [(26273419489607,
    0), (0, 3008400368), (0, 148132), (0, 11)], [(41058333194, 0), (362007, 0), (104, 0)]], 3, 4⟩,
    ⟨[[(34021225696428032, 0), (0, 2053654094331069), (0, 8256754181), (0, 1589896), (0, 67)], [(0,
    28326708059162752), (654186346699, 0), (75907653, 0), (5067, 0)], [(4459990624425, 0), (0, 839061718), (0,
    74933), (0, 4)], [(0, 2746738629), (0, 401184), (0, 43)]], 3, 4⟩, 72057594037927936, 5685554723130,
    1570306856954, ⟨[[(13937821558608, 0), (16873730185, 0), (25401728, 0), (10882, 0), (0, 82)], [(0, 9660276187),
    (0, 54180617), (0, 134382), (68, 0), (1, 0)], [(27961165, 0), (234592, 0), (595, 0), (0, 1)], [(0, 110477), (0,
    1029), (0, 2)]], 3, 4⟩, 17592186044416, 50033541,
    11883776993341675296777979061615853963441653464570137213322202683876531541676661557977837339895167467273158581472744819632390974,
    lc0⟩))) (.sy (.sx (.leaf ⟨810, 16, 2179, 500, 16, 2715, ⟨[[(0, 3956680417001472), (0, 3355767784806379),
    (66594323779, 0), (1996861, 0), (116, 0)], [(11366478099055144, 0), (0, 3368966520140), (3285332, 0), (0, 1905)],
    [(29153485404870, 0), (0, 2473963924), (0, 103855), (0, 8)], [(40006453057, 0), (473522, 0), (111, 0)]], 3, 4⟩,
    ⟨[[(0, 2424161801297920), (0, 2043043228536537), (0, 3235254687), (0, 1283396), (0, 56)], [(0,
    28512638497912893), (520639878667, 0), (63282766, 0), (4317, 0)], [(4658828459852, 0), (0, 809515021), (0,
    73069), (0, 4)], [(0, 1414245564), (0, 193996), (0, 22)]], 3, 4⟩, 72057594037927936, 4831925939413,
    1398844187841, ⟨[[(13624617748081, 0), (15115911499, 0), (21146067, 0), (11898, 0), (0, 47)], [(0, 9194225162),
    (0, 46706916), (0, 113675), (0, 2), (1, 0)], [(24999848, 0), (198518, 0), (545, 0), (0, 1)], [(0, 97559), (0,
    911), (0, 2)]], 3, 4⟩, 17592186044416, 48668705,
    11581538012364313646475332614074916358748719896370338074772911254592237790620446783810438561858041301585234769890977383560732290,
    lc0⟩) (.leaf ⟨753, 16, 2007, 490, 16, 2749, ⟨[[(0, 13674017194229760), (0, 3225190388746636), (61303995132, 0),
    (1752666, 0), (105, 0)], [(12926490488649266, 0), (0, 3291789675912), (0, 4431389), (0, 2357)], [(31732133521550,
    0), (0, 2211525027), (0, 81472), (0, 7)], [(40606899926, 0), (622948, 0), (122, 0)]], 3, 4⟩, ⟨[[(0,
    34980713018187776), (0, 2047944970355226), (0, 716445985), (0, 1123762), (0, 48)], [(0, 28479041826497353),
    (457557437653, 0), (57772760, 0), (3993, 0)], [(4607659604972, 0), (0, 834195524), (0, 75740), (0, 5)], [(0,
    318982165), (0, 36844), (0, 6)]], 3, 4⟩, 72057594037927936, 4424231917198, 1325906167921, ⟨[[(13324640890531, 0),
    (13957334816, 0), (19205356, 0), (13713, 0), (0, 31)], [(0, 8855258466), (0, 43411556), (0, 110396), (0, 56), (1,
    0)], [(23787704, 0), (189642, 0), (592, 0)], [(0, 94357), (0, 926), (0, 3)]], 3, 4⟩, 17592186044416, 51900432,
    11374869884245520623007361034323086637193832998926909407216751276578775336472670079695452049939939002880476889077482146413237057,
    lc0⟩)) (.sx (.leaf ⟨826, 16, 2288, 488, 16, 2726, ⟨[[(11626526284251136, 0), (0, 3451779856991927), (73272469152,
    0), (2351493, 0), (132, 0)], [(10159855473596181, 0), (0, 3535561441599), (375674, 0), (0, 2083)],
    [(29279179948749, 0), (0, 2713905246), (0, 122598), (0, 9)], [(42287418610, 0), (618884, 0), (126, 0)]], 3, 4⟩,
    ⟨[[(0, 22518059731066880), (0, 2055585045876312), (0, 5275229826), (0, 1404061), (0, 59)], [(0,
    28349165878799439), (589922180893, 0), (70375536, 0), (4749, 0)], [(4250628415288, 0), (0, 889850582), (0,
    80232), (0, 5)], [(0, 1523495385), (0, 218125), (0, 25)]], 3, 4⟩, 72057594037927936, 5232164683643,
    1512485978226, ⟨[[(13630905967263, 0), (15597792581, 0), (23380337, 0), (14893, 0), (0, 59)], [(0, 9301767850),
    (0, 50913474), (0, 135735), (0, 17), (1, 0)], [(26926957, 0), (231407, 0), (694, 0), (0, 1)], [(0, 110601), (0,
    1099), (0, 3)]], 3, 4⟩, 17592186044416, 55503611,
    12348477014514052226149893255495318074137251213304396606345476123297060142327274755923077381733058879639518544206110257045134110,
    lc0⟩) (.leaf ⟨765, 16, 2102, 477, 16, 2760, ⟨[[(10055842112913408, 0), (0, 3311945584220659), (67140747220, 0),
    (2065215, 0), (119, 0)], [(11806173895903616, 0), (0, 3454163291495), (0, 8458428), (0, 2603)], [(32048998994355,
    0), (0, 2407387803), (0, 96478), (0, 8)], [(42889774064, 0), (786826, 0), (140, 0)]], 3, 4⟩,
    ⟨[[(10403030414876672, 0), (0, 2057739813885736), (0, 2493201361), (0, 1228240), (0, 51)], [(0,
    28347250115868855), (520750887474, 0), (64328997, 0), (4395, 0)], [(4185898763800, 0), (0, 917451904), (0,
    83262), (0, 5)], [(0, 340472037), (0, 43766), (0, 7)]], 3, 4⟩, 72057594037927936, 4749639861917, 1427547110045,
    ⟨[[(13318511123917, 0), (14342261798, 0), (21142117, 0), (17218, 0), (0, 38)], [(0, 8906251375), (0, 46998893),
    (0, 131696), (0, 87), (1, 0)], [(25424521, 0), (220780, 0), (757, 0)], [(0, 106995), (0, 1126), (0, 4)]], 3, 4⟩,
    17592186044416, 60027467,
    12425038015638647107429037025449342163046461143907790809782966418956318685920493707424728495309398629507276749091333150891515875,
    lc0⟩))))
theorem c47 : checkR job con0 true ⟨7, 9, 7, 9, 13, 17⟩ 1 9016 t47 453 21 320 31749 251 32000 = true := by decide +kernel

def t48 : CTree :=
  .sy (.sx (.sy (.leaf ⟨480, 16, 1183, 323, 16, 1798, ⟨[[(18893451910832128, 0), (0, 2097656008449109), (33331177840,
    0), (713655, 0), (50, 0)], [(24752420154567138, 0), (0, 4178867880153), (0, 5087550), (0, 3246)],
    [(98943920296412, 0), (0, 4658491726), (0, 98445), (0, 10)], [(214522452487, 0), (2614636, 0), (563, 0)]], 3, 4⟩,
    ⟨[[(0, 35083998775595008), (0, 1327887153795238), (3324561735, 0), (0, 487617), (0, 23)], [(0,
    36895339059169694), (347564029007, 0), (50865017, 0), (3685, 0)], [(14249290739782, 0), (0, 1788849282), (0,
    162456), (0, 10)], [(5410252683, 0), (743184, 0), (73, 0)]], 3, 4⟩, 72057594037927936, 39739088281535,
    10565562285127, ⟨[[(12899592252922, 0), (18273370285, 0), (33334459, 0), (35985, 0), (0, 58)], [(0, 11570898393),
    (0, 72858332), (0, 245655), (0, 295), (2, 0)], [(38020181, 0), (387208, 0), (1754, 0), (1, 0)], [(0, 181673), (0,
    2457), (0, 12)]], 3, 4⟩, 17592186044416, 183320335,
    9707132085342166131266238153917711824734903120145805494498081735916855635527545391158889990195881850587197577143973115328708093,
    lc0⟩) (.leaf ⟨489, 16, 1242, 315, 16, 1806, ⟨[[(0, 310253025685504), (0, 2166545972637142), (36202946380, 0),
    (858463, 0), (57, 0)], [(23782703503705009, 0), (0, 4395274210476), (0, 10634849), (0, 3624)], [(101395946219768,
    0), (0, 5002935810), (0, 120256), (0, 12)], [(226753228089, 0), (3367702, 0), (650, 0)]], 3, 4⟩, ⟨[[(0,
    24008796407123968), (0, 1330824597166059), (2566978651, 0), (0, 536315), (0, 24)], [(0, 36870892163305947),
    (403297744044, 0), (56946228, 0), (4079, 0)], [(13368256551516, 0), (0, 1968557363), (0, 179181), (0, 11)],
    [(5827685651, 0), (821200, 0), (76, 0)]], 3, 4⟩, 72057594037927936, 42264534151992, 11323379752871,
    ⟨[[(12893525835195, 0), (18624963061, 0), (35723929, 0), (42751, 0), (0, 65)], [(0, 11429444209), (0, 75828419),
    (0, 277246), (0, 390), (2, 0)], [(38693281, 0), (425424, 0), (2116, 0), (2, 0)], [(0, 194810), (0, 2851), (0,
    16)]], 3, 4⟩, 17592186044416, 204593719,
    7413648999489532279616799555400279760962865004810493573563747195379544322387968525310497771598949261992641528605895053472282498,
    lc0⟩)) (.sy (.sx (.leaf ⟨597, 16, 1435, 481, 16, 2822, ⟨[[(33217793718280192, 0), (0, 2709672469564270),
    (40140199888, 0), (730801, 0), (56, 0)], [(19195778346560058, 0), (0, 2707547702401), (0, 5805283), (0, 2290)],
    [(36515945296087, 0), (0, 1332274637), (0, 13181), (0, 2)], [(36364693724, 0), (443443, 0), (90, 0)]], 3, 4⟩,
    ⟨[[(13656589626208256, 0), (0, 2069704373776325), (7484268030, 0), (0, 598768), (0, 27)], [(0,
    28232056649411998), (186625793799, 0), (32115748, 0), (2399, 0)], [(5905415718504, 0), (0, 660973288), (0,
    59628), (0, 4)], [(2231441080, 0), (280391, 0), (29, 0)]], 3, 4⟩, 72057594037927936, 2978183485570, 876433533216,
    ⟨[[(12483993520962, 0), (10484891517, 0), (11738221, 0), (8924, 0), (0, 3)], [(0, 8004851179), (0, 30349852), (0,
    64622), (0, 70)], [(18661036, 0), (115479, 0), (352, 0)], [(0, 62442), (0, 532), (0, 2)]], 3, 4⟩, 17592186044416,
    36995933,
    9757482359430485484751429162012380883764215499432892194235129474790113565452318360254833819271881247803310471779759088829472225,
    lc0⟩) (.leaf ⟨559, 16, 1316, 470, 16, 2854, ⟨[[(2225242605142016, 0), (0, 2591379803481481), (36572656228, 0),
    (579177, 0), (48, 0)], [(20597508765942866, 0), (0, 2583495845470), (0, 5905441), (0, 2224)], [(37836773519912,
    0), (0, 1170622644), (0, 1793), (0, 1)], [(35680651729, 0), (401042, 0), (81, 0)]], 3, 4⟩, ⟨[[(10991220826165248,
    0), (0, 2086403398657221), (8829213239, 0), (0, 510340), (0, 23)], [(0, 28037337690831878), (134217292855, 0),
    (27581826, 0), (2110, 0)], [(6300287313509, 0), (0, 628345260), (0, 56161), (0, 4)], [(2932874278, 0), (349965,
    0), (36, 0)]], 3, 4⟩, 72057594037927936, 2712993464325, 775523618860, ⟨[[(12224570908313, 0), (9660923377, 0),
    (10344963, 0), (7915, 0)], [(0, 7773044433), (0, 27912974), (0, 57170), (0, 67)], [(17856196, 0), (104367, 0),
    (311, 0)], [(0, 58029), (0, 469), (0, 2)]], 3, 4⟩, 17592186044416, 35274598,
    9784394474824469140624398180795170861885246391332508366387247842209591311795322872986607988924323808902722412038869876929342191,
    lc0⟩)) (.sx (.leaf ⟨600, 16, 1487, 468, 16, 2832, ⟨[[(0, 21862442689183744), (0, 2765499111592832), (42825305699,
    0), (878657, 0), (63, 0)], [(18481111379926814, 0), (0, 2813535949196), (0, 9713531), (0, 2540)],
    [(37142422387426, 0), (0, 1395892611), (0, 16965), (0, 2)], [(37937330187, 0), (557618, 0), (103, 0)]], 3, 4⟩,
    ⟨[[(32414986907045888, 0), (0, 2069965895556842), (6564174771, 0), (0, 656614), (0, 28)], [(0,
    28229646872585563), (221528196772, 0), (36042863, 0), (2659, 0)], [(5577783341535, 0), (0, 726371690), (0,
    65858), (0, 4)], [(2388022083, 0), (311280, 0), (31, 0)]], 3, 4⟩, 72057594037927936, 3096346576489, 931549706780,
    ⟨[[(12474902445773, 0), (10658570437, 0), (12479083, 0), (10437, 0), (0, 3)], [(0, 7957568433), (0, 31559584),
    (0, 72384), (0, 90)], [(19104509, 0), (126803, 0), (425, 0), (1, 0)], [(0, 67477), (0, 627), (0, 3)]], 3, 4⟩,
    17592186044416, 43655408,
    8742516185810744600591029631238396611259511948090354794753969455086507289929386686723823104618680186546691865315115745945800980,
    lc0⟩) (.leaf ⟨560, 16, 1361, 457, 16, 2864, ⟨[[(0, 28138761042976768), (0, 2641537734434869), (38802695670, 0),
    (703271, 0), (54, 0)], [(19958733195843715, 0), (0, 2679750356694), (0, 9698474), (0, 2471)], [(38522216931617,
    0), (0, 1213437982), (0, 3742), (0, 1)], [(37130703108, 0), (502982, 0), (92, 0)]], 3, 4⟩, ⟨[[(17565932951187456,
    0), (0, 2085216997039245), (8054237246, 0), (0, 558414), (0, 23)], [(0, 28060713281056920), (164133743842, 0),
    (31035822, 0), (2343, 0)], [(5991150726317, 0), (0, 689989323), (0, 62137), (0, 4)], [(3128895164, 0), (389295,
    0), (39, 0)]], 3, 4⟩, 72057594037927936, 2799112986858, 814699981993, ⟨[[(12220295567057, 0), (9821816782, 0),
    (10970168, 0), (9167, 0), (1, 0)], [(0, 7739632290), (0, 28975902), (0, 63558), (0, 85)], [(18261726, 0),
    (113813, 0), (373, 0), (1, 0)], [(0, 62341), (0, 549), (0, 2)]], 3, 4⟩, 17592186044416, 40489401,
    9530443807746065131646134258622170471028040879007859130656771051641870119647504889368561735331852322404232589888368908318176998,
    lc0⟩)))) (.sx (.sy (.leaf ⟨500, 16, 1309, 307, 16, 1814, ⟨[[(0, 28680382769528832), (0, 2244397362705533),
    (39611516545, 0), (1030033, 0), (65, 0)], [(22736898023307386, 0), (0, 4646580245300), (0, 17143609), (0, 4065)],
    [(104185267776618, 0), (0, 5409787026), (0, 146422), (0, 14)], [(240945246123, 0), (4269452, 0), (751, 0)]], 3,
    4⟩, ⟨[[(0, 17562135840079872), (0, 1334550506114293), (1730527666, 0), (0, 587578), (0, 25)], [(0,
    36815920955478717), (465709644324, 0), (63671526, 0), (4504, 0)], [(12388085223294, 0), (0, 2166645417), (0,
    197506), (0, 12)], [(6287074532, 0), (903108, 0), (80, 0)]], 3, 4⟩, 72057594037927936, 45183289235185,
    12166930462327, ⟨[[(12887185738753, 0), (19007395767, 0), (38511364, 0), (51493, 0), (0, 72)], [(0, 11276688576),
    (0, 79268128), (0, 316264), (0, 521), (3, 0)], [(39467937, 0), (470844, 0), (2568, 0), (3, 0)], [(0, 209363), (0,
    3310), (0, 20)]], 3, 4⟩, 17592186044416, 227585384,
    10044595296321128733975023188413122604353934046625463706243017941169586946547420406783561864538398928207217898477112781463737303,
    lc0⟩) (.sx (.leaf ⟨708, 16, 1925, 466, 16, 2792, ⟨[[(0, 16400976237125632), (0, 3169752795967367), (61015744309,
    0), (1779229, 0), (106, 0)], [(13491776015626254, 0), (0, 3344391651976), (0, 14459218), (0, 2939)],
    [(34529798778042, 0), (0, 2103740736), (0, 71127), (0, 6)], [(42925099784, 0), (873105, 0), (145, 0)]], 3, 4⟩,
    ⟨[[(4743993984815104, 0), (0, 2061109883099500), (62210364, 0), (0, 1064734), (0, 43)], [(0, 28320019280307505),
    (448887632527, 0), (57989248, 0), (4017, 0)], [(4262837498767, 0), (0, 923311919), (0, 84138), (0, 5)],
    [(778557785, 0), (116790, 0), (9, 0)]], 3, 4⟩, 72057594037927936, 4262589076413, 1323139980392,
    ⟨[[(13024916135215, 0), (13178794159, 0), (18828655, 0), (17651, 0), (0, 21)], [(0, 8553359822), (0, 42947922),
    (0, 122605), (0, 132), (1, 0)], [(23837638, 0), (204602, 0), (769, 0), (1, 0)], [(0, 100958), (0, 1105), (0,
    4)]], 3, 4⟩, 17592186044416, 63489452,
    11444861946874998633111057353635971988341457908734731830126938619960126324322848680204668028212213336713893142644292219199288382,
    lc0⟩) (.leaf ⟨655, 16, 1759, 455, 16, 2823, ⟨[[(0, 18888252680503296), (0, 3028094657340515), (55094572448, 0),
    (1503743, 0), (93, 0)], [(15192072065433100, 0), (0, 3213062892340), (0, 17951868), (0, 3112)], [(36700720224580,
    0), (0, 1815538909), (0, 47638), (0, 5)], [(42486848089, 0), (888861, 0), (142, 0)]], 3, 4⟩, ⟨[[(0,
    24705083757359104), (0, 2066567401954884), (2376350546, 0), (0, 915068), (0, 37)], [(0, 28266378215820355),
    (376336531820, 0), (51559623, 0), (3629, 0)], [(4475282974850, 0), (0, 909545010), (0, 83042), (0, 5)],
    [(1814723182, 0), (259322, 0), (23, 0)]], 3, 4⟩, 72057594037927936, 3796811280921, 1198495591669,
    ⟨[[(12750801952046, 0), (12124120382, 0), (16619188, 0), (16776, 0), (0, 8)], [(0, 8262343224), (0, 39143838),
    (0, 110825), (0, 154)], [(22398447, 0), (186072, 0), (741, 0), (1, 0)], [(0, 93899), (0, 1047), (0, 5)]], 3, 4⟩,
    17592186044416, 63675393,
    7756612691435327221573908401297334557453310992322334762130458586689164840903388699747809401035496812842208246874445842508337365,
    lc0⟩))) (.sy (.sx (.leaf ⟨602, 16, 1543, 456, 16, 2843, ⟨[[(32155559201824768, 0), (0, 2824308050961811),
    (45913014263, 0), (1048904, 0), (71, 0)], [(17708640155147672, 0), (0, 2931651214840), (0, 14187203), (0, 2822)],
    [(37809317656246, 0), (0, 1468029984), (0, 21449), (0, 3)], [(39684236049, 0), (690910, 0), (117, 0)]], 3, 4⟩,
    ⟨[[(0, 13365532050223104), (0, 2071902833526743), (5553488389, 0), (0, 717235), (0, 29)], [(0,
    28218192516985362), (260801336949, 0), (40404187, 0), (2939, 0)], [(5216190942263, 0), (0, 798832233), (0,
    72706), (0, 5)], [(2562142020, 0), (344631, 0), (33, 0)]], 3, 4⟩, 72057594037927936, 3222604982406, 994645186348,
    ⟨[[(12487498948554, 0), (10916831711, 0), (13481505, 0), (12518, 0), (0, 2)], [(0, 8006551424), (0, 33569053),
    (0, 84002), (0, 119)], [(20141655, 0), (145449, 0), (539, 0), (1, 0)], [(0, 76613), (0, 780), (0, 3)]], 3, 4⟩,
    17592186044416, 52143802,
    7261328225118199882481635787711609599612951540615762478550964471576057089351704630478942099608295476481834508681121211128900469,
    lc0⟩) (.leaf ⟨561, 16, 1410, 444, 16, 2874, ⟨[[(0, 11977163789819904), (0, 2695700481930448), (41384376419, 0),
    (846339, 0), (61, 0)], [(19280777441952402, 0), (0, 2788299151593), (0, 14043651), (0, 2750)], [(39276893783131,
    0), (0, 1262119903), (0, 6124), (0, 2)], [(38754092144, 0), (622341, 0), (106, 0)]], 3, 4⟩,
    ⟨[[(20886665984528384, 0), (0, 2084818728110637), (7202534018, 0), (0, 608277), (0, 24)], [(0,
    28067854387082770), (197813127380, 0), (34865134, 0), (2593, 0)], [(5648251923998, 0), (0, 758132997), (0,
    68683), (0, 4)], [(3346135016, 0), (431828, 0), (43, 0)]], 3, 4⟩, 72057594037927936, 2888701801982, 862795961704,
    ⟨[[(12221413354966, 0), (10015030131, 0), (11729865, 0), (10812, 0), (2, 0)], [(0, 7732829814), (0, 30373889),
    (0, 72111), (0, 110)], [(18886805, 0), (126924, 0), (462, 0), (1, 0)], [(0, 68510), (0, 664), (0, 3)]], 3, 4⟩,
    17592186044416, 47211281,
    9017702301979139725020405218854079477168849655275237154901965099728970321815482290720771890797468932517577707887697813428478903,
    lc0⟩)) (.sx (.leaf ⟨606, 16, 1605, 443, 16, 2853, ⟨[[(25641754394435584, 0), (0, 2888980867092744), (49516146128,
    0), (1246110, 0), (80, 0)], [(16885278995280424, 0), (0, 3066536686587), (0, 19334099), (0, 3145)],
    [(38556001184812, 0), (0, 1551618729), (0, 26775), (0, 3)], [(41671333063, 0), (847204, 0), (134, 0)]], 3, 4⟩,
    ⟨[[(0, 3529978907066368), (0, 2074154430757004), (4444049524, 0), (0, 779804), (0, 30)], [(0, 28175464751030955),
    (304729001059, 0), (45204243, 0), (3239, 0)], [(4813134329857, 0), (0, 878466719), (0, 80181), (0, 5)],
    [(2753345338, 0), (380421, 0), (36, 0)]], 3, 4⟩, 72057594037927936, 3362559240502, 1058616780716,
    ⟨[[(12485066529655, 0), (11153456698, 0), (14574235, 0), (15164, 0)], [(0, 8002651860), (0, 35599304), (0,
    97811), (0, 158)], [(21071799, 0), (166307, 0), (681, 0), (1, 0)], [(0, 86011), (0, 957), (0, 5)]], 3, 4⟩,
    17592186044416, 62510300,
    5283214559197476007837648022769173883156563343400118402760113871441492970109879925455840780523189140905007145841932344465766465,
    lc0⟩) (.leaf ⟨562, 16, 1462, 431, 16, 2884, ⟨[[(14129486923866112, 0), (0, 2751337932377555), (44330782770, 0),
    (1010296, 0), (69, 0)], [(18536457487484401, 0), (0, 2907957764328), (0, 19013170), (0, 3064)], [(40066636894089,
    0), (0, 1316345501), (0, 9004), (0, 2)], [(40535885035, 0), (761239, 0), (121, 0)]], 3, 4⟩,
    ⟨[[(20550847342342144, 0), (0, 2085290085672556), (6271438028, 0), (0, 659546), (0, 25)], [(0,
    28056714123435313), (235658588374, 0), (39096488, 0), (2859, 0)], [(5268059561776, 0), (0, 833398219), (0,
    75855), (0, 5)], [(3586344420, 0), (477850, 0), (46, 0)]], 3, 4⟩, 72057594037927936, 2980111761966, 913546778985,
    ⟨[[(12224069382949, 0), (10230164184, 0), (12628200, 0), (12963, 0), (4, 0)], [(0, 7745347728), (0, 32117096),
    (0, 83373), (0, 145)], [(19728979, 0), (144451, 0), (585, 0), (1, 0)], [(0, 76779), (0, 822), (0, 4)]], 3, 4⟩,
    17592186044416, 57417781,
    8256769431505664449649268905379076655410546208228732106212009585828544753739633090666718382972997825637159158905144215458850303,
    lc0⟩))))
theorem c48 : checkR job con0 true ⟨7, 9, 7, 9, 13, 17⟩ 1 9016 t48 495 21 320 31749 251 32000 = true := by decide +kernel

def t49 : CTree :=
  .sy (.sx (.sy (.sx (.leaf ⟨367, 16, 600, 411, 16, 1871, ⟨[[(0, 13685605101752320), (0, 2826230355242852),
    (62422417903, 0), (0, 413016), (80, 0)], [(18058830704051215, 0), (0, 2542339616725), (36966618, 0), (0, 3051)],
    [(22451364520434, 0), (0, 1108124791), (8940, 0), (3, 0)], [(17088969794, 0), (0, 49531), (10, 0)]], 3, 4⟩,
    ⟨[[(0, 33530896475856896), (0, 2919578824469880), (37665677153, 0), (0, 723226), (0, 61)], [(0,
    18002825589973498), (0, 82417500492), (17283289, 0), (1591, 0)], [(5819885129639, 0), (0, 317050212), (0, 35657),
    (0, 7)], [(1507939128, 0), (93329, 0), (47, 0)]], 3, 4⟩, 72057594037927936, 1321279871664, 389211112287,
    ⟨[[(11982255804346, 0), (11291595048, 0), (11939626, 0), (7068, 0), (0, 1)], [(0, 11674781527), (0, 41968914),
    (0, 75509), (0, 57)], [(33357049, 0), (178115, 0), (402, 0)], [(0, 118819), (0, 781), (0, 2)]], 3, 4⟩,
    17592186044416, 114139739,
    6462359327331292608201816835492098256307002053206132959818121684617179073202188801678232172962863538501791096774719445427454431,
    lc0⟩) (.leaf ⟨355, 16, 564, 404, 16, 1887, ⟨[[(16518061159968768, 0), (0, 2758868569314400), (60151823750, 0),
    (0, 503649), (61, 0)], [(18834872315736341, 0), (0, 2477502030422), (35484214, 0), (0, 2610)], [(23192817070112,
    0), (0, 1046025291), (8870, 0), (4, 0)], [(17091651436, 0), (0, 22762), (0, 2)]], 3, 4⟩, ⟨[[(0,
    28266426257047552), (0, 2948593941194405), (38660012731, 0), (0, 673663), (0, 45)], [(0, 17655174667442459), (0,
    109474597465), (14666148, 0), (1058, 0)], [(6079221093272, 0), (0, 307602571), (0, 29818), (0, 6)], [(1803510058,
    0), (97546, 0), (50, 0)]], 3, 4⟩, 72057594037927936, 1271574358752, 368796253255, ⟨[[(11749408864406, 0),
    (10542449807, 0), (10789104, 0), (6372, 0), (0, 1)], [(0, 11285838230), (0, 39059944), (0, 68957), (0, 54)],
    [(31999582, 0), (166282, 0), (376, 0)], [(0, 113347), (0, 737), (0, 2)]], 3, 4⟩, 17592186044416, 119311235,
    6430144300610574279225722510294113615714073218583604381658068565504563961652435545271238813053491813141304404453252777015623730,
    lc0⟩)) (.sx (.leaf ⟨361, 16, 624, 393, 16, 1886, ⟨[[(16710950274830336, 0), (0, 2874379163781793), (64414365837,
    0), (0, 230179), (116, 0)], [(17463142219484309, 0), (0, 2608024847672), (33090479, 0), (0, 3946)],
    [(22773551861084, 0), (0, 1141245780), (12860, 0), (2, 0)], [(17750693115, 0), (0, 32528), (28, 0)]], 3, 4⟩,
    ⟨[[(32761732703637504, 0), (0, 2905451458611885), (36763630984, 0), (0, 878486), (0, 87)], [(0,
    18184240305866728), (0, 64150672241), (20515108, 0), (2531, 0), (1, 0)], [(5696153077048, 0), (0, 361119948), (0,
    47092), (0, 8)], [(1579790827, 0), (145260, 0), (55, 0)]], 3, 4⟩, 72057594037927936, 1382994760203, 404855414021,
    ⟨[[(11976804085942, 0), (11546604053, 0), (12876687, 0), (8299, 0), (0, 2)], [(0, 11674814640), (0, 44087449),
    (0, 84786), (0, 69)], [(34238652, 0), (194289, 0), (472, 0)], [(0, 127260), (0, 891), (0, 2)]], 3, 4⟩,
    17592186044416, 129124033,
    7777607466215088735410993308480567546106097148948615409640207290585743278543740029520384470495579116300186167262260732558865911,
    lc0⟩) (.leaf ⟨349, 16, 586, 386, 16, 1902, ⟨[[(24039739531026432, 0), (0, 2804095946520538), (61819896740, 0),
    (0, 367565), (93, 0)], [(18286270419496820, 0), (0, 2539368473970), (32208359, 0), (0, 3484)], [(23554707965441,
    0), (0, 1074787270), (14647, 0), (3, 0)], [(17747254271, 0), (0, 17791), (14, 0)]], 3, 4⟩, ⟨[[(17725148339957760,
    0), (0, 2933448618861232), (37864852570, 0), (0, 792622), (0, 68)], [(0, 17847025721370667), (0, 94495520529),
    (16998943, 0), (1901, 0)], [(5963502901766, 0), (0, 345222570), (0, 40302), (0, 7)], [(1880533624, 0), (152814,
    0), (59, 0)]], 3, 4⟩, 72057594037927936, 1332597293396, 381779320754, ⟨[[(11743931535894, 0), (10763459520, 0),
    (11593704, 0), (7472, 0), (0, 1)], [(0, 11269340002), (0, 40875549), (0, 77033), (0, 66)], [(32689616, 0),
    (180238, 0), (438, 0)], [(0, 120452), (0, 832), (0, 2)]], 3, 4⟩, 17592186044416, 133194874,
    7651276383226297440154235884184067133814256057549727851726961075656046447822712033850991019987760674083374508784129735643754954,
    lc0⟩))) (.sy (.sx (.leaf ⟨345, 16, 530, 397, 16, 1903, ⟨[[(0, 22955120998477824), (0, 2692071151208180),
    (57940469538, 0), (0, 569470), (42, 0)], [(19616918173909906, 0), (0, 2410788738874), (34012714, 0), (0, 2111)],
    [(23880389416922, 0), (0, 984116185), (7292, 0), (5, 0)], [(17048810251, 0), (3785, 0), (0, 15)]], 3, 4⟩, ⟨[[(0,
    14116707154010112), (0, 2978772148064689), (39559716263, 0), (0, 645185), (0, 30)], [(0, 17279777953555535), (0,
    135944190823), (12532583, 0), (570, 0)], [(6377253771833, 0), (0, 298005853), (0, 23673), (0, 6)], [(2091791211,
    0), (94139, 0), (51, 0)]], 3, 4⟩, 72057594037927936, 1222195489491, 356109521836, ⟨[[(11513740027246, 0),
    (9803664240, 0), (9661298, 0), (5640, 0), (0, 1)], [(0, 10851806659), (0, 35973151), (0, 61841), (0, 50)],
    [(30354217, 0), (152362, 0), (342, 0)], [(0, 106049), (0, 677), (0, 2)]], 3, 4⟩, 17592186044416, 122526708,
    6327488234587060064100164766248854082209535507475037277352969137616594887726098040557629778489726411240564078217429211400392455,
    lc0⟩) (.leaf ⟨335, 16, 498, 390, 16, 1919, ⟨[[(12984417224912896, 0), (0, 2626301147338091), (55795271810, 0),
    (0, 610010), (26, 0)], [(20403775407865246, 0), (0, 2342840046147), (32437668, 0), (0, 1569)], [(24516432593345,
    0), (0, 922526551), (4256, 0), (5, 0)], [(16965574607, 0), (31871, 0), (0, 28)]], 3, 4⟩, ⟨[[(10340577988288512,
    0), (0, 3010097901757292), (40384814081, 0), (0, 635997), (0, 17)], [(0, 16873235173977186), (0, 161844600143),
    (10904161, 0), (131, 0)], [(6713430212288, 0), (0, 289185317), (0, 17427), (0, 5)], [(2374036456, 0), (83791, 0),
    (51, 0)]], 3, 4⟩, 72057594037927936, 1171326126307, 342107311005, ⟨[[(11297026763886, 0), (9148625941, 0),
    (8687543, 0), (4996, 0), (0, 1)], [(0, 10495977616), (0, 33357973), (0, 55727), (0, 46)], [(29086019, 0),
    (140815, 0), (312, 0)], [(0, 100557), (0, 627), (0, 2)]], 3, 4⟩, 17592186044416, 129086887,
    5641235022417126377589392607263984021590420462748248948126337445728782207626297253290994164006096390259837213956389503386811701,
    lc0⟩)) (.sx (.leaf ⟨338, 16, 550, 379, 16, 1918, ⟨[[(31354005148409856, 0), (0, 2733712515661246), (59316730898,
    0), (0, 475952), (71, 0)], [(19109888862123170, 0), (0, 2468168936555), (31431839, 0), (0, 2948)],
    [(24271375341860, 0), (0, 1010085972), (14588, 0), (4, 0)], [(17691499475, 0), (0, 4052)]], 3, 4⟩,
    ⟨[[(11129329371238400, 0), (0, 2962730254580770), (38836055592, 0), (0, 731476), (0, 50)], [(0,
    17481485852079610), (0, 123719288069), (14043411, 0), (1323, 0)], [(6269986516638, 0), (0, 328820017), (0,
    33108), (0, 7)], [(2169580719, 0), (150820, 0), (60, 0)]], 3, 4⟩, 72057594037927936, 1278776755648, 360085481488,
    ⟨[[(11518599252537, 0), (10028482515, 0), (10404949, 0), (6649, 0), (0, 1)], [(0, 10882136341), (0, 37813671),
    (0, 69450), (0, 61)], [(31190740, 0), (166284, 0), (401, 0)], [(0, 113539), (0, 771), (0, 2)]], 3, 4⟩,
    17592186044416, 138007734,
    7612049624654303322898567040543826984595861464594367586309110495321598497497519043235435296002463581906633557415393951999061447,
    lc0⟩) (.leaf ⟨329, 16, 517, 372, 16, 1934, ⟨[[(12617710378496000, 0), (0, 2668807988081963), (57022558032, 0),
    (0, 555638), (51, 0)], [(19969512683679576, 0), (0, 2399830947818), (30670819, 0), (0, 2366)], [(24972843540704,
    0), (0, 949068170), (12759, 0), (5, 0)], [(17623375400, 0), (11079, 0), (0, 15)]], 3, 4⟩, ⟨[[(14416745402417152,
    0), (0, 2993258762599663), (39700376991, 0), (0, 692960), (0, 35)], [(0, 17084200987212480), (0, 151815467258),
    (11677210, 0), (802, 0)], [(6614515979676, 0), (0, 313073385), (0, 25759), (0, 6)], [(2448566454, 0), (140060,
    0), (60, 0)]], 3, 4⟩, 72057594037927936, 1227703869470, 343381593562, ⟨[[(11296571236984, 0), (9327402946, 0),
    (9289546, 0), (5839, 0)], [(0, 10469881533), (0, 34737519), (0, 61801), (0, 55)], [(29522118, 0), (151289, 0),
    (359, 0)], [(0, 105421), (0, 699), (0, 2)]], 3, 4⟩, 17592186044416, 140890039,
    7146021573411927171068474482492621477349873383399741515997060557966625282106799137306488277916113234672181573699835404733169083,
    lc0⟩)))) (.sx (.sy (.sx (.leaf ⟨355, 16, 649, 376, 16, 1901, ⟨[[(8017658464219136, 0), (0, 2922390872681630),
    (66835476690, 0), (40292, 0), (159, 0)], [(16809233052256433, 0), (0, 2681274443807), (27596519, 0), (0, 4963)],
    [(23093713286942, 0), (0, 1172106312), (16057, 0), (1, 0)], [(18453832742, 0), (5232, 0), (49, 0)]], 3, 4⟩,
    ⟨[[(22312596190769152, 0), (0, 2892072500930554), (35576324454, 0), (0, 1088347), (0, 114)], [(0,
    18355758451678824), (0, 41703396853), (25331774, 0), (3659, 0), (1, 0)], [(5545701646842, 0), (0, 418129033), (0,
    60747), (0, 10)], [(1680470828, 0), (206092, 0), (64, 0)]], 3, 4⟩, 72057594037927936, 1447461649743,
    412354499397, ⟨[[(11977096037819, 0), (11825540009, 0), (13930334, 0), (9827, 0), (0, 3)], [(0, 11704425744), (0,
    46510441), (0, 95873), (0, 86)], [(35392075, 0), (213702, 0), (563, 0)], [(0, 137940), (0, 1032), (0, 3)]], 3,
    4⟩, 17592186044416, 148761749,
    8731728787507650433801836970797376909620819207445656454357506381433299272990565430398808874885286923504580890929832183167560588,
    lc0⟩) (.leaf ⟨343, 16, 609, 369, 16, 1917, ⟨[[(0, 2386612325572608), (0, 2849886884527019), (63833583585, 0), (0,
    154446), (131, 0)], [(17687145342823573, 0), (0, 2608378727217), (27384456, 0), (0, 4475)], [(23922753062447, 0),
    (0, 1099170324), (20113, 0), (3, 0)], [(18439784579, 0), (5542, 0), (33, 0)]], 3, 4⟩, ⟨[[(0, 12493878747066368),
    (0, 2918908402037708), (36845452984, 0), (0, 959091), (0, 91)], [(0, 18030996022840741), (0, 76349647316),
    (20748864, 0), (2913, 0), (1, 0)], [(5824644926049, 0), (0, 394692333), (0, 52846), (0, 9)], [(1988328634, 0),
    (217979, 0), (69, 0)]], 3, 4⟩, 72057594037927936, 1385097032555, 386463496619, ⟨[[(11744451862879, 0),
    (11006819551, 0), (12496358, 0), (8816, 0), (0, 1)], [(0, 11279416381), (0, 42949796), (0, 86577), (0, 82)],
    [(33614288, 0), (196839, 0), (516, 0), (1, 0)], [(0, 129509), (0, 951), (0, 3)]], 3, 4⟩, 17592186044416,
    152045414,
    8452460986457838783588101203532434271801097727962112444694244492987753526826368279286158134689358702183019404204033206159400660,
    lc0⟩)) (.sx (.leaf ⟨349, 16, 677, 359, 16, 1916, ⟨[[(31586599465979904, 0), (0, 2978353440123837), (70054985202,
    0), (419347, 0), (211, 0)], [(16136937768132571, 0), (0, 2772204583631), (20269728, 0), (0, 6148), (0, 1)],
    [(23480655364971, 0), (0, 1204920273), (18427, 0), (1, 0)], [(19267568799, 0), (68482, 0), (75, 0)]], 3, 4⟩,
    ⟨[[(6866125316247552, 0), (0, 2879782942256654), (34018115333, 0), (0, 1353795), (0, 141)], [(0,
    18514756266525949), (0, 13293258943), (32046306, 0), (4997, 0), (1, 0)], [(5361199887025, 0), (0, 490624662), (0,
    77060), (0, 11)], [(1815053301, 0), (277344, 0), (75, 0)]], 3, 4⟩, 72057594037927936, 1507419813820,
    422151638173, ⟨[[(11983526220891, 0), (12153103980, 0), (15200472, 0), (11874, 0), (0, 3)], [(0, 11763146366),
    (0, 49442241), (0, 110045), (0, 114)], [(36909660, 0), (238490, 0), (691, 0), (1, 0)], [(0, 151928), (0, 1228),
    (0, 4)]], 3, 4⟩, 17592186044416, 175274962,
    9436322310191642137061379413626926067996138739891708619387000112225875073713558396273730400128264296516799336845001804224323873,
    lc0⟩) (.leaf ⟨337, 16, 634, 351, 16, 1932, ⟨[[(0, 28171882468458496), (0, 2900205043968830), (66438053371, 0),
    (153215, 0), (177, 0)], [(17056625548941202, 0), (0, 2690591277307), (20779542, 0), (0, 5620), (0, 1)],
    [(24336024160799, 0), (0, 1121040512), (25248, 0), (3, 0)], [(19210176112, 0), (51295, 0), (56, 0)]], 3, 4⟩,
    ⟨[[(24970602495311872, 0), (0, 2905245817779606), (35527995940, 0), (0, 1173224), (0, 114)], [(0,
    18205034433487793), (0, 53447518869), (26195717, 0), (4112, 0), (1, 0)], [(5655939439446, 0), (0, 458372307), (0,
    67854), (0, 11)], [(2132531811, 0), (294755, 0), (81, 0)]], 3, 4⟩, 72057594037927936, 1440653740090,
    389404726521, ⟨[[(11734658659931, 0), (11245706141, 0), (13503412, 0), (10533, 0), (0, 1)], [(0, 11250824338),
    (0, 45111125), (0, 97824), (0, 105)], [(34522620, 0), (215507, 0), (615, 0), (1, 0)], [(0, 139533), (0, 1097),
    (0, 4)]], 3, 4⟩, 17592186044416, 173952676,
    8847485867323287538938280472096753064125081397808142526263416544980500260141305909270527241966303081864820772173026454738883555,
    lc0⟩))) (.sy (.sx (.leaf ⟨332, 16, 571, 361, 16, 1933, ⟨[[(0, 14427416309977088), (0, 2776595174276700),
    (60964245645, 0), (0, 315162), (105, 0)], [(18561020580349687, 0), (0, 2532166545100), (27400768, 0), (0, 3895)],
    [(24676071886568, 0), (0, 1030012105), (21903, 0), (4, 0)], [(18366180628, 0), (3794, 0), (17, 0)]], 3, 4⟩,
    ⟨[[(32678058785968128, 0), (0, 2947189887279509), (37942883393, 0), (0, 858894), (0, 70)], [(0,
    17677032907501666), (0, 109252687220), (16816599, 0), (2228, 0)], [(6143365207183, 0), (0, 370285174), (0,
    44425), (0, 8)], [(2278981333, 0), (217985, 0), (71, 0)]], 3, 4⟩, 72057594037927936, 1330125665501, 363189184262,
    ⟨[[(11508709104203, 0), (10216101850, 0), (11145556, 0), (7807, 0), (0, 1)], [(0, 10836158098), (0, 39413794),
    (0, 77341), (0, 76)], [(31726822, 0), (179411, 0), (466, 0), (1, 0)], [(0, 120206), (0, 866), (0, 3)]], 3, 4⟩,
    17592186044416, 155838728,
    8324054886053989486065988920689858710537602054678170186908188915887961880565277795757910863120879105275899266850210812608105332,
    lc0⟩) (.leaf ⟨322, 16, 536, 354, 16, 1949, ⟨[[(14577489784479744, 0), (0, 2707938508050407), (58344802404, 0),
    (0, 441471), (81, 0)], [(19462090765055817, 0), (0, 2458155466222), (27502655, 0), (0, 3259)], [(25400702772576,
    0), (0, 966478985), (21514, 0), (5, 0)], [(18274092997, 0), (3164, 0), (0, 1)]], 3, 4⟩, ⟨[[(15188060636229632,
    0), (0, 2976853709705734), (38895383250, 0), (0, 785308), (0, 52)], [(0, 17290415702882627), (0, 140373300912),
    (13572075, 0), (1610, 0)], [(6500104478665, 0), (0, 346354413), (0, 35785), (0, 7)], [(2554502913, 0), (207012,
    0), (71, 0)]], 3, 4⟩, 72057594037927936, 1278212964019, 342220323711, ⟨[[(11296838246416, 0), (9520519537, 0),
    (9971164, 0), (6873, 0)], [(0, 10472052634), (0, 36371740), (0, 69163), (0, 68)], [(30208071, 0), (164364, 0),
    (420, 0)], [(0, 112485), (0, 792), (0, 2)]], 3, 4⟩, 17592186044416, 159815900,
    8082662316066977123370142186949718008614692159805693454447619959463198705875107955175414786441104621687096074929576890895010440,
    lc0⟩)) (.sx (.leaf ⟨325, 16, 594, 344, 16, 1948, ⟨[[(18975557505777664, 0), (0, 2824951489131015), (63109406584,
    0), (0, 72261), (146, 0)], [(17992954428784984, 0), (0, 2608838723872), (21707256, 0), (0, 4987)],
    [(25138435474791, 0), (0, 1045311354), (29305, 0), (4, 0)], [(19113865024, 0), (30705, 0), (36, 0)]], 3, 4⟩,
    ⟨[[(0, 21679465302028288), (0, 2932362372019601), (36816954418, 0), (0, 1026937), (0, 90)], [(0,
    17864889808099328), (0, 91132712523), (21101529, 0), (3298, 0), (1, 0)], [(5991366493191, 0), (0, 424554327), (0,
    57989), (0, 10)], [(2425957537, 0), (297460, 0), (84, 0)]], 3, 4⟩, 72057594037927936, 1376807124613,
    361401936263, ⟨[[(11521580122062, 0), (10488258907, 0), (12109470, 0), (9349, 0)], [(0, 10898391291), (0,
    41786544), (0, 88140), (0, 96)], [(32984678, 0), (198989, 0), (559, 0), (1, 0)], [(0, 131797), (0, 1012), (0,
    3)]], 3, 4⟩, 17592186044416, 180072822,
    8441439146725678956203554121356950488571657977428814077733541608776626512192017280136242637121605779120680257466343667942858526,
    lc0⟩) (.leaf ⟨315, 16, 556, 336, 16, 1964, ⟨[[(0, 9617672731516928), (0, 2748516476129907), (59976076145, 0), (0,
    255900), (117, 0)], [(18914983629072396, 0), (0, 2524011799762), (22772311, 0), (0, 4275)], [(25851540490612, 0),
    (0, 975949816), (30612, 0), (5, 0)], [(18958796263, 0), (10812, 0), (16, 0)]], 3, 4⟩, ⟨[[(12552599088156672, 0),
    (0, 2961039518218172), (37916022008, 0), (0, 912051), (0, 68)], [(0, 17490816671889341), (0, 126267599261),
    (16810754, 0), (2563, 0), (1, 0)], [(6364889200473, 0), (0, 390963619), (0, 47832), (0, 9)], [(2697914476, 0),
    (286501, 0), (84, 0)]], 3, 4⟩, 72057594037927936, 1319356325951, 342077652696, ⟨[[(11293692994017, 0),
    (9714868023, 0), (10717798, 0), (8119, 0)], [(0, 10461481145), (0, 38102059), (0, 77619), (0, 85)], [(30951337,
    0), (179093, 0), (493, 0), (1, 0)], [(0, 120781), (0, 904), (0, 3)]], 3, 4⟩, 17592186044416, 182984897,
    8149513089447817880777725641847197884036939770407332361930780600470732306200599427679305311194788235928238739360521732462228548,
    lc0⟩))))
theorem c49 : checkR job con0 true ⟨7, 9, 7, 9, 13, 17⟩ 1 9016 t49 537 21 320 15247 251 16000 = true := by decide +kernel

def t50 : CTree :=
  .sy (.sx (.sy (.sx (.leaf ⟨327, 16, 468, 384, 16, 1937, ⟨[[(0, 18337168605638656), (0, 2562088362369811),
    (53719305543, 0), (0, 625582), (10, 0)], [(21195915020849167, 0), (0, 2274315470595), (30658308, 0), (0, 1003)],
    [(25105214342214, 0), (0, 861169459), (0, 135), (6, 0)], [(16847034485, 0), (63142, 0), (0, 40)]], 3, 4⟩,
    ⟨[[(3193765044166656, 0), (0, 3045702435750268), (41198610247, 0), (0, 644808), (0, 5)], [(0, 16449146259149065),
    (0, 187462267864), (9795752, 0), (0, 258)], [(7094683751574, 0), (0, 282259700), (0, 11284), (0, 4)],
    [(2654441005, 0), (67557, 0), (49, 0)]], 3, 4⟩, 72057594037927936, 1114664301113, 335234770225,
    ⟨[[(11082775906077, 0), (8506686395, 0), (7740470, 0), (4343, 0)], [(0, 10116220576), (0, 30661939), (0, 49376),
    (0, 40)], [(27652450, 0), (128120, 0), (277, 0)], [(0, 94127), (0, 567), (0, 1)]], 3, 4⟩, 17592186044416,
    133173946,
    4430052365142864220696521057752835743437482815236971456229046442674837225849553492806328575611069897970954615029910117445502428,
    lc0⟩) (.leaf ⟨319, 16, 440, 378, 16, 1955, ⟨[[(29270807407398912, 0), (0, 2500030463647915), (51712679752, 0),
    (0, 617141), (0, 4)], [(21995784025115422, 0), (0, 2205875666226), (28590326, 0), (0, 425)], [(25652957592612,
    0), (0, 799766844), (0, 5733), (7, 0)], [(16698009983, 0), (99079, 0), (0, 52)]], 3, 4⟩, ⟨[[(8250055096332288,
    0), (0, 3082449739132801), (41980202118, 0), (0, 668959), (5, 0)], [(0, 15985884766603160), (0, 212810076344),
    (9185026, 0), (0, 595)], [(7514199115100, 0), (0, 277613592), (0, 5394), (0, 4)], [(2932286192, 0), (46592, 0),
    (46, 0)]], 3, 4⟩, 72057594037927936, 1061514930214, 329048685219, ⟨[[(10885759028323, 0), (7939205708, 0),
    (6932356, 0), (3791, 0)], [(0, 9803498712), (0, 28390802), (0, 44065), (0, 36)], [(26543201, 0), (117747, 0),
    (247, 0)], [(0, 89466), (0, 519), (0, 1)]], 3, 4⟩, 17592186044416, 141787797,
    2759213876193366634139193211666264997641640594975057006556602550510729840868793052729646146295386811814694925548233962861110483,
    lc0⟩)) (.sx (.leaf ⟨320, 16, 485, 366, 16, 1952, ⟨[[(22374790241099776, 0), (0, 2599744355369887), (54721344402,
    0), (0, 604887), (33, 0)], [(20790526510406028, 0), (0, 2325993145112), (29676341, 0), (0, 1748)],
    [(25569903041939, 0), (0, 887865058), (9230, 0), (6, 0)], [(17482405655, 0), (29799, 0), (0, 30)]], 3, 4⟩, ⟨[[(0,
    15872030333231104), (0, 3028100274415640), (40523470307, 0), (0, 675493), (0, 20)], [(0, 16668889388172806), (0,
    179054796219), (9918874, 0), (341, 0)], [(7003394582496, 0), (0, 299337286), (0, 18507), (0, 5)], [(2722286358,
    0), (121815, 0), (58, 0)]], 3, 4⟩, 72057594037927936, 1171145067891, 330603215658, ⟨[[(11090952805994, 0),
    (8687092837, 0), (8288487, 0), (5086, 0)], [(0, 10136296354), (0, 32064820), (0, 54989), (0, 49)], [(28248760,
    0), (138552, 0), (321, 0)], [(0, 99260), (0, 637), (0, 2)]], 3, 4⟩, 17592186044416, 148156275,
    6148953871750464008097646783093656840450910223910307820504616859521597612080020631762254837524386539786592021786816189669524428,
    lc0⟩) (.leaf ⟨312, 16, 455, 360, 16, 1970, ⟨[[(33893605934317568, 0), (0, 2532051164609374), (52518769209, 0),
    (0, 625659), (17, 0)], [(21607913760013553, 0), (0, 2251894827676), (28394654, 0), (0, 1118)], [(26111682320466,
    0), (0, 827877708), (4208, 0), (7, 0)], [(17306112575, 0), (54049, 0), (0, 43)]], 3, 4⟩, ⟨[[(0,
    34351568689856512), (0, 3064137215702370), (41288914033, 0), (0, 676015), (0, 7)], [(0, 16213916309171182), (0,
    205474374502), (8745227, 0), (0, 61)], [(7429563708906, 0), (0, 288164348), (0, 11528), (0, 4)], [(2990660154,
    0), (97413, 0), (55, 0)]], 3, 4⟩, 72057594037927936, 1117503702311, 322980614447, ⟨[[(10891312693623, 0),
    (8089242021, 0), (7381952, 0), (4400, 0)], [(0, 9813116890), (0, 29558744), (0, 48686), (0, 43)], [(27025587, 0),
    (126436, 0), (284, 0)], [(0, 93418), (0, 577), (0, 2)]], 3, 4⟩, 17592186044416, 156839055,
    4566766882637888910292787621021690130126826940280066658128642755208250232456294924961502941437903104726126408705781233526822693,
    lc0⟩))) (.sy (.sx (.leaf ⟨312, 16, 413, 373, 16, 1974, ⟨[[(32135395927150592, 0), (0, 2434897647077437),
    (49653182237, 0), (0, 584704), (0, 16)], [(22753033257289182, 0), (0, 2133002001517), (26103945, 0), (151, 0)],
    [(26104645730422, 0), (0, 736093604), (0, 12332), (7, 0)], [(16482918284, 0), (140621, 0), (0, 62)]], 3, 4⟩,
    ⟨[[(0, 30991351835619328), (0, 3121923369044001), (42771449975, 0), (0, 706815), (15, 0)], [(0,
    15487807865298069), (0, 238218073595), (9053639, 0), (0, 883)], [(7976075511851, 0), (0, 275914799), (98, 0), (0,
    3)], [(3210542531, 0), (22422, 0), (42, 0)]], 3, 4⟩, 72057594037927936, 997728429708, 320022553997,
    ⟨[[(10694345327107, 0), (7397985119, 0), (6176155, 0), (3268, 0)], [(0, 9504498689), (0, 26215814), (0, 39013),
    (0, 31)], [(25467476, 0), (107674, 0), (217, 0)], [(0, 85140), (0, 471), (0, 1)]], 3, 4⟩, 17592186044416,
    152326462,
    2844861473100473784241127359360031866672386059326355132569228203165993684545354265484153742447052160793739106249824349481952376,
    lc0⟩) (.leaf ⟨307, 16, 388, 368, 16, 1995, ⟨[[(0, 28212733806542848), (0, 2372879048780770), (47652554656, 0),
    (0, 531508), (0, 28)], [(23519070992094699, 0), (0, 2061181203149), (23219992, 0), (715, 0)], [(26523327263036,
    0), (0, 671452530), (0, 19725), (7, 0)], [(16241376515, 0), (188873, 0), (0, 71)]], 3, 4⟩, ⟨[[(0,
    28045945896038400), (0, 3165737608425248), (43613966883, 0), (0, 756884), (24, 0)], [(0, 14957844200742065), (0,
    264101455247), (9372350, 0), (0, 1125)], [(8485404987291, 0), (0, 277627118), (5088, 0), (0, 2)], [(3492302948,
    0), (0, 3266), (37, 0)]], 3, 4⟩, 72057594037927936, 933206466312, 317794022865, ⟨[[(10497200407185, 0),
    (6860128055, 0), (5450709, 0), (2776, 0)], [(0, 9153517937), (0, 23941356), (0, 33992), (0, 26)], [(24111623, 0),
    (96709, 0), (186, 0)], [(0, 79781), (0, 417), (0, 1)]], 3, 4⟩, 17592186044416, 161559759,
    3977448673602174510928784568342370061157708083184725760302298156629473043878440683477829530645987224049518525045935911356930656,
    lc0⟩)) (.sx (.leaf ⟨306, 16, 427, 354, 16, 1989, ⟨[[(0, 23222548221792256), (0, 2466358101939497), (50409728937,
    0), (0, 619715), (2, 0)], [(22424059061904704, 0), (0, 2178254340039), (26739000, 0), (0, 490)],
    [(26605191145977, 0), (0, 768474686), (0, 2078), (7, 0)], [(17099237309, 0), (85467, 0), (0, 55)]], 3, 4⟩, ⟨[[(0,
    26239545743273984), (0, 3102909435342536), (42041439657, 0), (0, 692572), (4, 0)], [(0, 15723789806481417), (0,
    231425926325), (8135155, 0), (0, 406)], [(7896739405919, 0), (0, 280390030), (0, 5003), (0, 4)], [(3257515135,
    0), (68691, 0), (50, 0)]], 3, 4⟩, 72057594037927936, 1055358225721, 313888155598, ⟨[[(10686766647793, 0),
    (7499042033, 0), (6514624, 0), (3744, 0)], [(0, 9442323408), (0, 26961556), (0, 42382), (0, 36)], [(25561024, 0),
    (113365, 0), (245, 0)], [(0, 86595), (0, 509), (0, 1)]], 3, 4⟩, 17592186044416, 161568947,
    2661283534742134267275735364789337921308305656091956987064578455982211357912463382605085330486037576744396498808648159357023421,
    lc0⟩) (.leaf ⟨299, 16, 400, 348, 16, 2010, ⟨[[(15834233183531008, 0), (0, 2397370710601481), (48266724367, 0),
    (0, 587810), (0, 11)], [(23185856911069882, 0), (0, 2100492477330), (24585977, 0), (122, 0)], [(26991944189597,
    0), (0, 707107199), (0, 9352), (7, 0)], [(16823629462, 0), (125028, 0), (0, 66)]], 3, 4⟩, ⟨[[(22101790891630592,
    0), (0, 3145987951334062), (42825317460, 0), (0, 723335), (15, 0)], [(0, 15201635760907337), (0, 257359082286),
    (8053447, 0), (0, 697)], [(8409746735246, 0), (0, 276596356), (939, 0), (0, 3)], [(3526888504, 0), (37687, 0),
    (45, 0)]], 3, 4⟩, 72057594037927936, 991963072269, 306173531358, ⟨[[(10498085950087, 0), (6973968632, 0),
    (5777323, 0), (3204, 0)], [(0, 9159970355), (0, 24846712), (0, 37323), (0, 31)], [(24552295, 0), (103432, 0),
    (214, 0)], [(0, 82458), (0, 460), (0, 1)]], 3, 4⟩, 17592186044416, 176040439,
    3515437144928725504007128669915214836611967286104277821502930984158597788035317768528077918738520084958223738475920650580006353,
    lc0⟩)))) (.sx (.sy (.sx (.leaf ⟨313, 16, 502, 347, 16, 1967, ⟨[[(0, 823953608097792), (0, 2634456320783622),
    (55760852273, 0), (0, 532051), (60, 0)], [(20318178011200192, 0), (0, 2378242589383), (27417724, 0), (0, 2578)],
    [(26008042594993, 0), (0, 904631357), (19009, 0), (6, 0)], [(18104041336, 0), (6576, 0), (0, 18)]], 3, 4⟩,
    ⟨[[(34177744751165440, 0), (0, 3010898084998695), (39771455717, 0), (0, 736421), (0, 35)], [(0,
    16884972576661742), (0, 169962153970), (11039027, 0), (1062, 0)], [(6900400234987, 0), (0, 324545543), (0,
    27237), (0, 6)], [(2820418055, 0), (186609, 0), (69, 0)]], 3, 4⟩, 72057594037927936, 1220211365457, 324642769099,
    ⟨[[(11081738513825, 0), (8833294278, 0), (8835507, 0), (5940, 0)], [(0, 10095878351), (0, 33312979), (0, 60934),
    (0, 60)], [(28629882, 0), (148734, 0), (371, 0)], [(0, 104192), (0, 712), (0, 2)]], 3, 4⟩, 17592186044416,
    164854509,
    7443689893932230981225725601669096872389350630508312482739888849844585502367248075139720238192191167360213744787430127934632952,
    lc0⟩) (.leaf ⟨305, 16, 470, 341, 16, 1985, ⟨[[(0, 18824901565640704), (0, 2561535237344763), (53314374657, 0),
    (0, 588646), (41, 0)], [(21159766411878190, 0), (0, 2297739398565), (27047849, 0), (0, 1882)], [(26545174959279,
    0), (0, 845623839), (14651, 0), (7, 0)], [(17894369824, 0), (16619, 0), (0, 34)]], 3, 4⟩, ⟨[[(0,
    7512212079947776), (0, 3046218826243560), (40559879071, 0), (0, 708661), (0, 20)], [(0, 16439073803649603), (0,
    198082287456), (9192049, 0), (584, 0)], [(7336855233991, 0), (0, 305610961), (0, 18990), (0, 5)], [(3077386516,
    0), (158312, 0), (65, 0)]], 3, 4⟩, 72057594037927936, 1165961266701, 312385820864, ⟨[[(10881326842323, 0),
    (8209494082, 0), (7827230, 0), (5092, 0)], [(0, 9768102481), (0, 30583453), (0, 53534), (0, 52)], [(27293137, 0),
    (134754, 0), (325, 0)], [(0, 97080), (0, 638), (0, 2)]], 3, 4⟩, 17592186044416, 172788023,
    6291305281822627227879184720255087864333591699433411361765337261753894413186042656384513912394812107585251640853399263885563815,
    lc0⟩)) (.sx (.leaf ⟨305, 16, 520, 329, 16, 1981, ⟨[[(28890490405859328, 0), (0, 2671309263893036), (57038511343,
    0), (0, 397533), (91, 0)], [(19816825174300133, 0), (0, 2437232367120), (23749135, 0), (0, 3517)],
    [(26475968036233, 0), (0, 912449184), (29335, 0), (6, 0)], [(18753175209, 0), (0, 4492), (0, 4)]], 3, 4⟩, ⟨[[(0,
    2808969577668608), (0, 2992693469116084), (38877503622, 0), (0, 825849), (0, 48)], [(0, 17088116087954149), (0,
    158996444004), (13347415, 0), (1911, 0)], [(6777690794344, 0), (0, 359421414), (0, 37743), (0, 7)], [(2953319405,
    0), (263617, 0), (82, 0)]], 3, 4⟩, 72057594037927936, 1263142069216, 319668501317, ⟨[[(11090547676411, 0),
    (9041398511, 0), (9533053, 0), (7043, 0), (1, 0)], [(0, 10140131661), (0, 35112425), (0, 68881), (0, 75)],
    [(29543813, 0), (163533, 0), (439, 0), (1, 0)], [(0, 112974), (0, 823), (0, 3)]], 3, 4⟩, 17592186044416,
    194465949,
    7856585372012614737116207632197543580740212282521857272533008882240846451817493075917294601107085244831776648977102524193929946,
    lc0⟩) (.leaf ⟨297, 16, 487, 322, 16, 2000, ⟨[[(33333797478223872, 0), (0, 2599159378288636), (54400753471, 0),
    (0, 499440), (68, 0)], [(20736724668772861, 0), (0, 2354382781633), (24496183, 0), (0, 2745)], [(27070179489710,
    0), (0, 855639753), (25796, 0), (7, 0)], [(18542474049, 0), (0, 11817), (0, 23)]], 3, 4⟩, ⟨[[(16654420517904384,
    0), (0, 3028759623572819), (39755154213, 0), (0, 765375), (0, 31)], [(0, 16661056036304936), (0, 189652270336),
    (10702453, 0), (1343, 0)], [(7232185722821, 0), (0, 331462685), (0, 28029), (0, 6)], [(3198167740, 0), (230995,
    0), (77, 0)]], 3, 4⟩, 72057594037927936, 1208623033131, 300368890017, ⟨[[(10885735621441, 0), (8383594145, 0),
    (8408930, 0), (6011, 0), (1, 0)], [(0, 9780045315), (0, 32053965), (0, 60129), (0, 65)], [(27933480, 0), (146791,
    0), (383, 0), (1, 0)], [(0, 103759), (0, 730), (0, 2)]], 3, 4⟩, 17592186044416, 200101036,
    7183307830427954437239974201155890816902471248243642666783536155472820219959351633036026874808188181473860677246128703276316389,
    lc0⟩))) (.sy (.sx (.leaf ⟨298, 16, 441, 335, 16, 2004, ⟨[[(9749085698187264, 0), (0, 2495431732099993),
    (51112292280, 0), (0, 614741), (23, 0)], [(22036812174682664, 0), (0, 2222501085976), (26338051, 0), (0, 1194)],
    [(27079445405999, 0), (0, 790352669), (8742, 0), (7, 0)], [(17690552845, 0), (35506, 0), (0, 48)]], 3, 4⟩, ⟨[[(0,
    23793416635432960), (0, 3084308727711244), (41308810994, 0), (0, 699698), (0, 6)], [(0, 15957391038856360), (0,
    225110355907), (8006943, 0), (173, 0)], [(7812706419707, 0), (0, 290592592), (0, 11266), (0, 5)], [(3330271933,
    0), (124335, 0), (60, 0)]], 3, 4⟩, 72057594037927936, 1110504182252, 302853222179, ⟨[[(10691051456289, 0),
    (7640281757, 0), (6943858, 0), (4359, 0)], [(0, 9459178386), (0, 28115287), (0, 47015), (0, 45)], [(26072461, 0),
    (122173, 0), (284, 0)], [(0, 90811), (0, 571), (0, 2)]], 3, 4⟩, 17592186044416, 182922731,
    4477266565333432656999996408246118606439210461950426568479361645382437804674306716112597111302717390936322258953747547758524854,
    lc0⟩) (.leaf ⟨292, 16, 413, 329, 16, 2025, ⟨[[(0, 9140065440448512), (0, 2425712693479717), (48913856970, 0), (0,
    610370), (8, 0)], [(22857073197675535, 0), (0, 2143339134353), (25088428, 0), (0, 523)], [(27501188098759, 0),
    (0, 734149332), (1552, 0), (7, 0)], [(17418742159, 0), (64774, 0), (0, 60)]], 3, 4⟩, ⟨[[(0, 1794659289255936),
    (0, 3126692412506389), (42065762553, 0), (0, 707300), (6, 0)], [(0, 15443267552103195), (0, 251537305290),
    (7441558, 0), (0, 176)], [(8332444134766, 0), (0, 280219614), (0, 4223), (0, 4)], [(3584257011, 0), (87136, 0),
    (53, 0)]], 3, 4⟩, 72057594037927936, 1049639060625, 295774554724, ⟨[[(10497378420598, 0), (7081597660, 0),
    (6109311, 0), (3676, 0)], [(0, 9135952835), (0, 25677413), (0, 40791), (0, 37)], [(24803584, 0), (109730, 0),
    (243, 0)], [(0, 84664), (0, 503), (0, 1)]], 3, 4⟩, 17592186044416, 192393953,
    2296651972768488191884276696583505740336999958328564896764816049938091069649350390691458038395526934917392279162991813462617208,
    lc0⟩)) (.sx (.leaf ⟨290, 16, 456, 316, 16, 2019, ⟨[[(34845364855910400, 0), (0, 2527713521323618), (51941892000,
    0), (0, 563425), (48, 0)], [(21639402910726717, 0), (0, 2271872052312), (24819337, 0), (0, 1978)],
    [(27593484029783, 0), (0, 802521847), (20277, 0), (7, 0)], [(18298997855, 0), (0, 8320), (0, 40)]], 3, 4⟩, ⟨[[(0,
    23707896044371968), (0, 3066147637798716), (40542340683, 0), (0, 726597), (0, 15)], [(0, 16188608364603523), (0,
    218399518767), (8828000, 0), (852, 0)], [(7720749710675, 0), (0, 307838326), (0, 18903), (0, 5)], [(3434102795,
    0), (190901, 0), (71, 0)]], 3, 4⟩, 72057594037927936, 1157368154950, 287162036289, ⟨[[(10694538333294, 0),
    (7787415592, 0), (7418805, 0), (5095, 0), (1, 0)], [(0, 9466140342), (0, 29343235), (0, 52379), (0, 55)],
    [(26580983, 0), (132029, 0), (331, 0)], [(0, 95944), (0, 645), (0, 2)]], 3, 4⟩, 17592186044416, 208492676,
    5943478813037905564679281712289033974449782203057048691453842311358505919897253725151180404866493159639493901524823956240566179,
    lc0⟩) (.leaf ⟨284, 16, 426, 309, 16, 2039, ⟨[[(0, 14067165618008064), (0, 2451880543335607), (49528815864, 0),
    (0, 591211), (30, 0)], [(22473152709832774, 0), (0, 2185403419749), (24549070, 0), (0, 1231)], [(27988071240977,
    0), (0, 749862257), (13138, 0), (8, 0)], [(17985533381, 0), (8167, 0), (0, 55)]], 3, 4⟩, ⟨[[(33377803725107200,
    0), (0, 3106319185418627), (41289881457, 0), (0, 706880), (0, 1)], [(0, 15675296105715023), (0, 245738208397),
    (7676762, 0), (434, 0)], [(8246830943207, 0), (0, 289499093), (0, 10576), (0, 5)], [(3667387212, 0), (146363, 0),
    (63, 0)]], 3, 4⟩, 72057594037927936, 1098331030051, 278231677170, ⟨[[(10493410926769, 0), (7195561654, 0),
    (6484072, 0), (4252, 0), (1, 0)], [(0, 9117668189), (0, 26624869), (0, 44959), (0, 46)], [(25117670, 0), (117219,
    0), (280, 0)], [(0, 87926), (0, 558), (0, 2)]], 3, 4⟩, 17592186044416, 218523233,
    4061265991883735867340737987799696201338304689813113679684080804196360480872301844457650231059041477691487482717422167683895955,
    lc0⟩))))
theorem c50 : checkR job con0 true ⟨7, 9, 7, 9, 13, 17⟩ 1 9016 t50 579 21 320 15247 251 16000 = true := by decide +kernel

def t51 : CTree :=
  .sx (.sy (.sx (.sy (.leaf ⟨530, 16, 1075, 512, 16, 2853, ⟨[[(27224233735921664, 0), (0, 2322584897631681),
    (28073286945, 0), (151868, 0), (25, 0)], [(23970336593904332, 0), (0, 2191020096494), (5114441, 0), (0, 1378)],
    [(36568492169242, 0), (0, 945444551), (7506, 0)], [(30653909871, 0), (104727, 0), (37, 0)]], 3, 4⟩,
    ⟨[[(28815499211243520, 0), (0, 2125435877458038), (12047883538, 0), (0, 293968), (0, 15)], [(0,
    27569476193168823), (9765912548, 0), (14261766, 0), (1138, 0)], [(7690780405727, 0), (0, 412258013), (0, 33811),
    (0, 2)], [(2874511809, 0), (250707, 0), (31, 0)]], 3, 4⟩, 72057594037927936, 2274777477122, 586097237606,
    ⟨[[(11979112199474, 0), (8366811161, 0), (7405173, 0), (4253, 0), (0, 1)], [(0, 7658067435), (0, 22706587), (0,
    36315), (0, 29)], [(16085745, 0), (74089, 0), (157, 0)], [(0, 44956), (0, 262), (0, 1)]], 3, 4⟩, 17592186044416,
    22763895,
    9214941787096635503816006420039525091007766314787368272239348594575473160717609772827303446209317177533331196240069668719247458,
    lc0⟩) (.leaf ⟨529, 16, 1105, 499, 16, 2861, ⟨[[(0, 25358345195069440), (0, 2358297863666286), (29131564671, 0),
    (209809, 0), (28, 0)], [(23509831586315429, 0), (0, 2247985749143), (3038821, 0), (0, 1531)], [(37103094925744,
    0), (0, 964085078), (7689, 0)], [(31573550347, 0), (149008, 0), (44, 0)]], 3, 4⟩, ⟨[[(2142514085756928, 0), (0,
    2119496241428716), (11614783383, 0), (0, 325586), (0, 16)], [(0, 27638113343810798), (25053075329, 0), (16134426,
    0), (1294, 0)], [(7495954550573, 0), (0, 449340158), (0, 37715), (0, 3)], [(3016819859, 0), (283845, 0), (34,
    0)]], 3, 4⟩, 72057594037927936, 2327978859115, 602683462994, ⟨[[(11976636655025, 0), (8482880782, 0), (7754192,
    0), (4726, 0)], [(0, 7619704963), (0, 23288626), (0, 38901), (0, 34)], [(16238447, 0), (77696, 0), (175, 0)],
    [(0, 46501), (0, 285), (0, 1)]], 3, 4⟩, 17592186044416, 24085306,
    9341375398078986622892543736308087289359883274301850589985166599033281012532943159523295380581305424797035393297253518238962239,
    lc0⟩)) (.leaf ⟨330, 16, 661, 334, 16, 1947, ⟨[[(8766102208327680, 0), (0, 2953950826015229), (69810515407, 0),
    (577397, 0), (232, 0)], [(16379498599385189, 0), (0, 2788123713146), (12025621, 0), (0, 6960), (0, 1)],
    [(24792647182167, 0), (0, 1140441091), (29994, 0), (2, 0)], [(20071942473, 0), (124668, 0), (84, 0)]], 3, 4⟩,
    ⟨[[(0, 14379339898036224), (0, 2892809483383777), (33839631109, 0), (0, 1432792), (0, 134)], [(0,
    18366198422679098), (0, 23891772109), (33647514, 0), (5514, 0), (1, 0)], [(5449327664711, 0), (0, 539090796), (0,
    85821), (0, 13)], [(2319769373, 0), (385216, 0), (95, 0)]], 3, 4⟩, 72057594037927936, 1483298200545,
    391157331001, ⟨[[(11746656240380, 0), (11577141855, 0), (14799898, 0), (12868, 0)], [(0, 11343421291), (0,
    48239470), (0, 113338), (0, 141)], [(36323256, 0), (243298, 0), (766, 0), (1, 0)], [(0, 156036), (0, 1327), (0,
    5)]], 3, 4⟩, 17592186044416, 209051816,
    9117916054691797777925425331945935600755572999276989764621335492285750044358816743445793738548071045226787462049146332430562392,
    lc0⟩)) (.sx (.sy (.leaf ⟨527, 16, 1137, 486, 16, 2869, ⟨[[(11339337491791872, 0), (0, 2396319130563736),
    (30345591985, 0), (277021, 0), (32, 0)], [(23030074988445510, 0), (0, 2311168700122), (660558, 0), (0, 1701)],
    [(37681570306888, 0), (0, 984132375), (7747, 0)], [(32576806520, 0), (201937, 0), (52, 0)]], 3, 4⟩, ⟨[[(0,
    24629065058856960), (0, 2113983980485817), (11131038216, 0), (0, 359376), (0, 17)], [(0, 27698537392642389),
    (42388883071, 0), (18255450, 0), (1461, 0)], [(7280842354682, 0), (0, 490628010), (0, 41983), (0, 3)],
    [(3176833173, 0), (319695, 0), (36, 0)]], 3, 4⟩, 72057594037927936, 2383144574131, 620365450640,
    ⟨[[(11983717908540, 0), (8634547877, 0), (8186021, 0), (5330, 0)], [(0, 7621915764), (0, 24120340), (0, 42332),
    (0, 40)], [(16594148, 0), (82975, 0), (201, 0)], [(0, 49102), (0, 320), (0, 1)]], 3, 4⟩, 17592186044416,
    26332149,
    9393977963961974851269738954617975692527743999812341098964364026270319003940175366149722363380692597996287778417493004540743112,
    lc0⟩) (.leaf ⟨526, 16, 1171, 472, 16, 2878, ⟨[[(0, 11717561111109632), (0, 2436366072743581), (31734104771, 0),
    (354680, 0), (36, 0)], [(22523794073304204, 0), (0, 2380955745226), (0, 2060636), (0, 1890)], [(38301551277324,
    0), (0, 1005697434), (7661, 0)], [(33669310842, 0), (264689, 0), (60, 0)]], 3, 4⟩, ⟨[[(32175244617281536, 0), (0,
    2109686093122709), (10597057417, 0), (0, 395287), (0, 18)], [(0, 27759275480347764), (62059417025, 0), (20650758,
    0), (1641, 0)], [(7045627134023, 0), (0, 536702400), (0, 46667), (0, 3)], [(3357187917, 0), (358621, 0), (39,
    0)]], 3, 4⟩, 72057594037927936, 2439299327153, 643306298263, ⟨[[(11974414398938, 0), (8750920105, 0), (8597211,
    0), (6006, 0)], [(0, 7570096001), (0, 24776638), (0, 45776), (0, 49)], [(16770995, 0), (87762, 0), (229, 0)],
    [(0, 51158), (0, 356), (0, 1)]], 3, 4⟩, 17592186044416, 29185532,
    9371361706029866704705029890428834617688088334670109744573599836148939494898243852576138583624562952947726382788777682024480866,
    lc0⟩)) (.sy (.leaf ⟨498, 16, 1046, 475, 16, 2904, ⟨[[(14071529642532864, 0), (0, 2295413252279141), (27958383695,
    0), (189159, 0), (27, 0)], [(24260698366345624, 0), (0, 2201311126493), (1447442, 0), (0, 1556)],
    [(38560580563572, 0), (0, 883795278), (12738, 0)], [(31857409894, 0), (154540, 0), (41, 0)]], 3, 4⟩,
    ⟨[[(30642986197725184, 0), (0, 2138822794514164), (11970733467, 0), (0, 306654), (0, 14)], [(0,
    27399493228104076), (2945642029, 0), (15108704, 0), (1244, 0)], [(7805897956180, 0), (0, 454401984), (0, 37667),
    (0, 3)], [(3697145466, 0), (343693, 0), (40, 0)]], 3, 4⟩, 72057594037927936, 2225130966956, 542747177175,
    ⟨[[(11741007025779, 0), (7957294311, 0), (7200679, 0), (4616, 0)], [(0, 7411578389), (0, 22241659), (0, 37591),
    (0, 36)], [(15994140, 0), (76421, 0), (177, 0)], [(0, 46980), (0, 289), (0, 1)]], 3, 4⟩, 17592186044416,
    26338373,
    8564012754373316933527796495940820480147710095289483036436900835161860026319554038488205113851625887763296219979234850619882776,
    lc0⟩) (.leaf ⟨496, 16, 1075, 462, 16, 2912, ⟨[[(0, 23509528178585600), (0, 2330043073581683), (29069428947, 0),
    (252642, 0), (30, 0)], [(23797790964074188, 0), (0, 2262090388637), (0, 1020166), (0, 1732)], [(39177036033836,
    0), (0, 894901768), (13580, 0)], [(32831568760, 0), (204432, 0), (48, 0)]], 3, 4⟩, ⟨[[(0, 11895296029212672), (0,
    2132902640499189), (11519545934, 0), (0, 335692), (0, 14)], [(0, 27469510564443045), (19146369119, 0), (17145069,
    0), (1403, 0)], [(7588798479431, 0), (0, 495662958), (0, 41990), (0, 3)], [(3890631219, 0), (386181, 0), (43,
    0)]], 3, 4⟩, 72057594037927936, 2265250530564, 552277212918, ⟨[[(11741842583932, 0), (8076235568, 0), (7559274,
    0), (5152, 0), (1, 0)], [(0, 7389200228), (0, 22896644), (0, 40489), (0, 42)], [(16235057, 0), (80737, 0), (199,
    0)], [(0, 49026), (0, 318), (0, 1)]], 3, 4⟩, 17592186044416, 28453709,
    8478167525226044723412625788097460930755249844415517168445341529035707249482374602192166144375739452638402206513323578949725826,
    lc0⟩)))) (.sy (.sx (.leaf ⟨318, 16, 618, 326, 16, 1963, ⟨[[(11479630072799232, 0), (0, 2873143878613437),
    (65796300315, 0), (271290, 0), (194, 0)], [(17362393095904274, 0), (0, 2695755922153), (13982334, 0), (0, 6252),
    (0, 1)], [(25616403951100, 0), (0, 1053733948), (36789, 0), (4, 0)], [(19913533751, 0), (80880, 0), (60, 0)]], 3,
    4⟩, ⟨[[(0, 8106828513292288), (0, 2918523470120517), (35397049752, 0), (0, 1232734), (0, 106)], [(0,
    18042737890909986), (0, 67675283326), (27168510, 0), (4545, 0), (1, 0)], [(5806736022762, 0), (0, 494205134), (0,
    74252), (0, 11)], [(2617525912, 0), (391447, 0), (99, 0)]], 3, 4⟩, 72057594037927936, 1416320685696,
    352574669351, ⟨[[(11518479895226, 0), (10735463657, 0), (13139770, 0), (11251, 0), (1, 0)], [(0, 10907908625),
    (0, 44148108), (0, 100433), (0, 125)], [(34179276, 0), (220354, 0), (674, 0), (1, 0)], [(0, 144252), (0, 1185),
    (0, 4)]], 3, 4⟩, 17592186044416, 210689850,
    8613329034762832384081288963461976681058170351205036965092673724044268003384229906548780156207668418411898242144940165202559711,
    lc0⟩) (.leaf ⟨308, 16, 578, 318, 16, 1979, ⟨[[(0, 26130243615420416), (0, 2794806919369407), (62151378924, 0),
    (15836, 0), (159, 0)], [(18351601479848067, 0), (0, 2603723961498), (16229805, 0), (0, 5456), (0, 1)],
    [(26373859617064, 0), (0, 978385234), (40221, 0), (6, 0)], [(19720357070, 0), (37333, 0), (36, 0)]], 3, 4⟩,
    ⟨[[(6311430303014912, 0), (0, 2946027083629454), (36711278426, 0), (0, 1069880), (0, 81)], [(0,
    17683644288038918), (0, 108007476978), (21629469, 0), (3670, 0), (1, 0)], [(6202458545475, 0), (0, 449215648),
    (0, 62303), (0, 10)], [(2885938408, 0), (380766, 0), (99, 0)]], 3, 4⟩, 72057594037927936, 1362921888265,
    325870294476, ⟨[[(11292089348315, 0), (9929457644, 0), (11578996, 0), (9675, 0), (1, 0)], [(0, 10453846628), (0,
    40070630), (0, 87766), (0, 108)], [(31871693, 0), (196719, 0), (584, 0), (1, 0)], [(0, 131078), (0, 1043), (0,
    4)]], 3, 4⟩, 17592186044416, 212518211,
    8050807825830789645867411683643276121393855396370653467486280015027554838334818117206929849356299455393590860289056423698243026,
    lc0⟩)) (.sx (.leaf ⟨311, 16, 644, 308, 16, 1978, ⟨[[(0, 5272151389245440), (0, 2924859760052030), (69319888968,
    0), (736872, 0), (251, 0)], [(16685456574799028, 0), (0, 2799768221937), (3848055, 0), (0, 7748), (0, 1)],
    [(26153071110203, 0), (0, 1056472279), (44447, 0), (4, 0)], [(20811480277, 0), (159699, 0), (88, 0)]], 3, 4⟩,
    ⟨[[(899615183847424, 0), (0, 2906009823351928), (33628007203, 0), (0, 1470479), (0, 119)], [(0,
    18207320680434002), (0, 36902176600), (35306382, 0), (5980, 0), (1, 0)], [(5580742852944, 0), (0, 582337054), (0,
    93768), (0, 14)], [(2861969745, 0), (502600, 0), (116, 0)]], 3, 4⟩, 72057594037927936, 1445720342334,
    343411650749, ⟨[[(11514520699409, 0), (11000205201, 0), (14320052, 0), (13674, 0), (3, 0)], [(0, 10922629603),
    (0, 46831906), (0, 115403), (0, 166)], [(35629955, 0), (246382, 0), (830, 0), (2, 0)], [(0, 159540), (0, 1417),
    (0, 6)]], 3, 4⟩, 17592186044416, 254567499,
    8298258642503454909318205311670467441880892756575937329864760773745133272239782822395806222634101943170255732883802559066610205,
    lc0⟩) (.leaf ⟨300, 16, 601, 300, 16, 1994, ⟨[[(0, 10090153438191616), (0, 2841034327133150), (64921069677, 0),
    (391658, 0), (209, 0)], [(17726274081654680, 0), (0, 2694963608054), (7471388, 0), (0, 6837), (0, 1)],
    [(26923908184159, 0), (0, 971006604), (50417, 0), (6, 0)], [(20535693692, 0), (86814, 0), (59, 0)]], 3, 4⟩,
    ⟨[[(0, 3858320703295488), (0, 2932077069569598), (35236861791, 0), (0, 1252643), (0, 91)], [(0,
    17866312175485422), (0, 83847649297), (28274740, 0), (4933, 0), (1, 0)], [(6005075995176, 0), (0, 523893079), (0,
    79696), (0, 12)], [(3126998327, 0), (492499, 0), (117, 0)]], 3, 4⟩, 72057594037927936, 1385596973644,
    308093248569, ⟨[[(11295721246498, 0), (10182466265, 0), (12616114, 0), (11686, 0), (3, 0)], [(0, 10499369786),
    (0, 42592404), (0, 100813), (0, 140)], [(33331696, 0), (220483, 0), (712, 0), (1, 0)], [(0, 145864), (0, 1242),
    (0, 5)]], 3, 4⟩, 17592186044416, 255776391,
    7561700339347174212065111274522288941528152275006788087404863499074620300703072401908901215344305957299398617126929161192034206,
    lc0⟩)))
theorem c51 : checkR job con0 true ⟨7, 9, 7, 9, 13, 17⟩ 1 9016 t51 537 21 320 31247 251 32000 = true := by decide +kernel

def t52 : CTree :=
  .sx (.sy (.sy (.sx (.leaf ⟨525, 16, 1207, 459, 16, 2887, ⟨[[(0, 27156153121595392), (0, 2478130904178601),
    (33318484253, 0), (444086, 0), (41, 0)], [(21983470725786728, 0), (0, 2457795861100), (0, 5170034), (0, 2099)],
    [(38960625859246, 0), (0, 1028916938), (7412, 0)], [(34857556176, 0), (338597, 0), (69, 0)]], 3, 4⟩,
    ⟨[[(15636657772769280, 0), (0, 2105919597416788), (10005766725, 0), (0, 432968), (0, 18)], [(0,
    27809397811494534), (84342856423, 0), (23334505, 0), (1834, 0)], [(6785186688662, 0), (0, 587844163), (0, 51792),
    (0, 3)], [(3558448049, 0), (400785, 0), (42, 0)]], 3, 4⟩, 72057594037927936, 2494226674365, 671391592161,
    ⟨[[(11974753804856, 0), (8894156682, 0), (9073820, 0), (6823, 0), (1, 0)], [(0, 7549764794), (0, 25624761), (0,
    50049), (0, 60)], [(17101390, 0), (94121, 0), (267, 0)], [(0, 54136), (0, 406), (0, 2)]], 3, 4⟩, 17592186044416,
    33660620,
    9215165937066489020533263623960131677718476215027592502424230721125722194499426215737406997942286209590590217973368670256206780,
    lc0⟩) (.leaf ⟨493, 16, 1106, 448, 16, 2921, ⟨[[(26803300998070272, 0), (0, 2366994934397690), (30348042228, 0),
    (325874, 0), (34, 0)], [(23315242350320512, 0), (0, 2329759959157), (0, 3841937), (0, 1928)], [(39848154297193,
    0), (0, 906466489), (14383, 0)], [(33897045994, 0), (263719, 0), (57, 0)]], 3, 4⟩, ⟨[[(28606263782146048, 0), (0,
    2128155264609665), (11026019464, 0), (0, 366127), (0, 15)], [(0, 27540251041485318), (37577996414, 0), (19442230,
    0), (1574, 0)], [(7351667348476, 0), (0, 541766922), (0, 46737), (0, 3)], [(4108277813, 0), (432424, 0), (47,
    0)]], 3, 4⟩, 72057594037927936, 2302321424612, 565626791492, ⟨[[(11742384051798, 0), (8209257492, 0), (7979334,
    0), (5830, 0), (1, 0)], [(0, 7380299412), (0, 23709388), (0, 44168), (0, 51)], [(16595476, 0), (86459, 0), (230,
    0)], [(0, 51883), (0, 360), (0, 1)]], 3, 4⟩, 17592186044416, 32187647,
    8344541219570918919016278162427047863094728097929200889430575749384615034396844798789565407461956260499176195279964137109564731,
    lc0⟩)) (.sx (.leaf ⟨524, 16, 1246, 446, 16, 2896, ⟨[[(0, 9113231100076032), (0, 2523302001991268), (35151240416,
    0), (547102, 0), (46, 0)], [(21418485777944789, 0), (0, 2544249276461), (0, 8725546), (0, 2335)],
    [(39688172286413, 0), (0, 1054804326), (6978, 0), (0, 1)], [(36178043085, 0), (425505, 0), (80, 0)]], 3, 4⟩,
    ⟨[[(0, 2452933987020800), (0, 2102745342415599), (9354538298, 0), (0, 472132), (0, 19)], [(0, 27847481681425036),
    (109547252918, 0), (26327248, 0), (2040, 0)], [(6496780861286, 0), (0, 644534459), (0, 57404), (0, 4)],
    [(3782375002, 0), (446477, 0), (46, 0)]], 3, 4⟩, 72057594037927936, 2552848966524, 696104214180,
    ⟨[[(11978856292547, 0), (9058907785, 0), (9630453, 0), (7854, 0), (2, 0)], [(0, 7545760041), (0, 26664916), (0,
    55471), (0, 75)], [(17559545, 0), (102458, 0), (319, 0), (1, 0)], [(0, 58151), (0, 475), (0, 2)]], 3, 4⟩,
    17592186044416, 37846209,
    8875708267177202434690913896581462150772570846693855182478729333568834656903730600347062923017904664172655252874043422473819068,
    lc0⟩) (.leaf ⟨492, 16, 1140, 435, 16, 2929, ⟨[[(0, 25076809213812736), (0, 2408081295667548), (31842103110, 0),
    (410404, 0), (39, 0)], [(22825238695825838, 0), (0, 2406897977462), (0, 7072154), (0, 2148)], [(40607873278407,
    0), (0, 919276094), (15152, 0)], [(35090836862, 0), (333972, 0), (66, 0)]], 3, 4⟩, ⟨[[(0, 14674719916167168), (0,
    2123168533827105), (10480596943, 0), (0, 397411), (0, 15)], [(0, 27591644004579657), (58491694901, 0), (22004658,
    0), (1755, 0)], [(7086864908676, 0), (0, 592802301), (0, 51918), (0, 4)], [(4349303351, 0), (482465, 0), (51,
    0)]], 3, 4⟩, 72057594037927936, 2338417379959, 582954981883, ⟨[[(11742019457697, 0), (8337000127, 0), (8402927,
    0), (6575, 0), (2, 0)], [(0, 7347447675), (0, 24444756), (0, 47969), (0, 62)], [(16851049, 0), (92022, 0), (265,
    0), (1, 0)], [(0, 54387), (0, 405), (0, 2)]], 3, 4⟩, 17592186044416, 36538934,
    8219067499904803362727308244449611665857158147473837914325323999505258693387869702531391354056174500865173797799453566815055630,
    lc0⟩))) (.sy (.sx (.leaf ⟨523, 16, 1287, 433, 16, 2905, ⟨[[(5934229488197632, 0), (0, 2569427004660892),
    (37233106063, 0), (665009, 0), (52, 0)], [(20801445113415875, 0), (0, 2638886640658), (0, 12783302), (0, 2598)],
    [(40448933904486, 0), (0, 1082704559), (6323, 0), (0, 1)], [(37610673649, 0), (526900, 0), (92, 0)]], 3, 4⟩,
    ⟨[[(0, 22391472405471232), (0, 2100226760978932), (8641215786, 0), (0, 512433), (0, 19)], [(0,
    27871939929118720), (138002582580, 0), (29650277, 0), (2260, 0)], [(6177407996060, 0), (0, 707302135), (0,
    63550), (0, 4)], [(4030886778, 0), (496011, 0), (50, 0)]], 3, 4⟩, 72057594037927936, 2609322358156, 728836499649,
    ⟨[[(11982952273017, 0), (9234221069, 0), (10257741, 0), (9140, 0), (3, 0)], [(0, 7550108664), (0, 27871403), (0,
    62221), (0, 95)], [(18124035, 0), (113016, 0), (389, 0), (1, 0)], [(0, 63266), (0, 568), (0, 3)]], 3, 4⟩,
    17592186044416, 44790909,
    8739137455929469478076251578945510651084120312255934270503963391079011502865473258838286524343826615559212595149159731475397230,
    lc0⟩) (.leaf ⟨490, 16, 1175, 421, 16, 2938, ⟨[[(0, 30926642601660416), (0, 2448722147130787), (33519008978, 0),
    (506887, 0), (44, 0)], [(22278532509714618, 0), (0, 2489830064201), (0, 10755597), (0, 2392)], [(41382918755463,
    0), (0, 931694461), (15850, 0)], [(36358692675, 0), (416111, 0), (76, 0)]], 3, 4⟩, ⟨[[(23893373599121408, 0), (0,
    2119446705613109), (9889290755, 0), (0, 429441), (0, 15)], [(0, 27641181488201563), (82209792005, 0), (24863982,
    0), (1948, 0)], [(6796561337609, 0), (0, 649646937), (0, 57612), (0, 4)], [(4618742995, 0), (536971, 0), (55,
    0)]], 3, 4⟩, 72057594037927936, 2371849774078, 598175405267, ⟨[[(11736913642701, 0), (8465654379, 0), (8873930,
    0), (7498, 0), (4, 0)], [(0, 7318366903), (0, 25294195), (0, 52662), (0, 77)], [(17189637, 0), (99098, 0), (312,
    0), (1, 0)], [(0, 57665), (0, 466), (0, 2)]], 3, 4⟩, 17592186044416, 40211339,
    8158145218568610907766977838945956361768845107459505159742750710836011912488302917133644971363339122831534032351509043324151047,
    lc0⟩)) (.sx (.leaf ⟨523, 16, 1332, 420, 16, 2915, ⟨[[(0, 1312303590809600), (0, 2620029914030885), (39655011591,
    0), (800740, 0), (58, 0)], [(20154047670360201, 0), (0, 2746522955506), (0, 17434648), (0, 2897)],
    [(41302269891646, 0), (0, 1114536260), (5423, 0), (0, 1)], [(39224244272, 0), (645678, 0), (105, 0)]], 3, 4⟩,
    ⟨[[(0, 34139885124165632), (0, 2099149475550871), (7866905685, 0), (0, 553650), (0, 20)], [(0,
    27890577214249033), (170119875872, 0), (33337004, 0), (2495, 0)], [(5825777604393, 0), (0, 776995129), (0,
    70308), (0, 5)], [(4307550435, 0), (549922, 0), (54, 0)]], 3, 4⟩, 72057594037927936, 2669192845575, 765991953168,
    ⟨[[(11983734195076, 0), (9407970352, 0), (10944031, 0), (10730, 0), (6, 0)], [(0, 7540122245), (0, 29160279), (0,
    70372), (0, 123)], [(18700671, 0), (125574, 0), (482, 0), (1, 0)], [(0, 69128), (0, 686), (0, 4)]], 3, 4⟩,
    17592186044416, 53114288,
    8778115325157773174058136087549517778969807311246634106749296114804783748581653186408743466463028054342828404437266103510505142,
    lc0⟩) (.leaf ⟨488, 16, 1213, 408, 16, 2947, ⟨[[(0, 6152795675074560), (0, 2492754555277196), (35461086351, 0),
    (617549, 0), (49, 0)], [(21705596315329990, 0), (0, 2583415776346), (0, 14969309), (0, 2667)], [(42242560047892,
    0), (0, 945323380), (16492, 0)], [(37770615614, 0), (512431, 0), (87, 0)]], 3, 4⟩, ⟨[[(0, 11132619837751296), (0,
    2116313421356930), (9247561335, 0), (0, 461667), (0, 15)], [(0, 27677920790690359), (109028347648, 0), (28031382,
    0), (2153, 0)], [(6475198427273, 0), (0, 712656047), (0, 63853), (0, 4)], [(4917534981, 0), (596182, 0), (60,
    0)]], 3, 4⟩, 72057594037927936, 2402761819754, 618034300207, ⟨[[(11743579776497, 0), (8632451617, 0), (9450763,
    0), (8695, 0), (5, 0)], [(0, 7329853058), (0, 26453822), (0, 58978), (0, 98)], [(17758059, 0), (109163, 0), (382,
    0), (1, 0)], [(0, 62573), (0, 558), (0, 3)]], 3, 4⟩, 17592186044416, 47052145,
    8228433872499645849289870298051577500576143115710004769884436581411513257682520005636012294658180076902604340227390526059087508,
    lc0⟩)))) (.sy (.sx (.leaf ⟨304, 16, 673, 290, 16, 1993, ⟨[[(0, 7991903129206784), (0, 2983116316542663),
    (74025244714, 0), (1352021, 0), (318, 0)], [(15967991084322121, 0), (0, 2928283546204), (0, 9244678), (0, 9552),
    (0, 1)], [(26788754203525, 0), (0, 1054388691), (52404, 0), (4, 0)], [(21858116817, 0), (274318, 0), (122, 0)]],
    3, 4⟩, ⟨[[(4711242652307456, 0), (0, 2895210834815209), (31465681178, 0), (0, 1730802), (0, 127)], [(0,
    18354284290502312), (3477620304, 0), (45818520, 0), (7608, 0), (1, 0)], [(5302878239168, 0), (0, 692689562), (0,
    117215), (0, 16)], [(3169094878, 0), (634108, 0), (138, 0)]], 3, 4⟩, 72057594037927936, 1465218379205,
    337518251068, ⟨[[(11513408485794, 0), (11302522231, 0), (15730223, 0), (16898, 0), (8, 0)], [(0, 10961307465),
    (0, 50075704), (0, 134718), (0, 230)], [(37512528, 0), (280395, 0), (1063, 0), (3, 0)], [(0, 179471), (0, 1759),
    (0, 9)]], 3, 4⟩, 17592186044416, 317115408,
    7794097719055271893164135286150028182956569882944939737311608723462835521120366949136775445889171852185994204919529571238784730,
    lc0⟩) (.leaf ⟨292, 16, 626, 282, 16, 2009, ⟨[[(0, 3246305647874048), (0, 2890897375425959), (68588361212, 0),
    (892127, 0), (266, 0)], [(17055511031352018, 0), (0, 2804970306965), (0, 3947737), (0, 8485), (0, 1)],
    [(27550131756749, 0), (0, 954199225), (61431, 0), (6, 0)], [(21452853254, 0), (164532, 0), (87, 0)]], 3, 4⟩,
    ⟨[[(0, 18427318286970880), (0, 2919491124465834), (33459995058, 0), (0, 1450764), (0, 95)], [(0,
    18035270676281292), (0, 51779248016), (36997546, 0), (6354, 0), (1, 0)], [(5763409558333, 0), (0, 618354491), (0,
    100623), (0, 15)], [(3431063755, 0), (624940, 0), (139, 0)]], 3, 4⟩, 72057594037927936, 1393447453385,
    289760159921, ⟨[[(11298689259584, 0), (10455400285, 0), (13814572, 0), (14243, 0), (7, 0)], [(0, 10554354632),
    (0, 45504136), (0, 116862), (0, 186)], [(35119801, 0), (249943, 0), (886, 0), (2, 0)], [(0, 164174), (0, 1511),
    (0, 7)]], 3, 4⟩, 17592186044416, 316341922,
    6566843705748908051297650537310123983927527538536381463910521518949406210864642069702972898896460355531719828267281069257748449,
    lc0⟩)) (.sx (.sy (.leaf ⟨460, 16, 1073, 410, 16, 2973, ⟨[[(0, 7939946157989888), (0, 2333121341729038),
    (30227231072, 0), (371711, 0), (36, 0)], [(23697924345540194, 0), (0, 2343282663498), (0, 8257218), (0, 2149)],
    [(42089990154461, 0), (0, 807803150), (22566, 0), (1, 0)], [(35043764603, 0), (299646, 0), (59, 0)]], 3, 4⟩,
    ⟨[[(15930528728051712, 0), (0, 2142320471805386), (10965162549, 0), (0, 358385), (0, 12)], [(0,
    27367199045011014), (30875097983, 0), (20562258, 0), (1661, 0)], [(7495236760282, 0), (0, 587941898), (0, 51129),
    (0, 4)], [(5113831019, 0), (555048, 0), (58, 0)]], 3, 4⟩, 72057594037927936, 2178847596553, 476999154335,
    ⟨[[(11512809358995, 0), (7788366080, 0), (7712748, 0), (6154, 0), (3, 0)], [(0, 7147224834), (0, 23188815), (0,
    45286), (0, 60)], [(16557140, 0), (89197, 0), (254, 0), (1, 0)], [(0, 54409), (0, 396), (0, 2)]], 3, 4⟩,
    17592186044416, 39556400,
    6707900780098092775560312909706465112184692698105199307309999593435586639552843765500883523404203812257369054878726728720797081,
    lc0⟩) (.leaf ⟨457, 16, 1105, 396, 16, 2981, ⟨[[(0, 1739463194038272), (0, 2371139945423093), (31763246425, 0),
    (460995, 0), (41, 0)], [(23190827806963206, 0), (0, 2423422266968), (0, 11973200), (0, 2397)], [(42933575925851,
    0), (0, 808004054), (24345, 0), (1, 0)], [(36259683561, 0), (373198, 0), (68, 0)]], 3, 4⟩, ⟨[[(28663886259310592,
    0), (0, 2137324183474974), (10435747008, 0), (0, 382809), (0, 12)], [(0, 27419888252858475), (52960120927, 0),
    (23254070, 0), (1837, 0)], [(7206090482654, 0), (0, 643733427), (0, 56803), (0, 4)], [(5421991694, 0), (617179,
    0), (63, 0)]], 3, 4⟩, 72057594037927936, 2191097000499, 479807243749, ⟨[[(11511994946906, 0), (7917038976, 0),
    (8154679, 0), (6989, 0), (4, 0)], [(0, 7133059060), (0, 24050868), (0, 49692), (0, 74)], [(16946010, 0), (96145,
    0), (299, 0), (1, 0)], [(0, 57746), (0, 455), (0, 2)]], 3, 4⟩, 17592186044416, 43273798,
    6891295806715719196685929013769147752795950113394851366134469672141131897056781201218635792597167555033799958602658589017011255,
    lc0⟩)) (.leaf ⟨284, 16, 654, 263, 16, 2024, ⟨[[(16244182546411520, 0), (0, 2947408020579019), (73506537377, 0),
    (1543507, 0), (332, 0)], [(16345090252308209, 0), (0, 2941670735721), (0, 18671753), (0, 10493), (0, 1)],
    [(28298932612138, 0), (0, 927737533), (73577, 0), (6, 0)], [(22523956600, 0), (277518, 0), (120, 0)]], 3, 4⟩,
    ⟨[[(34025323283300352, 0), (0, 2908597725644116), (31365150915, 0), (0, 1650617), (0, 91)], [(0,
    18185866593160485), (0, 9527683713), (48045068, 0), (7924, 0), (1, 0)], [(5466199382186, 0), (0, 736665946), (0,
    125837), (0, 18)], [(3809958943, 0), (781973, 0), (164, 0)]], 3, 4⟩, 72057594037927936, 1387887403383,
    277225214028, ⟨[[(11293673773977, 0), (10737565888, 0), (15206773, 0), (17601, 0), (13, 0)], [(0, 10588563667),
    (0, 48793866), (0, 137083), (0, 257)], [(37134020, 0), (286680, 0), (1144, 0), (3, 0)], [(0, 186046), (0, 1894),
    (0, 11)]], 3, 4⟩, 17592186044416, 403315239,
    5741975317949742192980976099323616512403198613693762637591431550248027326776608928608179423491489867705228728550531797181044341,
    lc0⟩)))
theorem c52 : checkR job con0 true ⟨7, 9, 7, 9, 13, 17⟩ 1 9016 t52 537 21 320 31749 251 32000 = true := by decide +kernel

def t53 : CTree :=
  .sy (.sx (.sy (.sx (.leaf ⟨298, 16, 540, 311, 16, 1996, ⟨[[(2002750146584576, 0), (0, 2714842671504002),
    (58770504213, 0), (0, 189308), (128, 0)], [(19314186594194310, 0), (0, 2509205858947), (18458305, 0), (0, 4601)],
    [(27027121705753, 0), (0, 911955158), (40433, 0), (7, 0)], [(19472353165, 0), (0, 1036), (12, 0)]], 3, 4⟩, ⟨[[(0,
    30230826956554240), (0, 2976680547210435), (37839398287, 0), (0, 940997), (0, 59)], [(0, 17294264602147837), (0,
    145006027260), (17061760, 0), (2892, 0), (1, 0)], [(6636637046409, 0), (0, 406358361), (0, 50412), (0, 9)],
    [(3130912479, 0), (355246, 0), (97, 0)]], 3, 4⟩, 72057594037927936, 1306125000935, 303585259504,
    ⟨[[(11090283125514, 0), (9229222358, 0), (10256931, 0), (8325, 0), (1, 0)], [(0, 10122963810), (0, 36781510), (0,
    77406), (0, 93)], [(30261978, 0), (178436, 0), (516, 0), (1, 0)], [(0, 121672), (0, 941), (0, 3)]], 3, 4⟩,
    17592186044416, 222141467,
    7676800719306945187236967851483658813768064357244883348216001783663860490953847427337664984240512467404573157019132551469392051,
    lc0⟩) (.leaf ⟨289, 16, 504, 303, 16, 2014, ⟨[[(21821891871199232, 0), (0, 2633716116241911), (55643014031, 0),
    (0, 345394), (100, 0)], [(20243438416030178, 0), (0, 2413481763403), (20417346, 0), (0, 3723)], [(27578262491606,
    0), (0, 853168787), (37747, 0), (7, 0)], [(19178679771, 0), (0, 29715), (0, 11)]], 3, 4⟩, ⟨[[(27191703613652992,
    0), (0, 3010366960636225), (38821089513, 0), (0, 842102), (0, 39)], [(0, 16870642047160198), (0, 178926533564),
    (13449312, 0), (2213, 0)], [(7107279461560, 0), (0, 367337215), (0, 38935), (0, 8)], [(3358022077, 0), (317362,
    0), (91, 0)]], 3, 4⟩, 72057594037927936, 1248190758035, 283378073506, ⟨[[(10882929023482, 0), (8547448242, 0),
    (9022692, 0), (7083, 0), (1, 0)], [(0, 9770102604), (0, 33533200), (0, 67474), (0, 80)], [(28571686, 0), (159925,
    0), (449, 0), (1, 0)], [(0, 111468), (0, 836), (0, 3)]], 3, 4⟩, 17592186044416, 234132500,
    7033579248635545198862733079093564474828693608051693923514735174402200623764393125237785055765164369251813594763601139375436935,
    lc0⟩)) (.sx (.leaf ⟨290, 16, 561, 292, 16, 2011, ⟨[[(13128459518918656, 0), (0, 2759196293723715), (60979756475,
    0), (107937, 0), (171, 0)], [(18760881773972910, 0), (0, 2591413080081), (11175487, 0), (0, 5864), (0, 1)],
    [(27614031062220, 0), (0, 900017753), (52447, 0), (7, 0)], [(20233599114, 0), (19966, 0), (30, 0)]], 3, 4⟩,
    ⟨[[(11007650868174848, 0), (0, 2961522080209732), (36601872412, 0), (0, 1075221), (0, 66)], [(0,
    17492837591193685), (0, 126366348266), (22385179, 0), (4004, 0), (1, 0)], [(6466991850464, 0), (0, 467657338),
    (0, 65673), (0, 11)], [(3360034822, 0), (464034, 0), (114, 0)]], 3, 4⟩, 72057594037927936, 1328961324192,
    280683905772, ⟨[[(11086426452869, 0), (9431195639, 0), (11102552, 0), (9955, 0), (3, 0)], [(0, 10116124068), (0,
    38760505), (0, 87999), (0, 118)], [(31267789, 0), (197396, 0), (616, 0), (1, 0)], [(0, 133376), (0, 1099), (0,
    4)]], 3, 4⟩, 17592186044416, 263757012,
    7002084385707019467731713061680555898438169153213300602983083277267612190130976217935666623789350550767234941794747696747439669,
    lc0⟩) (.leaf ⟨281, 16, 523, 285, 16, 2029, ⟨[[(26706381383057408, 0), (0, 2675245590833022), (57374666420, 0),
    (0, 116643), (137, 0)], [(19754161759903229, 0), (0, 2486360266633), (14630222, 0), (0, 4861), (0, 1)],
    [(28184329013795, 0), (0, 840164269), (50855, 0), (8, 0)], [(19884520044, 0), (0, 35180), (3, 0)]], 3, 4⟩, ⟨[[(0,
    25669940362895360), (0, 2994183336977611), (37769635146, 0), (0, 933463), (0, 44)], [(0, 17083056308656229), (0,
    164733474502), (17619426, 0), (3190, 0)], [(6963516271953, 0), (0, 415739388), (0, 52129), (0, 9)], [(3568062486,
    0), (420160, 0), (108, 0)]], 3, 4⟩, 72057594037927936, 1279217108685, 261658873091, ⟨[[(10889858626794, 0),
    (8743125361, 0), (9748901, 0), (8412, 0), (2, 0)], [(0, 9790388004), (0, 35337031), (0, 76533), (0, 100)],
    [(29519780, 0), (176699, 0), (534, 0), (1, 0)], [(0, 122147), (0, 976), (0, 3)]], 3, 4⟩, 17592186044416,
    277950644,
    6702040004818856409928388462524802405859219731349511654813043866561519087432399534916006132479539207212509056404371848525945435,
    lc0⟩))) (.sy (.sx (.leaf ⟨282, 16, 471, 296, 16, 2033, ⟨[[(2641148098863104, 0), (0, 2557408470589010),
    (52862182683, 0), (0, 456126), (76, 0)], [(21179406438762731, 0), (0, 2322612747630), (21952521, 0), (0, 2858)],
    [(28091304876691, 0), (0, 802025393), (32663, 0), (8, 0)], [(18887037902, 0), (0, 45100), (0, 31)]], 3, 4⟩,
    ⟨[[(35485914513436672, 0), (0, 3046983710766779), (39694894519, 0), (0, 769336), (0, 22)], [(0,
    16408886840643880), (0, 210152108993), (10749641, 0), (1626, 0)], [(7613150762376, 0), (0, 333529397), (0,
    28169), (0, 7)], [(3573433136, 0), (270128, 0), (84, 0)]], 3, 4⟩, 72057594037927936, 1191047222929, 265499403897,
    ⟨[[(10683956084717, 0), (7910425405, 0), (7900030, 0), (5942, 0), (1, 0)], [(0, 9422545738), (0, 30451788), (0,
    58123), (0, 67)], [(26920677, 0), (141887, 0), (384, 0), (1, 0)], [(0, 101180), (0, 727), (0, 2)]], 3, 4⟩,
    17592186044416, 241920703,
    6393247388540976720578501133859517214481718259126303448114273492428992262837623031302150407509247137400158686031570576474090016,
    lc0⟩) (.leaf ⟨276, 16, 440, 290, 16, 2054, ⟨[[(0, 24008813023707136), (0, 2481540642905770), (50295547432, 0),
    (0, 524846), (55, 0)], [(22084786095678153, 0), (0, 2232914500227), (22881386, 0), (0, 2022)], [(28523491200115,
    0), (0, 754860486), (25594, 0), (8, 0)], [(18567269254, 0), (0, 44353), (0, 49)]], 3, 4⟩, ⟨[[(6064742370701312,
    0), (0, 3087950498384934), (40516991083, 0), (0, 719432), (0, 6)], [(0, 15912854922180184), (0, 239281490627),
    (8902986, 0), (1127, 0)], [(8157800053869, 0), (0, 306070096), (0, 18356), (0, 6)], [(3785392229, 0), (217117,
    0), (75, 0)]], 3, 4⟩, 72057594037927936, 1141351645811, 254315302561, ⟨[[(10495012973522, 0), (7321809698, 0),
    (6901821, 0), (4936, 0), (1, 0)], [(0, 9110921238), (0, 27685680), (0, 49830), (0, 56)], [(25515455, 0), (125969,
    0), (325, 0)], [(0, 92473), (0, 629), (0, 2)]], 3, 4⟩, 17592186044416, 251771945,
    5255955860191677783000505273782396444116561810460460653787922819157317488130225483766212265114391162748638592156419949106159223,
    lc0⟩)) (.sx (.leaf ⟨274, 16, 488, 277, 16, 2048, ⟨[[(0, 3784390872797184), (0, 2595038687117049), (54191863012,
    0), (0, 285733), (108, 0)], [(20741137937390333, 0), (0, 2386071463207), (17608411, 0), (0, 3874)],
    [(28697631408403, 0), (0, 790792996), (46258, 0), (8, 0)], [(19538004349, 0), (0, 73905), (0, 22)]], 3, 4⟩,
    ⟨[[(31319341416693760, 0), (0, 3029914984437714), (38785382664, 0), (0, 822772), (0, 25)], [(0,
    16633268172238717), (0, 199382032583), (13927217, 0), (2487, 0)], [(7492618403964, 0), (0, 369857927), (0,
    39425), (0, 8)], [(3758960087, 0), (364489, 0), (100, 0)]], 3, 4⟩, 72057594037927936, 1233104717312,
    235619720775, ⟨[[(10683500423720, 0), (8062138305, 0), (8470871, 0), (6991, 0), (2, 0)], [(0, 9403171270), (0,
    31806760), (0, 65202), (0, 83)], [(27484218, 0), (154472, 0), (452, 0), (1, 0)], [(0, 108766), (0, 836), (0,
    3)]], 3, 4⟩, 17592186044416, 285563459,
    6141892739229002941480831544596362767437149342411375832474603261465883981271903344481470518905412896776051454279213646887967540,
    lc0⟩) (.leaf ⟨267, 16, 455, 271, 16, 2068, ⟨[[(26527935696846848, 0), (0, 2514298948607462), (51290958617, 0),
    (0, 403864), (82, 0)], [(21684212691243956, 0), (0, 2287067034058), (19893926, 0), (0, 2923)], [(29111753859426,
    0), (0, 747675656), (39167, 0), (9, 0)], [(19165176181, 0), (0, 92540), (0, 43)]], 3, 4⟩, ⟨[[(0,
    32897310025666560), (0, 3068592566975952), (39691827961, 0), (0, 738848), (0, 8)], [(0, 16139828772921478), (0,
    230868855563), (11232084, 0), (1886, 0)], [(8053302024355, 0), (0, 331262944), (0, 27841), (0, 7)], [(3941097859,
    0), (301187, 0), (89, 0)]], 3, 4⟩, 72057594037927936, 1178052125012, 223339087757, ⟨[[(10505507058616, 0),
    (7485982449, 0), (7426672, 0), (5833, 0), (2, 0)], [(0, 9148089237), (0, 29102383), (0, 56297), (0, 69)],
    [(26242916, 0), (138211, 0), (388, 0), (1, 0)], [(0, 100087), (0, 732), (0, 3)]], 3, 4⟩, 17592186044416,
    307599713,
    5177979652979937004331897292587365639175436860160150317544044932110870736228766351888133376791667960949589353523278596636805826,
    lc0⟩)))) (.sx (.sy (.sx (.leaf ⟨282, 16, 583, 274, 16, 2026, ⟨[[(0, 13856511247605760), (0, 2803595718031839),
    (63828989942, 0), (509898, 0), (219, 0)], [(18146815382846056, 0), (0, 2686291883377), (1506852, 0), (0, 7354),
    (0, 1)], [(28242067562000, 0), (0, 875050187), (65593, 0), (7, 0)], [(21047042483, 0), (62237, 0), (52, 0)]], 3,
    4⟩, ⟨[[(0, 23552520032219136), (0, 2947442644711836), (35141488483, 0), (0, 1219026), (0, 67)], [(0,
    17680994645277230), (0, 101319727624), (29521600, 0), (5238, 0), (1, 0)], [(6260602812542, 0), (0, 546296336),
    (0, 84072), (0, 13)], [(3650467779, 0), (593143, 0), (136, 0)]], 3, 4⟩, 72057594037927936, 1340109612705,
    255455431025, ⟨[[(11087035814062, 0), (9653087442, 0), (12061656, 0), (11928, 0), (5, 0)], [(0, 10137895070), (0,
    41076716), (0, 100667), (0, 150)], [(32629883, 0), (220812, 0), (744, 0), (2, 0)], [(0, 148288), (0, 1304), (0,
    5)]], 3, 4⟩, 17592186044416, 322411254,
    5621053407025192109596187537014421593231875708729856471461825640613955589965604749777412641571158286989494726569176084713446018,
    lc0⟩) (.leaf ⟨273, 16, 543, 266, 16, 2043, ⟨[[(0, 826549410922496), (0, 2717757513879129), (59619391461, 0),
    (200471, 0), (178, 0)], [(19216849938628032, 0), (0, 2570287654250), (6739212, 0), (0, 6198), (0, 1)],
    [(28838580789218, 0), (0, 813032318), (65331, 0), (8, 0)], [(20628637216, 0), (0, 25705), (19, 0)]], 3, 4⟩,
    ⟨[[(0, 19041713656147968), (0, 2977393916214601), (36547112948, 0), (0, 1029417), (0, 44)], [(0,
    17279285751112683), (0, 145370292288), (23358131, 0), (4259, 0), (1, 0)], [(6786947440410, 0), (0, 478881163),
    (0, 68046), (0, 11)], [(3834101900, 0), (541987, 0), (128, 0)]], 3, 4⟩, 72057594037927936, 1295279236124,
    230743504962, ⟨[[(10885182923539, 0), (8925368353, 0), (10533878, 0), (10005, 0), (4, 0)], [(0, 9768875946), (0,
    37154380), (0, 86823), (0, 124)], [(30445230, 0), (195324, 0), (635, 0), (1, 0)], [(0, 133927), (0, 1140), (0,
    4)]], 3, 4⟩, 17592186044416, 333439329,
    5203068141942290056449315902157036582926838774541866173522849008651583833566752403685624057290546625195521091377382378592599980,
    lc0⟩)) (.sx (.leaf ⟨273, 16, 607, 255, 16, 2041, ⟨[[(22088951330783232, 0), (0, 2851764568236081), (67624231927,
    0), (1035235, 0), (274, 0)], [(17489203387379419, 0), (0, 2801453667872), (0, 11060821), (0, 9150), (0, 1)],
    [(28965537235940, 0), (0, 836543671), (80255, 0), (8, 0)], [(21961512618, 0), (130554, 0), (78, 0)]], 3, 4⟩,
    ⟨[[(9736252892856320, 0), (0, 2934683780085851), (33451807193, 0), (0, 1359130), (0, 61)], [(0,
    17854936677260830), (0, 67897448194), (38659827, 0), (6581, 0), (1, 0)], [(6007608171644, 0), (0, 645884967), (0,
    106281), (0, 16)], [(4013804387, 0), (746367, 0), (161, 0)]], 3, 4⟩, 72057594037927936, 1328616384157,
    232514171278, ⟨[[(11087389765908, 0), (9909991077, 0), (13242297, 0), (14551, 0), (9, 0)], [(0, 10192566584), (0,
    44029552), (0, 117416), (0, 199)], [(34554101, 0), (252705, 0), (932, 0), (2, 0)], [(0, 168644), (0, 1603), (0,
    8)]], 3, 4⟩, 17592186044416, 407441490,
    4096480438668942930113928332169005688580143347434558985731708322992422522539735979052574047332743041265200328849905320659613016,
    lc0⟩) (.leaf ⟨264, 16, 564, 247, 16, 2058, ⟨[[(7010870375198720, 0), (0, 2760435292904687), (62538323149, 0),
    (619215, 0), (224, 0)], [(18620766575817810, 0), (0, 2667860105820), (0, 3692226), (0, 7792), (0, 1)],
    [(29548188792294, 0), (0, 769563763), (81489, 0), (9, 0)], [(21419419093, 0), (1762, 0), (37, 0)]], 3, 4⟩, ⟨[[(0,
    5839968238245888), (0, 2963097116610748), (35190470621, 0), (0, 1118319), (0, 36)], [(0, 17473157444424890), (0,
    119293360607), (30821340, 0), (5400, 0), (1, 0)], [(6575833976874, 0), (0, 560364149), (0, 87339), (0, 14)],
    [(4170740078, 0), (686883, 0), (152, 0)]], 3, 4⟩, 72057594037927936, 1286893081660, 197484245984,
    ⟨[[(10884357604069, 0), (9135169125, 0), (11474375, 0), (12027, 0), (6, 0)], [(0, 9793974405), (0, 39494763), (0,
    100077), (0, 157)], [(31922479, 0), (220746, 0), (773, 0), (2, 0)], [(0, 150675), (0, 1371), (0, 6)]], 3, 4⟩,
    17592186044416, 420521995,
    2972981117127123123231063425014609277073309301402239008483018238866133368460703769678224695040114698851124365543041488114696843,
    lc0⟩))) (.sy (.sx (.leaf ⟨266, 16, 506, 258, 16, 2062, ⟨[[(0, 35838906915852288), (0, 2634505438581053),
    (55928855536, 0), (0, 41086), (143, 0)], [(20268251561290914, 0), (0, 2459044086264), (11436788, 0), (0, 5061),
    (0, 1)], [(29357726033684, 0), (0, 765155434), (61305, 0), (9, 0)], [(20215508814, 0), (0, 93373), (0, 11)]], 3,
    4⟩, ⟨[[(15392319918780416, 0), (0, 3012059477846688), (37765416597, 0), (0, 877547), (0, 23)], [(0,
    16843867324316123), (0, 184547042439), (18472651, 0), (3413, 0)], [(7345825317769, 0), (0, 418741370), (0,
    53056), (0, 10)], [(3995595453, 0), (476371, 0), (118, 0)]], 3, 4⟩, 72057594037927936, 1253270502156,
    206202182574, ⟨[[(10680935933724, 0), (8219262324, 0), (9107140, 0), (8255, 0), (3, 0)], [(0, 9374437334), (0,
    33271997), (0, 73475), (0, 102)], [(28144896, 0), (169242, 0), (533, 0), (1, 0)], [(0, 118054), (0, 970), (0,
    4)]], 3, 4⟩, 17592186044416, 343284737,
    5170463022211562762865982849763382094980262343751735961341742364258166376587939213201541803590790882927220103158898484911653376,
    lc0⟩) (.leaf ⟨259, 16, 471, 251, 16, 2083, ⟨[[(0, 12758383740698624), (0, 2549676617302176), (52606808230, 0),
    (0, 220711), (112, 0)], [(21263031752907998, 0), (0, 2349334416795), (15339578, 0), (0, 3967)], [(29758280701027,
    0), (0, 726478654), (54147, 0), (9, 0)], [(19780591686, 0), (0, 136033), (0, 36)]], 3, 4⟩, ⟨[[(8030805435228160,
    0), (0, 3051277048260801), (38847828129, 0), (0, 758072), (0, 5)], [(0, 16370517842679915), (0, 219550922176),
    (14766196, 0), (2689, 0)], [(7936237629482, 0), (0, 367352825), (0, 39420), (0, 8)], [(4145868935, 0), (401197,
    0), (106, 0)]], 3, 4⟩, 72057594037927936, 1215297478732, 189044870268, ⟨[[(10496220531440, 0), (7602189247, 0),
    (7916649, 0), (6821, 0), (3, 0)], [(0, 9086785646), (0, 30167924), (0, 62672), (0, 85)], [(26568200, 0), (149027,
    0), (453, 0), (1, 0)], [(0, 106528), (0, 836), (0, 3)]], 3, 4⟩, 17592186044416, 363571757,
    4834244049458836797049844063391408874435668010537284535322463476602394945340713087215857133967886997884901953517576056615566863,
    lc0⟩)) (.sx (.leaf ⟨257, 16, 525, 239, 16, 2077, ⟨[[(0, 26498466462711808), (0, 2675121608970973), (58205286448,
    0), (287854, 0), (181, 0)], [(19750808766816930, 0), (0, 2543733039016), (3060519, 0), (0, 6469), (0, 1)],
    [(30078793911919, 0), (0, 722794225), (78146, 0), (10, 0)], [(20924180549, 0), (0, 101827), (1, 0)]], 3, 4⟩,
    ⟨[[(6257389680166912, 0), (0, 2996457509326323), (36677453410, 0), (0, 922853), (0, 14)], [(0,
    17054560841443185), (0, 164372724085), (24491228, 0), (4378, 0)], [(7172760110359, 0), (0, 483320002), (0,
    69633), (0, 12)], [(4297188055, 0), (609431, 0), (140, 0)]], 3, 4⟩, 72057594037927936, 1254892268321,
    169236347537, ⟨[[(10682921782000, 0), (8402042364, 0), (9872202, 0), (9868, 0), (4, 0)], [(0, 9386773104), (0,
    35167132), (0, 84190), (0, 127)], [(29274822, 0), (189647, 0), (644, 0), (1, 0)], [(0, 131737), (0, 1159), (0,
    5)]], 3, 4⟩, 17592186044416, 428620966,
    3260057935713912835148547234898314815218087125637764422531012864737070343036974848842493968454225314009225209697197105700978182,
    lc0⟩) (.leaf ⟨250, 16, 488, 232, 16, 2097, ⟨[[(0, 3512653116510208), (0, 2587090321423156), (54350346193, 0),
    (31842, 0), (144, 0)], [(20812005983071921, 0), (0, 2421546876599), (8899344, 0), (0, 5200), (0, 1)],
    [(30469865870108, 0), (0, 689023542), (70875, 0), (10, 0)], [(20415059567, 0), (0, 174337), (0, 29)]], 3, 4⟩,
    ⟨[[(0, 33537707063296000), (0, 3033098275306844), (37955320162, 0), (0, 765997), (3, 0)], [(0,
    16587386844965830), (0, 203854432188), (19540777, 0), (3498, 0)], [(7792818772915, 0), (0, 416392162), (0,
    53522), (0, 10)], [(4404761975, 0), (519655, 0), (125, 0)]], 3, 4⟩, 72057594037927936, 1230068699977,
    144300320654, ⟨[[(10501664526535, 0), (7769307116, 0), (8551961, 0), (8130, 0), (4, 0)], [(0, 9099589767), (0,
    31764819), (0, 71482), (0, 106)], [(27468632, 0), (165681, 0), (546, 0), (1, 0)], [(0, 117821), (0, 996), (0,
    4)]], 3, 4⟩, 17592186044416, 455855975,
    3706728426395035620135919865234971316424736263996796444366121665311406803846585332584333021656800870359166939945312519668330426,
    lc0⟩))))
theorem c53 : checkR job con0 true ⟨7, 9, 7, 9, 13, 17⟩ 1 9016 t53 579 21 320 15749 251 16000 = true := by decide +kernel

def t54 : CTree :=
  .sx (.sy (.sy (.sx (.leaf ⟨302, 16, 365, 363, 16, 2017, ⟨[[(0, 3184701204606976), (0, 2314756507690326),
    (45707322398, 0), (0, 459582), (0, 38)], [(24302882355189662, 0), (0, 1991004507208), (19910871, 0), (1260, 0)],
    [(26920324475809, 0), (0, 605201566), (0, 27704), (7, 0)], [(15976120348, 0), (244563, 0), (0, 78)]], 3, 4⟩,
    ⟨[[(4595125227790336, 0), (0, 3212358438390436), (44504643928, 0), (0, 817101), (32, 0)], [(0,
    14383037839866978), (0, 290654666032), (10095915, 0), (0, 1325)], [(9039400713618, 0), (0, 282720823), (9507, 0),
    (0, 2)], [(3776727362, 0), (0, 28649), (32, 0)]], 3, 4⟩, 72057594037927936, 861538398453, 309925388720,
    ⟨[[(10315098078252, 0), (6382650063, 0), (4834797, 0), (2374, 0)], [(0, 8856251250), (0, 22011487), (0, 29881),
    (0, 22)], [(22986547, 0), (87717, 0), (161, 0)], [(0, 75775), (0, 374), (0, 1)]], 3, 4⟩, 17592186044416,
    176600705,
    4269111001562974689484346901485446252677178160267251593823449436464188235943667213452778158806619944797335705306427842228707900,
    lc0⟩) (.leaf ⟨297, 16, 342, 359, 16, 2040, ⟨[[(0, 11944329861279744), (0, 2248229965589001), (43559273671, 0),
    (0, 368737), (0, 47)], [(24970622099736034, 0), (0, 1911835326422), (16068913, 0), (1773, 0)], [(27150036083851,
    0), (0, 533488543), (0, 35858), (7, 0)], [(15597508336, 0), (306397, 0), (0, 84)]], 3, 4⟩, ⟨[[(0,
    3414130197245952), (0, 3261842894129646), (45460244032, 0), (0, 885905), (39, 0)], [(0, 13758433886809070), (0,
    318183601554), (11179493, 0), (0, 1486)], [(9639182617533, 0), (0, 291072644), (13327, 0), (0, 2)], [(4063453111,
    0), (0, 51790), (27, 0)]], 3, 4⟩, 72057594037927936, 776498115381, 308331895844, ⟨[[(10138823387759, 0),
    (5933140407, 0), (4272567, 0), (2015, 0)], [(0, 8601350788), (0, 20268260), (0, 26239), (0, 18)], [(22011781, 0),
    (79801, 0), (139, 0)], [(0, 72694), (0, 337), (0, 1)]], 3, 4⟩, 17592186044416, 198781984,
    4558719556348741788976543836109854231909919618946863154400647783041932591025026024782707773522179566493519488754010002299934572,
    lc0⟩)) (.sx (.leaf ⟨294, 16, 375, 343, 16, 2032, ⟨[[(0, 12680231699693568), (0, 2331401667199776), (46197862217,
    0), (0, 533971), (0, 23)], [(23947147681770612, 0), (0, 2024183357729), (21964527, 0), (708, 0)],
    [(27339499892680, 0), (0, 644751488), (0, 17326), (7, 0)], [(16520212005, 0), (173664, 0), (0, 74)]], 3, 4⟩,
    ⟨[[(26904572454322176, 0), (0, 3191840066686059), (43640892163, 0), (0, 765960), (25, 0)], [(0,
    14634589151207906), (0, 283519077133), (8448367, 0), (0, 940)], [(8965791289887, 0), (0, 276828160), (6219, 0),
    (0, 2)], [(3798943884, 0), (6560, 0), (39, 0)]], 3, 4⟩, 72057594037927936, 923757796168, 305751292900,
    ⟨[[(10311951141537, 0), (6469816503, 0), (5089459, 0), (2703, 0)], [(0, 8855620884), (0, 22735891), (0, 32475),
    (0, 26)], [(23388544, 0), (93213, 0), (183, 0)], [(0, 77901), (0, 408), (0, 1)]], 3, 4⟩, 17592186044416,
    189765650,
    4644368209042819266152727427149901268977947894272867815150097694338794081214784251088744512065143565000364095292908929931181013,
    lc0⟩) (.leaf ⟨290, 16, 352, 339, 16, 2055, ⟨[[(0, 32491675940687872), (0, 2269264762891129), (44196271219, 0),
    (0, 460898), (0, 33)], [(24717334193556523, 0), (0, 1949894228538), (18863299, 0), (1262, 0)], [(27659898202172,
    0), (0, 580510850), (0, 25730), (7, 0)], [(16190681691, 0), (231807, 0), (0, 80)]], 3, 4⟩, ⟨[[(0,
    10131719221997568), (0, 3240504681740433), (44507571891, 0), (0, 818654), (34, 0)], [(0, 14017842272990092), (0,
    310262775010), (9267342, 0), (0, 1139)], [(9566042995447, 0), (0, 280995306), (10797, 0), (0, 2)], [(4074384386,
    0), (0, 22368), (33, 0)]], 3, 4⟩, 72057594037927936, 843712503862, 297551943033, ⟨[[(10136899747376, 0),
    (6009545422, 0), (4484512, 0), (2276, 0)], [(0, 8575335129), (0, 20829395), (0, 28271), (0, 21)], [(22288829, 0),
    (84060, 0), (156, 0)], [(0, 73969), (0, 363), (0, 1)]], 3, 4⟩, 17592186044416, 206963498,
    4869606608568712596092425654012489184074377480558909788550628574276837317181822658960539564028718613348940641766215678849276964,
    lc0⟩))) (.sy (.sx (.leaf ⟨287, 16, 387, 324, 16, 2047, ⟨[[(0, 26636644730470400), (0, 2358565774928546),
    (46820030691, 0), (0, 579913), (0, 5)], [(23670585271101355, 0), (0, 2065800728359), (23307362, 0), (118, 0)],
    [(27876789994191, 0), (0, 677636036), (0, 6546), (7, 0)], [(17120075238, 0), (105546, 0), (0, 70)]], 3, 4⟩,
    ⟨[[(0, 24502560342151168), (0, 3171834636984369), (42835034940, 0), (0, 728772), (18, 0)], [(0,
    14883957905005827), (0, 277667177944), (7435557, 0), (0, 469)], [(8893225084747, 0), (0, 274626165), (2042, 0),
    (0, 3)], [(3840704102, 0), (49281, 0), (46, 0)]], 3, 4⟩, 72057594037927936, 984961758011, 289923774784,
    ⟨[[(10314991050014, 0), (6570662286, 0), (5373927, 0), (3085, 0)], [(0, 8841244943), (0, 23483294), (0, 35362),
    (0, 31)], [(23663713, 0), (98735, 0), (207, 0)], [(0, 79637), (0, 444), (0, 1)]], 3, 4⟩, 17592186044416,
    204807636,
    4207555080845294386372488248476913629531160068181048174538912181006606821010472418342688747690019738827329861920523675279708895,
    lc0⟩) (.leaf ⟨282, 16, 363, 319, 16, 2070, ⟨[[(32629273534492672, 0), (0, 2294793958793495), (44818720688, 0),
    (0, 526640), (0, 17)], [(24485363513554225, 0), (0, 1990460047696), (20975673, 0), (720, 0)], [(28218014729223,
    0), (0, 619594419), (0, 15211), (7, 0)], [(16796173308, 0), (158363, 0), (0, 78)]], 3, 4⟩, ⟨[[(0,
    18162289462861824), (0, 3219753170717358), (43639098572, 0), (0, 762029), (28, 0)], [(0, 14274830625052038), (0,
    303916982538), (7926769, 0), (0, 711)], [(9496251206962, 0), (0, 273764072), (7481, 0), (0, 3)], [(4101602021,
    0), (13553, 0), (39, 0)]], 3, 4⟩, 72057594037927936, 910205961913, 290611287366, ⟨[[(10145373614058, 0),
    (6115245907, 0), (4750577, 0), (2607, 0)], [(0, 8592688295), (0, 21617338), (0, 30939), (0, 26)], [(22740060, 0),
    (89791, 0), (178, 0)], [(0, 76143), (0, 398), (0, 1)]], 3, 4⟩, 17592186044416, 224592251,
    5258410856148579232078582988236499406063720130312122806398459118107760345904823707344507958731380262495709567475390233626948740,
    lc0⟩)) (.sx (.leaf ⟨279, 16, 399, 304, 16, 2061, ⟨[[(0, 18369349530099712), (0, 2383686998084247), (47373002814,
    0), (0, 589137), (14, 0)], [(23341419677552140, 0), (0, 2105800316367), (23728447, 0), (0, 525)],
    [(28389741481281, 0), (0, 699586249), (4880, 0), (8, 0)], [(17687798738, 0), (39069, 0), (0, 67)]], 3, 4⟩, ⟨[[(0,
    16218218639478784), (0, 3150773608305559), (42047012280, 0), (0, 703785), (12, 0)], [(0, 15124251842116486), (0,
    272271044424), (7185108, 0), (83, 0)], [(8815343899725, 0), (0, 276977806), (0, 3176), (0, 4)], [(3904318714, 0),
    (100605, 0), (55, 0)]], 3, 4⟩, 72057594037927936, 1038486454845, 272388094606, ⟨[[(10315420911774, 0),
    (6678442385, 0), (5695359, 0), (3550, 0), (1, 0)], [(0, 8835115204), (0, 24342445), (0, 38834), (0, 38)],
    [(23988852, 0), (105242, 0), (237, 0)], [(0, 82183), (0, 489), (0, 1)]], 3, 4⟩, 17592186044416, 230756949,
    2931790540821923929747982644674266360896105614261023247752320653865972729632521600369774244860184970708353377243770999834657667,
    lc0⟩) (.leaf ⟨275, 16, 374, 299, 16, 2085, ⟨[[(0, 21541938551861248), (0, 2318388459919940), (45342119645, 0),
    (0, 559874), (1, 0)], [(24203375023677190, 0), (0, 2028670904986), (22272247, 0), (134, 0)], [(28749666632522,
    0), (0, 648300732), (0, 4121), (8, 0)], [(17367265926, 0), (85120, 0), (0, 75)]], 3, 4⟩, ⟨[[(0,
    27621056697933824), (0, 3199519980868447), (42840229967, 0), (0, 714860), (24, 0)], [(0, 14530006483574403), (0,
    298521251582), (7278202, 0), (0, 211)], [(9428197589574, 0), (0, 270256125), (3248, 0), (0, 3)], [(4148723695,
    0), (56895, 0), (47, 0)]], 3, 4⟩, 72057594037927936, 972598148552, 271375018409, ⟨[[(10139854591390, 0),
    (6189836088, 0), (4987732, 0), (2947, 0)], [(0, 8548233775), (0, 22193268), (0, 33403), (0, 31)], [(22852466, 0),
    (94202, 0), (199, 0)], [(0, 77050), (0, 427), (0, 1)]], 3, 4⟩, 17592186044416, 244017215,
    4933181450026018860663700113776545155517819100767061154131015986884975944165140452239915642939622578381483063022170459877624777,
    lc0⟩)))) (.sy (.sx (.sy (.leaf ⟨294, 16, 322, 355, 16, 2065, ⟨[[(0, 12974487491764224), (0, 2193219001928865),
    (41581825701, 0), (0, 264693), (0, 55)], [(25736295901624826, 0), (0, 1840549570572), (11861267, 0), (2264, 0)],
    [(27447950829297, 0), (0, 460562703), (0, 44228), (7, 0)], [(15237250651, 0), (376539, 0), (0, 87)]], 3, 4⟩,
    ⟨[[(34377848026808320, 0), (0, 3315867940476452), (46518347941, 0), (0, 962380), (46, 0)], [(0,
    13085234503541630), (0, 347144914102), (12583334, 0), (0, 1614)], [(10290760759404, 0), (0, 302460697), (16564,
    0), (0, 1)], [(4352784360, 0), (0, 70779), (22, 0)]], 3, 4⟩, 72057594037927936, 681289841641, 295259273562,
    ⟨[[(9965897287560, 0), (5509380217, 0), (3765353, 0), (1704, 0)], [(0, 8315049783), (0, 18550004), (0, 22889),
    (0, 15)], [(20821841, 0), (71774, 0), (119, 0)], [(0, 68715), (0, 298), (0, 1)]], 3, 4⟩, 17592186044416,
    217944606,
    4436185198545158493914338037807538126064242267955299164267209070031925611542406936225821642421827656319297637561664718682827354,
    lc0⟩) (.leaf ⟨286, 16, 331, 335, 16, 2080, ⟨[[(34213799132372992, 0), (0, 2211837600181062), (42256092727, 0),
    (0, 371121), (0, 42)], [(25509202482758860, 0), (0, 1878129473979), (15288459, 0), (1784, 0)], [(27966950320501,
    0), (0, 513461285), (0, 34316), (7, 0)], [(15835264047, 0), (299533, 0), (0, 85)]], 3, 4⟩, ⟨[[(0,
    3374924021862400), (0, 3293620309609135), (45464594066, 0), (0, 880269), (42, 0)], [(0, 13352819288125355), (0,
    338093171498), (10461512, 0), (0, 1301)], [(10216624242754, 0), (0, 288853936), (14692, 0), (0, 2)],
    [(4354558429, 0), (0, 46793), (27, 0)]], 3, 4⟩, 72057594037927936, 752314575851, 293219884246, ⟨[[(9974127746284,
    0), (5597027851, 0), (3968190, 0), (1930, 0)], [(0, 8335618639), (0, 19190546), (0, 24820), (0, 18)], [(21344759,
    0), (76449, 0), (134, 0)], [(0, 70974), (0, 327), (0, 1)]], 3, 4⟩, 17592186044416, 230289848,
    5209867420065472646376038517176883812433065959245159071716823675327620551171505883874739360381544563442090466856023564489972690,
    lc0⟩)) (.sy (.leaf ⟨291, 16, 303, 353, 16, 2092, ⟨[[(17696874927550464, 0), (0, 2137283686508137), (39517385023,
    0), (0, 147239), (0, 62)], [(26463999926813004, 0), (0, 1766308488009), (7218189, 0), (2724, 0)],
    [(27664843760769, 0), (0, 382706869), (0, 52412), (7, 0)], [(14801308735, 0), (452798, 0), (0, 89)]], 3, 4⟩,
    ⟨[[(0, 24635910127419392), (0, 3374539929461615), (47693139811, 0), (0, 1045417), (53, 0)], [(0,
    12356847821004776), (0, 377826715478), (14266148, 0), (0, 1714)], [(10995669969952, 0), (0, 316287984), (19274,
    0), (0, 1)], [(4641310537, 0), (0, 83792), (18, 0)]], 3, 4⟩, 72057594037927936, 571191312729, 281384794638,
    ⟨[[(9809502158518, 0), (5130218015, 0), (3325047, 0), (1441, 0)], [(0, 8094945148), (0, 17094585), (0, 20090),
    (0, 13)], [(19858311, 0), (65242, 0), (103, 0)], [(0, 65974), (0, 267), (0, 1)]], 3, 4⟩, 17592186044416,
    244270793,
    3237049285919664718853724336118270524644992189602235901947762798964952509878541205940787193827827837128889564788872902525119080,
    lc0⟩) (.leaf ⟨284, 16, 311, 332, 16, 2108, ⟨[[(0, 14847873537368064), (0, 2153135537402890), (40243255386, 0),
    (0, 265951), (0, 50)], [(26254825674374894, 0), (0, 1803524772198), (11221697, 0), (2269, 0)], [(28185456428233,
    0), (0, 441243998), (0, 42739), (7, 0)], [(15402786052, 0), (375400, 0), (0, 87)]], 3, 4⟩, ⟨[[(0,
    12067493293072384), (0, 3352868845785408), (46550095023, 0), (0, 949990), (50, 0)], [(0, 12639062131024689), (0,
    367519599403), (11987385, 0), (0, 1432)], [(10924561127823, 0), (0, 299884297), (17976, 0), (0, 1)],
    [(4639233534, 0), (0, 64567), (22, 0)]], 3, 4⟩, 72057594037927936, 645468926826, 278871745728, ⟨[[(9804812631444,
    0), (5181049639, 0), (3466076, 0), (1604, 0)], [(0, 8056185172), (0, 17466613), (0, 21401), (0, 14)], [(20131507,
    0), (68184, 0), (113, 0)], [(0, 66964), (0, 286), (0, 1)]], 3, 4⟩, 17592186044416, 250391722,
    4826302073078884812435756332542172059869215152436274622548219087704511994291387660726748966364030247470749831583090737588422046,
    lc0⟩))) (.sx (.sy (.leaf ⟨279, 16, 340, 314, 16, 2095, ⟨[[(0, 29747142462091264), (0, 2228707643487393),
    (42773405609, 0), (0, 452386), (0, 28)], [(25238521379440713, 0), (0, 1912183724919), (18046398, 0), (1278, 0)],
    [(28454676783550, 0), (0, 557175727), (0, 24056), (7, 0)], [(16398738794, 0), (222594, 0), (0, 83)]], 3, 4⟩,
    ⟨[[(30001088163692544, 0), (0, 3272046100735527), (44519245532, 0), (0, 805652), (38, 0)], [(0,
    13617558811643895), (0, 330846520388), (8855549, 0), (0, 912)], [(10147770032851, 0), (0, 277367859), (12112, 0),
    (0, 2)], [(4369569486, 0), (0, 17267), (33, 0)]], 3, 4⟩, 72057594037927936, 823255361288, 283078872664,
    ⟨[[(9964072649119, 0), (5650282549, 0), (4141151, 0), (2157, 0)], [(0, 8284655093), (0, 19612015), (0, 26524),
    (0, 21)], [(21489721, 0), (79865, 0), (148, 0)], [(0, 71552), (0, 348), (0, 1)]], 3, 4⟩, 17592186044416,
    241919836,
    5464138575374651632474430905313196228661411554773055370110761904910952058020495132581425089518590764361189696239729158333233378,
    lc0⟩) (.leaf ⟨271, 16, 350, 294, 16, 2110, ⟨[[(0, 3547018630541312), (0, 2250414609490745), (43295637910, 0), (0,
    505848), (0, 12)], [(24997511586036553, 0), (0, 1948922860797), (20126457, 0), (741, 0)], [(28998365217516, 0),
    (0, 592722011), (0, 13424), (7, 0)], [(16975020429, 0), (145892, 0), (0, 81)]], 3, 4⟩, ⟨[[(0, 9760282648420352),
    (0, 3251050705733990), (43672397608, 0), (0, 737685), (35, 0)], [(0, 13880187811030232), (0, 324842022968),
    (7876919, 0), (0, 457)], [(10082990296299, 0), (0, 268786281), (8712, 0), (0, 3)], [(4400878139, 0), (18509, 0),
    (39, 0)]], 3, 4⟩, 72057594037927936, 892550204636, 272593819825, ⟨[[(9970230190172, 0), (5739694552, 0),
    (4369503, 0), (2446, 0)], [(0, 8294850849), (0, 20295388), (0, 28853), (0, 25)], [(21877256, 0), (84884, 0),
    (168, 0)], [(0, 73311), (0, 378), (0, 1)]], 3, 4⟩, 17592186044416, 265697390,
    5904872820743562965916634161621354952324514208444506087508445258976023164363177296020286760689498881187240353841811249701359713,
    lc0⟩)) (.sy (.leaf ⟨276, 16, 319, 311, 16, 2123, ⟨[[(0, 10667880538996736), (0, 2167308599493255), (40796954602,
    0), (0, 361714), (0, 37)], [(26004710403726488, 0), (0, 1836736830864), (14612229, 0), (1793, 0)],
    [(28673166663936, 0), (0, 491048979), (0, 32811), (7, 0)], [(15970242218, 0), (297882, 0), (0, 85)]], 3, 4⟩,
    ⟨[[(0, 12133503993057280), (0, 3330356366594841), (45515125588, 0), (0, 858579), (47, 0)], [(0,
    12911935323015145), (0, 359016094777), (10167677, 0), (0, 1077)], [(10855085291897, 0), (0, 284833775), (16017,
    0), (0, 2)], [(4645539917, 0), (0, 40600), (27, 0)]], 3, 4⟩, 72057594037927936, 718305338606, 279061139777,
    ⟨[[(9805160853781, 0), (5246633331, 0), (3632592, 0), (1798, 0)], [(0, 8053815863), (0, 17976502), (0, 23028),
    (0, 17)], [(20539598, 0), (72100, 0), (126, 0)], [(0, 68598), (0, 310), (0, 1)]], 3, 4⟩, 17592186044416,
    266939788,
    5798958532438876082495051194920004479449584070398038155986036743929336461505430648393692520811874259464597435181582600796785431,
    lc0⟩) (.leaf ⟨268, 16, 328, 290, 16, 2138, ⟨[[(18429676685746176, 0), (0, 2186637863939715), (41338405945, 0),
    (0, 432338), (0, 22)], [(25794332131325675, 0), (0, 1872216709169), (17388426, 0), (1296, 0)], [(29221100070193,
    0), (0, 533192152), (0, 22652), (7, 0)], [(16552911948, 0), (220603, 0), (0, 84)]], 3, 4⟩, ⟨[[(0,
    12879699133018112), (0, 3308496684197936), (44605503250, 0), (0, 771251), (45, 0)], [(0, 13182207675060588), (0,
    351989042015), (8917769, 0), (0, 662)], [(10791628853401, 0), (0, 272002952), (13309, 0), (0, 2)], [(4665023101,
    0), (0, 11404), (32, 0)]], 3, 4⟩, 72057594037927936, 794131630584, 269236362416, ⟨[[(9808395811245, 0),
    (5321428823, 0), (3820604, 0), (2024, 0)], [(0, 8053105612), (0, 18543849), (0, 24897), (0, 20)], [(20908275, 0),
    (76375, 0), (141, 0)], [(0, 70024), (0, 336), (0, 1)]], 3, 4⟩, 17592186044416, 290124936,
    6067225682478904457987460798667390838809992159806065483633746428413133547550178143125542600246862628250717422299984674325343875,
    lc0⟩))))
theorem c54 : checkR job con0 true ⟨7, 9, 7, 9, 13, 17⟩ 1 9016 t54 621 21 320 15247 251 16000 = true := by decide +kernel

def t55 : CTree :=
  .sx (.sy (.sx (.leaf ⟨271, 16, 412, 284, 16, 2076, ⟨[[(0, 10834109961904128), (0, 2412688590052850), (48033349323,
    0), (0, 557347), (36, 0)], [(23016447269167116, 0), (0, 2150393879539), (23165719, 0), (0, 1237)],
    [(28954366952818, 0), (0, 711272255), (17110, 0), (8, 0)], [(18267528799, 0), (0, 25693), (0, 63)]], 3, 4⟩,
    ⟨[[(1628619915079680, 0), (0, 3131712909119547), (41301604935, 0), (0, 688717), (8, 0)], [(0, 15370147738435291),
    (0, 266770097362), (7823887, 0), (704, 0)], [(8738127216678, 0), (0, 285329035), (0, 9633), (0, 5)],
    [(3998410240, 0), (161981, 0), (65, 0)]], 3, 4⟩, 72057594037927936, 1088086049206, 250893150299,
    ⟨[[(10314845433352, 0), (6786653929, 0), (6042231, 0), (4098, 0), (1, 0)], [(0, 8815156849), (0, 25219162), (0,
    42755), (0, 46)], [(24256031, 0), (112175, 0), (274, 0)], [(0, 85182), (0, 543), (0, 2)]], 3, 4⟩, 17592186044416,
    264779095,
    3279069208998167522765018477325257056052255922131894404213518615249831056538204290508200485422805445202204268985679675042577534,
    lc0⟩) (.leaf ⟨266, 16, 385, 278, 16, 2099, ⟨[[(22790101316063232, 0), (0, 2340146944129727), (45818298027, 0),
    (0, 555841), (20, 0)], [(23872668534623729, 0), (0, 2065375290091), (22652921, 0), (0, 506)], [(29260154492517,
    0), (0, 665665389), (7643, 0), (8, 0)], [(17902871700, 0), (11914, 0), (0, 73)]], 3, 4⟩, ⟨[[(23906160215379968,
    0), (0, 3178235436967028), (42078955482, 0), (0, 674329), (21, 0)], [(0, 14776597096945417), (0, 293191412134),
    (7423913, 0), (348, 0)], [(9355323483738, 0), (0, 271376113), (0, 2072), (0, 4)], [(4217892560, 0), (108722, 0),
    (56, 0)]], 3, 4⟩, 72057594037927936, 1025808774696, 250635104024, ⟨[[(10140787481935, 0), (6293457958, 0),
    (5291861, 0), (3395, 0), (1, 0)], [(0, 8557931767), (0, 23060243), (0, 36805), (0, 37)], [(23244111, 0), (100781,
    0), (230, 0)], [(0, 79903), (0, 473), (0, 1)]], 3, 4⟩, 17592186044416, 284530998,
    3740631635234722155141907491492949416439253287608541656441326239651146567760594595119776995869719565313587267842568949820509129,
    lc0⟩)) (.sx (.leaf ⟨262, 16, 425, 264, 16, 2090, ⟨[[(16535037027323904, 0), (0, 2439482907690609), (48750804992,
    0), (0, 477474), (60, 0)], [(22634971917096896, 0), (0, 2195406834514), (21409333, 0), (0, 2036)],
    [(29505156157462, 0), (0, 709661997), (30313, 0), (9, 0)], [(18814733488, 0), (0, 88912), (0, 59)]], 3, 4⟩,
    ⟨[[(8467047786872832, 0), (0, 3111606115563239), (40547657237, 0), (0, 678126), (7, 0)], [(0, 15606526263314490),
    (0, 259958877926), (9442788, 0), (1376, 0)], [(8649780275410, 0), (0, 300815281), (0, 17574), (0, 6)],
    [(4124789390, 0), (234942, 0), (78, 0)]], 3, 4⟩, 72057594037927936, 1135201035917, 220548861908,
    ⟨[[(10317653471756, 0), (6912992613, 0), (6448167, 0), (4783, 0), (1, 0)], [(0, 8824931717), (0, 26302793), (0,
    47662), (0, 57)], [(24729669, 0), (121196, 0), (322, 0)], [(0, 90256), (0, 618), (0, 2)]], 3, 4⟩, 17592186044416,
    316889688,
    4139953621552411834428315096640430632582637149596412662582929687949700605369557018229444967057499274246660844338367074357304118,
    lc0⟩) (.leaf ⟨258, 16, 397, 258, 16, 2114, ⟨[[(0, 2149977593892864), (0, 2366071572327720), (46424455248, 0), (0,
    511638), (41, 0)], [(23553415761108891, 0), (0, 2106865870835), (22053437, 0), (0, 1218)], [(29830601751287, 0),
    (0, 672302865), (20259, 0), (8, 0)], [(18448323417, 0), (0, 61707), (0, 72)]], 3, 4⟩, ⟨[[(12102250675666944, 0),
    (0, 3158901526492063), (41388644187, 0), (0, 637132), (21, 0)], [(0, 15028481179282901), (0, 287365963506),
    (8450510, 0), (945, 0)], [(9283921577661, 0), (0, 278616825), (0, 8698), (0, 5)], [(4317894769, 0), (170465, 0),
    (66, 0)]], 3, 4⟩, 72057594037927936, 1082975869096, 222900330298, ⟨[[(10138977750762, 0), (6385885107, 0),
    (5593138, 0), (3890, 0), (1, 0)], [(0, 8531198546), (0, 23815228), (0, 40278), (0, 45)], [(23442701, 0), (106779,
    0), (264, 0)], [(0, 82470), (0, 522), (0, 2)]], 3, 4⟩, 17592186044416, 331146700,
    2372647879526828539026909263980292365559856547410945941381963610561544190969407921965263950890878540256661747233918235834182541,
    lc0⟩))) (.sy (.sx (.leaf ⟨263, 16, 360, 273, 16, 2125, ⟨[[(0, 20085405887737856), (0, 2270398512379869),
    (43740028943, 0), (0, 526401), (6, 0)], [(24710708208992817, 0), (0, 1983396460202), (21398296, 0), (160, 0)],
    [(29518335635110, 0), (0, 617706978), (0, 2235), (8, 0)], [(17514657593, 0), (68175, 0), (0, 80)]], 3, 4⟩,
    ⟨[[(21346129397641216, 0), (0, 3230547769266465), (42916122157, 0), (0, 674465), (33, 0)], [(0,
    14141135394297621), (0, 319408347445), (7619074, 0), (49, 0)], [(10020640082633, 0), (0, 264028870), (4343, 0),
    (0, 3)], [(4451961033, 0), (61404, 0), (46, 0)]], 3, 4⟩, 72057594037927936, 955964336649, 255289357754,
    ⟨[[(9965902055601, 0), (5812274630, 0), (4592525, 0), (2765, 0), (1, 0)], [(0, 8270087306), (0, 20892980), (0,
    31242), (0, 30)], [(22075766, 0), (89425, 0), (189, 0)], [(0, 74547), (0, 407), (0, 1)]], 3, 4⟩, 17592186044416,
    298722064,
    5745151716312531340314110553036262446368438145578738048852795414399200488894534319500248841812643199806479321938936968243037583,
    lc0⟩) (.leaf ⟨260, 16, 337, 269, 16, 2152, ⟨[[(8117103634059264, 0), (0, 2204339798952170), (41777434414, 0), (0,
    473658), (0, 7)], [(25541114725792472, 0), (0, 1904787658069), (19443750, 0), (763, 0)], [(29742971118382, 0),
    (0, 565551069), (0, 12066), (7, 0)], [(17099501879, 0), (141933, 0), (0, 83)]], 3, 4⟩, ⟨[[(0, 23441217108201472),
    (0, 3285648169948694), (43796526616, 0), (0, 686482), (44, 0)], [(0, 13444190609431086), (0, 345671219286),
    (8316488, 0), (0, 205)], [(10727940605374, 0), (0, 262105153), (9716, 0), (0, 3)], [(4698386567, 0), (23661, 0),
    (38, 0)]], 3, 4⟩, 72057594037927936, 869662859018, 257056654432, ⟨[[(9808031767145, 0), (5392798759, 0),
    (4014500, 0), (2275, 0), (1, 0)], [(0, 8043327531), (0, 19107545), (0, 26897), (0, 24)], [(21186033, 0), (80608,
    0), (158, 0)], [(0, 71204), (0, 361), (0, 1)]], 3, 4⟩, 17592186044416, 323403198,
    6530720579299986425142086624436983066433326796523709568247317816058311461322307133319250774911999503262756295231811416134808377,
    lc0⟩)) (.sx (.leaf ⟨255, 16, 371, 253, 16, 2139, ⟨[[(0, 28449534746875904), (0, 2294919743890526), (44277813504,
    0), (0, 512150), (24, 0)], [(24445227565302391, 0), (0, 2021895255908), (21820219, 0), (0, 478)],
    [(30101142037525, 0), (0, 632905814), (9638, 0), (8, 0)], [(18064568221, 0), (0, 11100), (0, 80)]], 3, 4⟩, ⟨[[(0,
    29376262769068032), (0, 3208956233921921), (42226395473, 0), (0, 612682), (33, 0)], [(0, 14393744306820166), (0,
    313642515112), (8141449, 0), (578, 0)], [(9953902441867, 0), (0, 264069705), (0, 1189), (0, 4)], [(4524684880,
    0), (112421, 0), (55, 0)]], 3, 4⟩, 72057594037927936, 1018541573302, 230750699365, ⟨[[(9969190118963, 0),
    (5904238773, 0), (4853574, 0), (3151, 0), (1, 0)], [(0, 8260983482), (0, 21602718), (0, 34087), (0, 36)],
    [(22316444, 0), (94651, 0), (215, 0)], [(0, 76462), (0, 444), (0, 1)]], 3, 4⟩, 17592186044416, 345300300,
    4770302025871840111836927672202897477313944419528205389523680579016519679469249878745927153107920956297499587401263680196301293,
    lc0⟩) (.sx (.leaf ⟨337, 16, 470, 288, 16, 2496, ⟨[[(0, 27483344582647808), (0, 2988791323811030), (56972812989,
    0), (0, 657844), (18, 0)], [(16719828496155459, 0), (0, 1305961219782), (14050604, 0), (17, 0)],
    [(10083249055258, 0), (0, 200007563), (549, 0), (3, 0)], [(2957837634, 0), (6891, 0), (0, 14)]], 3, 4⟩, ⟨[[(0,
    30989697476808704), (0, 3756363066522360), (49573794166, 0), (0, 698227), (48, 0)], [(0, 8024224572824675), (0,
    192528716539), (4796393, 0), (196, 0)], [(3030237036749, 0), (0, 74467660), (1044, 0), (0, 1)], [(678105666, 0),
    (10964, 0), (7, 0)]], 3, 4⟩, 72057594037927936, 108587908241, 29579766623, ⟨[[(9845822792026, 0), (4817692460,
    0), (3268690, 0), (1745, 0)], [(0, 6058388089), (0, 13057241), (0, 16958), (0, 14)], [(12144277, 0), (42356, 0),
    (78, 0)], [(0, 30865), (0, 146)]], 3, 4⟩, 17592186044416, 49506258,
    5435408229021620471447680561462182530097643786363202229882321599521637751419767687264914617519880177904703952219604596558042750,
    lc0⟩) (.leaf ⟨337, 16, 457, 284, 16, 2503, ⟨[[(1926510643601408, 0), (0, 2959798293815677), (55970706954, 0), (0,
    634547), (9, 0)], [(17096260184238281, 0), (0, 1286127316194), (13634659, 0), (227, 0)], [(10170639297944, 0),
    (0, 193194218), (0, 1196), (3, 0)], [(2937862696, 0), (13846, 0), (0, 14)]], 3, 4⟩, ⟨[[(0, 17197518737063936),
    (0, 3775137595156962), (49917175901, 0), (0, 693737), (53, 0)], [(0, 7787853905272370), (0, 199288781706),
    (4932634, 0), (112, 0)], [(3125209061970, 0), (0, 73483872), (1862, 0), (0, 1)], [(692660320, 0), (8031, 0), (6,
    0)]], 3, 4⟩, 72057594037927936, 104542059685, 28787416138, ⟨[[(9766390231793, 0), (4653500020, 0), (3072582, 0),
    (1593, 0)], [(0, 5939516551), (0, 12445581), (0, 15719), (0, 13)], [(11760373, 0), (39858, 0), (71, 0)], [(0,
    29608), (0, 135)]], 3, 4⟩, 17592186044416, 48513768,
    6116989890432404929868121115961435303386009363216753623170292652079803717425374010092448908791743548513716001640331355788911005,
    lc0⟩))))
theorem c55 : checkR job con0 true ⟨7, 9, 7, 9, 13, 17⟩ 1 9016 t55 621 21 320 31247 251 32000 = true := by decide +kernel

def t56 : CTree :=
  .sx (.sy (.sx (.leaf ⟨253, 16, 439, 244, 16, 2104, ⟨[[(35168558440134656, 0), (0, 2469622813264888), (49719265763,
    0), (0, 345514), (85, 0)], [(22247476808309589, 0), (0, 2247322089446), (18317780, 0), (0, 2952)],
    [(30118117088861, 0), (0, 694881927), (44778, 0), (9, 0)], [(19373366012, 0), (0, 150920), (0, 56)]], 3, 4⟩,
    ⟨[[(14814954920167424, 0), (0, 3091979014462043), (39803295658, 0), (0, 665606), (10, 0)], [(0,
    15839848627077388), (0, 250936158857), (12108408, 0), (2070, 0)], [(8550472302703, 0), (0, 325270437), (0,
    27321), (0, 7)], [(4291919024, 0), (321536, 0), (92, 0)]], 3, 4⟩, 72057594037927936, 1168880942686, 182380274060,
    ⟨[[(10319327928373, 0), (7043071721, 0), (6896671, 0), (5618, 0), (2, 0)], [(0, 8822397725), (0, 27442890), (0,
    53393), (0, 70)], [(25228301, 0), (131554, 0), (381, 0), (1, 0)], [(0, 96657), (0, 715), (0, 3)]], 3, 4⟩,
    17592186044416, 390296536,
    3922509469658896256933772732550857717316836367326234570382809920423347330422957343594210124909870221914477489939615050314426371,
    lc0⟩) (.leaf ⟨249, 16, 409, 238, 16, 2128, ⟨[[(0, 3437502223179776), (0, 2389945742387935), (47107705112, 0), (0,
    422259), (62, 0)], [(23181284957979855, 0), (0, 2148877498006), (20258310, 0), (0, 2024)], [(30390931617014, 0),
    (0, 665159632), (33898, 0), (9, 0)], [(18955638742, 0), (0, 136396), (0, 71)]], 3, 4⟩, ⟨[[(0, 9398396907728896),
    (0, 3138466047117164), (40729521545, 0), (0, 597117), (24, 0)], [(0, 15270937639771133), (0, 279858429408),
    (10389120, 0), (1545, 0)], [(9201755568620, 0), (0, 293207825), (0, 16909), (0, 6)], [(4450229764, 0), (243623,
    0), (78, 0)]], 3, 4⟩, 72057594037927936, 1131340315989, 188793747311, ⟨[[(10140839973508, 0), (6495670007, 0),
    (5946693, 0), (4513, 0), (2, 0)], [(0, 8534136744), (0, 24758940), (0, 44635), (0, 56)], [(23843516, 0), (114673,
    0), (309, 0), (1, 0)], [(0, 87031), (0, 592), (0, 2)]], 3, 4⟩, 17592186044416, 403668956,
    2796356446404853879269196509700464868130353130006066813480560913094914445898454757429961852456314126410033537038897357374692835,
    lc0⟩)) (.sx (.leaf ⟨245, 16, 454, 224, 16, 2119, ⟨[[(0, 33449461397323776), (0, 2502605045578415), (51025172916,
    0), (0, 156661), (112, 0)], [(21845295906611922, 0), (0, 2307636977322), (13626724, 0), (0, 4026), (0, 1)],
    [(30799334958403, 0), (0, 664902270), (60826, 0), (10, 0)], [(19942698876, 0), (0, 212173), (0, 54)]], 3, 4⟩,
    ⟨[[(28198483081529344, 0), (0, 3074275937679375), (39096458542, 0), (0, 642591), (18, 0)], [(0,
    16076285065047531), (0, 238735504657), (15839427, 0), (2747, 0)], [(8439105089404, 0), (0, 360938377), (0,
    39299), (0, 9)], [(4509640299, 0), (424367, 0), (108, 0)]], 3, 4⟩, 72057594037927936, 1204915317110,
    138442369830, ⟨[[(10309520465070, 0), (7141170543, 0), (7321255, 0), (6542, 0), (3, 0)], [(0, 8752475335), (0,
    28330795), (0, 59135), (0, 86)], [(25458071, 0), (141046, 0), (445, 0), (1, 0)], [(0, 102437), (0, 815), (0,
    3)]], 3, 4⟩, 17592186044416, 469013555,
    3263704408336212808586272666512517927418731871015874886150117892809581550006803607794339669732966834481279906998761511845138025,
    lc0⟩) (.leaf ⟨240, 16, 422, 218, 16, 2142, ⟨[[(0, 10422790766342144), (0, 2417404624265208), (48056292850, 0),
    (0, 286432), (84, 0)], [(22810050969043874, 0), (0, 2197986215420), (17112376, 0), (0, 2960)], [(31022348974376,
    0), (0, 644256617), (48870, 0), (9, 0)], [(19469198511, 0), (0, 213269), (0, 71)]], 3, 4⟩, ⟨[[(0,
    31099410576330752), (0, 3118394084344570), (40130999161, 0), (0, 547491), (30, 0)], [(0, 15509967415761874), (0,
    269881595671), (13222128, 0), (2103, 0)], [(9109044311772, 0), (0, 317096929), (0, 27064), (0, 7)], [(4623378573,
    0), (330209, 0), (92, 0)]], 3, 4⟩, 72057594037927936, 1174221173840, 146531979390, ⟨[[(10142032609722, 0),
    (6609196762, 0), (6335758, 0), (5275, 0), (2, 0)], [(0, 8525390610), (0, 25743455), (0, 49702), (0, 70)],
    [(24264556, 0), (123688, 0), (365, 0), (1, 0)], [(0, 92800), (0, 681), (0, 3)]], 3, 4⟩, 17592186044416,
    504367195,
    2535912869182378898651421302114173536171901614202810951497630981526591699373844698636485792994409143534094432231519959916982546,
    lc0⟩))) (.sy (.sx (.leaf ⟨246, 16, 382, 232, 16, 2154, ⟨[[(0, 10756078212184064), (0, 2317573972529588),
    (44843231477, 0), (0, 459234), (43, 0)], [(24130510917273344, 0), (0, 2059832989869), (21202366, 0), (0, 1195)],
    [(30670031075989, 0), (0, 635481523), (22362, 0), (8, 0)], [(18573885291, 0), (0, 93038), (0, 81)]], 3, 4⟩,
    ⟨[[(0, 81395892727808), (0, 3189216328027928), (41644186657, 0), (0, 548815), (35, 0)], [(0, 14651078485378822),
    (0, 307038144113), (9468212, 0), (1097, 0)], [(9889359175606, 0), (0, 270482363), (0, 8134), (0, 5)],
    [(4627841983, 0), (172924, 0), (64, 0)]], 3, 4⟩, 72057594037927936, 1083279775193, 201571233063,
    ⟨[[(9968936185342, 0), (5994811245, 0), (5136611, 0), (3618, 0), (1, 0)], [(0, 8253806058), (0, 22371477), (0,
    37401), (0, 44)], [(22600829, 0), (100629, 0), (248, 0)], [(0, 79385), (0, 492), (0, 2)]], 3, 4⟩, 17592186044416,
    419262823,
    3560775963995083201782117427497731261766387834756067110512434639276534542769764453480469563377770300729154478049705531527800326,
    lc0⟩) (.sx (.leaf ⟨324, 16, 482, 264, 16, 2519, ⟨[[(4524991367598080, 0), (0, 3006937878167770), (57449742351,
    0), (0, 616506), (40, 0)], [(16478006468220693, 0), (0, 1324933625086), (14108497, 0), (0, 422)],
    [(10238200594117, 0), (0, 202561625), (4528, 0), (3, 0)], [(3033356749, 0), (0, 7035), (0, 14)]], 3, 4⟩, ⟨[[(0,
    1211852774498304), (0, 3741254577128830), (49042492960, 0), (0, 607113), (49, 0)], [(0, 8194452184767887), (0,
    189224319718), (5342846, 0), (464, 0)], [(3020556145278, 0), (0, 74961293), (0, 737), (0, 1)], [(691729979, 0),
    (18512, 0), (8, 0)]], 3, 4⟩, 72057594037927936, 114195408462, 29733190676, ⟨[[(9846627433943, 0), (4878860837,
    0), (3437214, 0), (1975, 0), (1, 0)], [(0, 6076023383), (0, 13525194), (0, 18490), (0, 18)], [(12380526, 0),
    (45082, 0), (90, 0)], [(0, 32127), (0, 160)]], 3, 4⟩, 17592186044416, 60047605,
    4468278203821657324028738949181032606265921360188935832106179297114121279696389792103763921511391989917438406903328265088006556,
    lc0⟩) (.leaf ⟨324, 16, 468, 260, 16, 2527, ⟨[[(16004328023695360, 0), (0, 2973977666686242), (56363160881, 0),
    (0, 611263), (29, 0)], [(16850125979200930, 0), (0, 1302995979957), (13995054, 0), (0, 193)], [(10316145377867,
    0), (0, 197131041), (2647, 0), (3, 0)], [(3012099341, 0), (0, 118), (0, 14)]], 3, 4⟩, ⟨[[(7566552104816640, 0),
    (0, 3761240300962011), (49422633263, 0), (0, 591782), (55, 0)], [(0, 7962252628737611), (0, 196050640379),
    (5338761, 0), (358, 0)], [(3118274722480, 0), (0, 73102437), (221, 0), (0, 1)], [(705014912, 0), (14825, 0), (7,
    0)]], 3, 4⟩, 72057594037927936, 110500849728, 28606536410, ⟨[[(9766028344896, 0), (4705542250, 0), (3219364, 0),
    (1787, 0), (1, 0)], [(0, 5956941969), (0, 12866697), (0, 17040), (0, 16)], [(11988554, 0), (42300, 0), (80, 0)],
    [(0, 30680), (0, 147)]], 3, 4⟩, 17592186044416, 58501581,
    5555416810624320273712646359081211453435182794173054512337131648488540737310072568857581985762500749494293480756971264229928153,
    lc0⟩))) (.sx (.leaf ⟨237, 16, 394, 211, 16, 2168, ⟨[[(5896703262408704, 0), (0, 2344273989134675), (45613990676,
    0), (0, 367925), (61, 0)], [(23827349174975467, 0), (0, 2103710069713), (19427235, 0), (0, 2022)],
    [(31311361334349, 0), (0, 625731996), (36185, 0), (9, 0)], [(19088317334, 0), (0, 179017), (0, 83)]], 3, 4⟩,
    ⟨[[(20885497724358656, 0), (0, 3168261477945074), (41138405302, 0), (0, 477201), (40, 0)], [(0,
    14898882415203986), (0, 298512613664), (11541083, 0), (1550, 0)], [(9814220997592, 0), (0, 284637915), (0,
    16813), (0, 6)], [(4762474640, 0), (244325, 0), (76, 0)]], 3, 4⟩, 72057594037927936, 1143819676970, 163755492468,
    ⟨[[(9969149928271, 0), (6093254278, 0), (5452676, 0), (4191, 0), (2, 0)], [(0, 8236770167), (0, 23179046), (0,
    41224), (0, 54)], [(22875236, 0), (107236, 0), (290, 0), (1, 0)], [(0, 83158), (0, 553), (0, 2)]], 3, 4⟩,
    17592186044416, 518896460,
    2437813344950043580699192224219844058945144979778318776544393276927754254400257259322265423787426926133588584063835947971059038,
    lc0⟩) (.sx (.leaf ⟨311, 16, 495, 240, 16, 2543, ⟨[[(35673253840551936, 0), (0, 3029258116106960), (58117518237,
    0), (0, 531230), (60, 0)], [(16242960009948748, 0), (0, 1346568896731), (13475304, 0), (0, 920)],
    [(10411422903667, 0), (0, 201291642), (8776, 0), (3, 0)], [(3107931150, 0), (0, 21614), (0, 14)]], 3, 4⟩,
    ⟨[[(25802825583116288, 0), (0, 3727629677643609), (48663657041, 0), (0, 509577), (53, 0)], [(0,
    8366995159005263), (0, 185198347772), (6272628, 0), (687, 0)], [(3010979326416, 0), (0, 77511633), (0, 2996), (0,
    2)], [(709847476, 0), (27459, 0), (9, 0)]], 3, 4⟩, 72057594037927936, 119886324911, 25956949002,
    ⟨[[(9847507115073, 0), (4941387202, 0), (3618084, 0), (2247, 0), (1, 0)], [(0, 6086849258), (0, 14003447), (0,
    20194), (0, 22)], [(12603715, 0), (47969, 0), (103, 0)], [(0, 33687), (0, 178), (0, 1)]], 3, 4⟩, 17592186044416,
    74510188,
    3400517851607692373939557516172336272850771441166594276323161802587248811735993431203462676121555451721120509771754703782563829,
    lc0⟩) (.leaf ⟨311, 16, 480, 236, 16, 2550, ⟨[[(35069298713792512, 0), (0, 2992650259159362), (56919160988, 0),
    (0, 547891), (48, 0)], [(16614882291598942, 0), (0, 1322260525742), (13706910, 0), (0, 668)], [(10480183811902,
    0), (0, 197456586), (6713, 0), (3, 0)], [(3085611341, 0), (0, 14710), (0, 15)]], 3, 4⟩, ⟨[[(14705912191488000,
    0), (0, 3745825453281107), (49057168532, 0), (0, 484904), (57, 0)], [(0, 8132625762864699), (0, 192099923924),
    (6085758, 0), (554, 0)], [(3109514447812, 0), (0, 74558819), (0, 1877), (0, 2)], [(720872600, 0), (22852, 0), (8,
    0)]], 3, 4⟩, 72057594037927936, 116485315548, 24316151450, ⟨[[(9767230365444, 0), (4764787127, 0), (3383945, 0),
    (2019, 0), (1, 0)], [(0, 5971405698), (0, 13317791), (0, 18537), (0, 19)], [(12208558, 0), (44914, 0), (92, 0)],
    [(0, 32017), (0, 162)]], 3, 4⟩, 17592186044416, 72359723,
    4551026804013660675428711541467369183824254148912440057328184288905344654132577085583372358635705870016077672815730137194681568,
    lc0⟩))))
theorem c56 : checkR job con0 true ⟨7, 9, 7, 9, 13, 17⟩ 1 9016 t56 621 21 320 31749 251 32000 = true := by decide +kernel

def t57 : CTree :=
  .sy (.sx (.sy (.leaf ⟨289, 16, 285, 351, 16, 2121, ⟨[[(7491202726907904, 0), (0, 2080695790635504), (37361701948,
    0), (0, 18596), (0, 69)], [(27152026787570124, 0), (0, 1689179413917), (2195446, 0), (3152, 0)],
    [(27799173770178, 0), (0, 299668998), (0, 60190), (7, 0)], [(14281991386, 0), (533870, 0), (0, 89)]], 3, 4⟩,
    ⟨[[(0, 34419326434451456), (0, 3437979710663086), (48997480181, 0), (0, 1134075), (58, 0)], [(0,
    11566407440629143), (0, 410461613241), (16192823, 0), (0, 1789)], [(11754927995626, 0), (0, 331734965), (21547,
    0)], [(4923045643, 0), (0, 89217), (14, 0)]], 3, 4⟩, 72057594037927936, 441059254385, 260510886994,
    ⟨[[(9649951742267, 0), (4761599651, 0), (2916580, 0), (1209, 0)], [(0, 7863098195), (0, 15662235), (0, 17483),
    (0, 10)], [(18746420, 0), (58798, 0), (88, 0)], [(0, 63343), (0, 237)]], 3, 4⟩, 17592186044416, 269536717,
    2579759608197672036438941078668794119503504266531390466912141324529209097502426632248582124759781211505098509959718521128748006,
    lc0⟩) (.leaf ⟨281, 16, 292, 329, 16, 2137, ⟨[[(35094364098600960, 0), (0, 2093416675226218), (38150258504, 0),
    (0, 148049), (0, 58)], [(26951082384755365, 0), (0, 1726098241927), (6724663, 0), (2715, 0)], [(28313218061413,
    0), (0, 363420955), (0, 50729), (7, 0)], [(14884792403, 0), (457822, 0), (0, 87)]], 3, 4⟩, ⟨[[(14797546169499648,
    0), (0, 3415184156075793), (47734591277, 0), (0, 1025893), (57, 0)], [(0, 11857374861310016), (0, 398477703061),
    (13792480, 0), (0, 1536)], [(11681216674644, 0), (0, 312880671), (20739, 0), (0, 1)], [(4918963629, 0), (0,
    73721), (18, 0)]], 3, 4⟩, 72057594037927936, 518293059432, 260510757186, ⟨[[(9649537130426, 0), (4815811640, 0),
    (3047505, 0), (1349, 0)], [(0, 7849094051), (0, 16069043), (0, 18717), (0, 12)], [(19203531, 0), (61883, 0), (97,
    0)], [(0, 64557), (0, 256)]], 3, 4⟩, 17592186044416, 281591380,
    3290008628054711452659594559253755928510128117522702480405903921551214828327628989675000291743065751659157621702255516026882831,
    lc0⟩)) (.sy (.leaf ⟨287, 16, 268, 349, 16, 2153, ⟨[[(28462676495540224, 0), (0, 2023755630030702), (35113705512,
    0), (119204, 0), (0, 75)], [(27799819838647296, 0), (0, 1609237019814), (0, 3139420), (3550, 0)],
    [(27849500135919, 0), (0, 211381430), (0, 67379), (7, 0)], [(13670371249, 0), (618008, 0), (0, 87)]], 3, 4⟩,
    ⟨[[(19070088847810560, 0), (0, 3507949442805104), (50466671868, 0), (0, 1228115), (64, 0)], [(0,
    10711799300319107), (0, 445415550051), (18345633, 0), (0, 1843)], [(12574489821117, 0), (0, 347952087), (23515,
    0)], [(5191109605, 0), (0, 85857), (12, 0)]], 3, 4⟩, 72057594037927936, 290927937194, 225189314696,
    ⟨[[(9494828186719, 0), (4417634759, 0), (2554295, 0), (1012, 0)], [(0, 7660095275), (0, 14368991), (0, 15216),
    (0, 9)], [(17620322, 0), (52966, 0), (76, 0)], [(0, 62654), (0, 219)]], 3, 4⟩, 17592186044416, 299192517,
    3176176498632670700671870243343961232345355247916940830216703796598979715953363201312353460354041640501846450661875500517170619,
    lc0⟩) (.leaf ⟨280, 16, 274, 327, 16, 2169, ⟨[[(0, 33112335530336256), (0, 2032965315048642), (35973495886, 0),
    (0, 19894), (0, 64)], [(27595915212792411, 0), (0, 1645871152360), (1875032, 0), (3125, 0)], [(28348065202946,
    0), (0, 279809340), (0, 58066), (7, 0)], [(14271524982, 0), (544627, 0), (0, 85)]], 3, 4⟩, ⟨[[(29949236092583936,
    0), (0, 3483876448108221), (49075758924, 0), (0, 1108033), (64, 0)], [(0, 11012234643992005), (0, 431517354346),
    (15857736, 0), (0, 1617)], [(12497902450107, 0), (0, 326982105), (23143, 0), (0, 1)], [(5189551141, 0), (0,
    72861), (15, 0)]], 3, 4⟩, 72057594037927936, 368575064262, 236045020364, ⟨[[(9487548113097, 0), (4449782369, 0),
    (2645381, 0), (1112, 0)], [(0, 7608967358), (0, 14609687), (0, 16070), (0, 10)], [(17981082, 0), (55100, 0), (82,
    0)], [(0, 61821), (0, 225)]], 3, 4⟩, 17592186044416, 307194972,
    3140388223427123437774483525889037205780532610242793448374029578125892446357325787123604368983578135374365154706263531906284328,
    lc0⟩))) (.sx (.sy (.leaf ⟨273, 16, 299, 308, 16, 2152, ⟨[[(31531961352708096, 0), (0, 2104523004337545),
    (38754144207, 0), (0, 256321), (0, 45)], [(26711966918448521, 0), (0, 1758592860411), (10682309, 0), (2263, 0)],
    [(28792975691690, 0), (0, 418818467), (0, 41110), (7, 0)], [(15454968257, 0), (381880, 0), (0, 85)]], 3, 4⟩,
    ⟨[[(0, 19955235883089920), (0, 3391646063427988), (46600275643, 0), (0, 918829), (56, 0)], [(0,
    12138729377169950), (0, 388418726867), (11803910, 0), (0, 1213)], [(11610184704533, 0), (0, 294846355), (19310,
    0), (0, 1)], [(4921101334, 0), (0, 54144), (22, 0)]], 3, 4⟩, 72057594037927936, 594270066004, 261812464344,
    ⟨[[(9651305477357, 0), (4874398978, 0), (3186977, 0), (1501, 0)], [(0, 7850738828), (0, 16520693), (0, 20069),
    (0, 14)], [(19662154, 0), (65347, 0), (108, 0)], [(0, 66220), (0, 279), (0, 1)]], 3, 4⟩, 17592186044416,
    299748258,
    5166728599958915709365225969535090514865252508766872814688326593332527448177429501284681337532266371206346350286953704231194278,
    lc0⟩) (.leaf ⟨266, 16, 307, 286, 16, 2167, ⟨[[(0, 11633353446363136), (0, 2121101674250539), (39331991962, 0),
    (0, 341532), (0, 32)], [(26523275560283282, 0), (0, 1793009982333), (14070161, 0), (1797, 0)], [(29337760862498,
    0), (0, 466954338), (0, 31404), (7, 0)], [(16043737193, 0), (306733, 0), (0, 83)]], 3, 4⟩, ⟨[[(17106770572742656,
    0), (0, 3368845051527413), (45616239695, 0), (0, 813474), (55, 0)], [(0, 12416832150571618), (0, 380021251962),
    (10332111, 0), (0, 835)], [(11546791084647, 0), (0, 278455671), (17180, 0), (0, 2)], [(4933970511, 0), (0,
    30146), (26, 0)]], 3, 4⟩, 72057594037927936, 674741130326, 260813500576, ⟨[[(9643936417493, 0), (4919368186, 0),
    (3319897, 0), (1662, 0)], [(0, 7800177157), (0, 16851812), (0, 21342), (0, 16)], [(19826718, 0), (68109, 0),
    (118, 0)], [(0, 66585), (0, 296), (0, 1)]], 3, 4⟩, 17592186044416, 315097773,
    6399271326748606367929492672214401414197683510313575975387395377772639899147167383227563758447783768451383317380876490431502239,
    lc0⟩)) (.sy (.leaf ⟨272, 16, 281, 305, 16, 2184, ⟨[[(20620426096226304, 0), (0, 2047909442137998), (36768658516,
    0), (0, 139656), (0, 53)], [(27454458951114661, 0), (0, 1683693587961), (6367069, 0), (2699, 0)],
    [(28914132381631, 0), (0, 341347363), (0, 48861), (7, 0)], [(14895013985, 0), (473593, 0), (0, 83)]], 3, 4⟩,
    ⟨[[(29690256670666752, 0), (0, 3459167635733765), (47832501795, 0), (0, 986262), (64, 0)], [(0,
    11302684031774126), (0, 419628308327), (13736830, 0), (0, 1325)], [(12424843301386, 0), (0, 306363916), (22172,
    0), (0, 1)], [(5192765455, 0), (0, 56230), (19, 0)]], 3, 4⟩, 72057594037927936, 448866603496, 239327796834,
    ⟨[[(9493051795168, 0), (4509624552, 0), (2771973, 0), (1240, 0)], [(0, 7604709285), (0, 15022951), (0, 17251),
    (0, 11)], [(18487579, 0), (58173, 0), (91, 0)], [(0, 62860), (0, 243)]], 3, 4⟩, 17592186044416, 323567532,
    3277654788002520062178082515920742786639784889380847506196122944543936493451840274463642900841750891277614830657607174375787648,
    lc0⟩) (.leaf ⟨265, 16, 288, 284, 16, 2200, ⟨[[(0, 30399874836107264), (0, 2061223441763467), (37394318152, 0),
    (0, 237728), (0, 40)], [(27274086691071787, 0), (0, 1717122507834), (10305456, 0), (2255, 0)], [(29447064397198,
    0), (0, 394788884), (0, 39498), (7, 0)], [(15488739589, 0), (402392, 0), (0, 81)]], 3, 4⟩, ⟨[[(0,
    33078023026794496), (0, 3436852329396746), (46784130037, 0), (0, 864395), (64, 0)], [(0, 11594355173191418), (0,
    409732112631), (12088547, 0), (0, 982)], [(12366439033430, 0), (0, 287024613), (20545, 0), (0, 1)], [(5207462041,
    0), (0, 35740), (23, 0)]], 3, 4⟩, 72057594037927936, 531525090984, 245578779286, ⟨[[(9491425344062, 0),
    (4552191542, 0), (2882189, 0), (1363, 0)], [(0, 7573749100), (0, 15333212), (0, 18302), (0, 13)], [(18774081, 0),
    (60711, 0), (98, 0)], [(0, 63511), (0, 260), (0, 1)]], 3, 4⟩, 17592186044416, 340173985,
    5376840594561588801669901308519858705559982657064289125960833287301562526009326933947564725936874874679989866899724121533052187,
    lc0⟩)))
theorem c57 : checkR job con0 true ⟨7, 9, 7, 9, 13, 17⟩ 1 9016 t57 1305 21 640 15247 251 16000 = true := by decide +kernel

def t58 : CTree :=
  .sy (.sx (.sy (.sx (.leaf ⟨397, 16, 355, 387, 16, 2419, ⟨[[(21962305420099584, 0), (0, 2748118966216080),
    (46289368067, 0), (315585, 0), (0, 110)], [(19601263338619989, 0), (0, 1073359017358), (0, 5064123), (2657, 0)],
    [(9652066927001, 0), (0, 49176706), (0, 25075), (2, 0)], [(2279381932, 0), (118233, 0), (0, 15)]], 3, 4⟩,
    ⟨[[(25340942542888960, 0), (0, 3957506368144600), (57377660253, 0), (0, 1445208), (75, 0)], [(0,
    5563828242489659), (0, 262676562964), (11157457, 0), (0, 1038)], [(3671456086065, 0), (0, 99897732), (6904, 0)],
    [(745943979, 0), (0, 10703), (2, 0)]], 3, 4⟩, 72057594037927936, 35453873088, 18677015528, ⟨[[(9380930022365, 0),
    (3757387496, 0), (1869548, 0), (643, 0)], [(0, 5421963932), (0, 8736228), (0, 7983), (0, 4)], [(8632007, 0),
    (22615, 0), (28, 0)], [(0, 24157), (0, 73)]], 3, 4⟩, 17592186044416, 28344306,
    3782672247594366375683594268587467802570986624297301097482550522170708811643180981992551396651503475677657511394920208599755561,
    lc0⟩) (.leaf ⟨399, 16, 346, 385, 16, 2426, ⟨[[(0, 28813008230547456), (0, 2722462332989176), (44864352805, 0),
    (420631, 0), (0, 114)], [(19906312558307410, 0), (0, 1049544242843), (0, 7065124), (2795, 0)], [(9687507926023,
    0), (0, 32723911), (0, 26263), (2, 0)], [(2223932417, 0), (126211, 0), (0, 15)]], 3, 4⟩, ⟨[[(22419418461237248,
    0), (0, 3980200276035419), (58025990358, 0), (0, 1493102), (77, 0)], [(0, 5266658003564807), (0, 271907018807),
    (11779204, 0), (0, 1040)], [(3776934668745, 0), (0, 101460389), (7110, 0)], [(757192759, 0), (0, 9430), (1, 0)]],
    3, 4⟩, 72057594037927936, 31349675023, 17883530117, ⟨[[(9303745416953, 0), (3631039996, 0), (1759095, 0), (593,
    0)], [(0, 5328841480), (0, 8352299), (0, 7443), (0, 4)], [(8095526, 0), (20770, 0), (26, 0)], [(0, 25004), (0,
    76)]], 3, 4⟩, 17592186044416, 27184323,
    6241098142286486080873429057194257244841184378995193776610045166152638191693247544069025330219448463203447996317048117682104652,
    lc0⟩)) (.leaf ⟨279, 16, 258, 326, 16, 2203, ⟨[[(2144188847648768, 0), (0, 1979766581850274), (33844615968, 0),
    (116771, 0), (0, 71)], [(28298131064275633, 0), (0, 1568969078397), (0, 3252583), (3515, 0)], [(28397858709051,
    0), (0, 191265919), (0, 64843), (7, 0)], [(13604670968, 0), (635555, 0), (0, 82)]], 3, 4⟩, ⟨[[(24855479843889152,
    0), (0, 3557486665975817), (50564079815, 0), (0, 1195199), (71, 0)], [(0, 10090373043081806), (0, 466552343803),
    (18159189, 0), (0, 1677)], [(13368772283947, 0), (0, 340736479), (25339, 0)], [(5435554917, 0), (0, 61185), (14,
    0)]], 3, 4⟩, 72057594037927936, 194679364590, 192258502133, ⟨[[(9342629616241, 0), (4131680927, 0), (2313007, 0),
    (926, 0)], [(0, 7425001783), (0, 13399732), (0, 13935), (0, 8)], [(16842634, 0), (49408, 0), (70, 0)], [(0,
    61632), (0, 209)]], 3, 4⟩, 17592186044416, 335298129,
    3769723570236221039014504123131180181551053911827724045499427352415111488251024619729295949197456425892027764489002959864596585,
    lc0⟩)) (.sy (.out ⟨251, 16, 233, 1928, 16, 2077, ⟨[[(0, 22906550964027392), (0, 1877926718806570), (29839733361,
    0)], [(28489831788217886, 0), (0, 1416985996130), (0, 14206476)], [(27224920109771, 0), (0, 19526466), (0,
    78191)]], 2, 2⟩, ⟨[[(0, 6988833162133504), (0, 3593759723309122), (52855193539, 0)], [(0, 8597017268663490), (0,
    512030453628), (22819391, 0)], [(14099213718668, 0), (0, 370422307), (26545, 0)]], 2, 2⟩, 72057594037927936,
    121678488541641, 74539670312057, ⟨[], 0, 0⟩, 0, 0, 0, lc0⟩ 0 466 36) (.sx (.leaf ⟨389, 16, 344, 360, 16, 2461,
    ⟨[[(4539197257404416, 0), (0, 2705811009898015), (44900352163, 0), (312722, 0), (0, 105)], [(20085160199300379,
    0), (0, 1052685958591), (0, 5054143), (2644, 0)], [(9895108618261, 0), (0, 42171017), (0, 24195), (2, 0)],
    [(2271110112, 0), (122659, 0), (0, 14)]], 3, 4⟩, ⟨[[(0, 11177352728072192), (0, 3990911938342839), (57153362206,
    0), (0, 1394443), (83, 0)], [(0, 5156516922603102), (0, 272679486645), (11057296, 0), (0, 943)], [(3878323444158,
    0), (0, 96571644), (7435, 0)], [(771580347, 0), (0, 6266), (2, 0)]], 3, 4⟩, 72057594037927936, 33827672822,
    15680497157, ⟨[[(9235759202491, 0), (3538070258, 0), (1712233, 0), (597, 0)], [(0, 5234261532), (0, 8154655), (0,
    7344), (0, 4)], [(8119880, 0), (20847, 0), (26, 0)], [(0, 23626), (0, 71)]], 3, 4⟩, 17592186044416, 29344665,
    4303615692278298340599058360388378502180831934839523478158352526837160962832243775437326741667273168249376200027786225279997649,
    lc0⟩) (.sy (.out ⟨496, 16, 472, 3876, 16, 4219, ⟨[[(28720684095365120, 0), (0, 1894362070738787), (15255101617,
    0)], [(28897256954798903, 0), (0, 722836231053), (0, 2829636)], [(13973025568026, 0), (0, 13279564), (0, 9218)]],
    2, 2⟩, ⟨[[(0, 25249229210222592), (0, 3615484597164759), (26181446952, 0)], [(0, 8624478442421694), (0,
    255429658191), (5423826, 0)], [(7179071727988, 0), (0, 89254874), (3449, 0)]], 2, 2⟩, 72057594037927936,
    30439766652287, 18382403867232, ⟨[], 0, 0⟩, 0, 0, 0, lc0⟩ 0 236 12) (.leaf ⟨561, 16, 487, 645, 16, 4535, ⟨[[(0,
    3719436093136896), (0, 1938701567779629), (15854085892, 0), (66003, 0), (0, 10)], [(29440535577749480, 0), (0,
    748353601794), (0, 2159675), (489, 0)], [(14407864915689, 0), (0, 22914389), (0, 8843)], [(3228046061, 0),
    (92685, 0), (0, 5)]], 3, 4⟩, ⟨[[(0, 5895391968428032), (0, 3674563408741622), (26304841239, 0), (0, 320400), (10,
    0)], [(0, 8958890810222717), (0, 256078161831), (5225088, 0), (0, 211)], [(7304335191668, 0), (0, 87823398),
    (3534, 0)], [(1430909702, 0), (0, 3566), (1, 0)]], 3, 4⟩, 72057594037927936, 28032625950, 11671898689,
    ⟨[[(9163560015453, 0), (1870516991, 0), (483860, 0), (91, 0)], [(0, 3561588631), (0, 2960930), (0, 1431)],
    [(3701821, 0), (5100, 0), (3, 0)], [(0, 7939), (0, 13)]], 3, 4⟩, 17592186044416, 2044262,
    4255690475080984944012788308715502004738439785607688648888706395760920923406228239436002623111232427188491955067409947668169445,
    lc0⟩))))) (.sx (.sy (.leaf ⟨272, 16, 264, 304, 16, 2219, ⟨[[(0, 34083741652205568), (0, 1990982089903540),
    (34708703680, 0), (0, 12980), (0, 60)], [(28149888302750153, 0), (0, 1606205154842), (1712438, 0), (3099, 0)],
    [(28944202075987, 0), (0, 256986628), (0, 55777), (7, 0)], [(14226891250, 0), (568875, 0), (0, 79)]], 3, 4⟩,
    ⟨[[(0, 5229123410268160), (0, 3533063026975859), (49226352949, 0), (0, 1060139), (72, 0)], [(0,
    10395164098298968), (0, 452788209244), (15946451, 0), (0, 1415)], [(13299958899301, 0), (0, 317899157), (24801,
    0), (0, 1)], [(5447880818, 0), (0, 45998), (17, 0)]], 3, 4⟩, 72057594037927936, 275799584994, 204695417274,
    ⟨[[(9340584546180, 0), (4167523970, 0), (2399328, 0), (1016, 0)], [(0, 7381633585), (0, 13642091), (0, 14741),
    (0, 9)], [(17266997, 0), (51580, 0), (76, 0)], [(0, 60446), (0, 214)]], 3, 4⟩, 17592186044416, 346492254,
    3623575001050235044972451811774654755087014118365747573843593253957231419814574569423036864065054443154877900133025514358786671,
    lc0⟩) (.leaf ⟨264, 16, 270, 281, 16, 2235, ⟨[[(0, 26198842092961792), (0, 2000631376919696), (35391992458, 0),
    (0, 122494), (0, 48)], [(27965844616310589, 0), (0, 1638681540046), (6147770, 0), (2670, 0)], [(29456592189761,
    0), (0, 314845436), (0, 46643), (7, 0)], [(14822315299, 0), (502898, 0), (0, 77)]], 3, 4⟩, ⟨[[(35984638841483264,
    0), (0, 3509529015887839), (48082694935, 0), (0, 922410), (72, 0)], [(0, 10695179566407205), (0, 440926500074),
    (14151422, 0), (0, 1106)], [(13241316204299, 0), (0, 295739260), (23618, 0), (0, 1)], [(5468561560, 0), (0,
    27195), (21, 0)]], 3, 4⟩, 72057594037927936, 359406720063, 215579333942, ⟨[[(9338820755404, 0), (4207996730, 0),
    (2497186, 0), (1119, 0)], [(0, 7360270394), (0, 13950844), (0, 15700), (0, 10)], [(17704871, 0), (54107, 0), (83,
    0)], [(0, 60917), (0, 228)]], 3, 4⟩, 17592186044416, 368539947,
    3219944242317973167534593766929850247821379695172851810250806032417003595838032380445296193632881098671694468987060833454192240,
    lc0⟩)) (.sy (.leaf ⟨271, 16, 248, 303, 16, 2257, ⟨[[(11777641173622784, 0), (0, 1934072528013525), (32574780956,
    0), (121694, 0), (0, 66)], [(28798720338545256, 0), (0, 1526086709048), (0, 3185725), (3469, 0)],
    [(28880204890428, 0), (0, 166043130), (0, 61760), (7, 0)], [(13435335731, 0), (663835, 0), (0, 74)]], 3, 4⟩,
    ⟨[[(22069607441235968, 0), (0, 3613482381450090), (50796344689, 0), (0, 1139807), (79, 0)], [(0,
    9407278639480792), (0, 487914719896), (18429691, 0), (0, 1486)], [(14234486015168, 0), (0, 327901047), (27387,
    0)], [(5667409374, 0), (0, 23774), (17, 0)]], 3, 4⟩, 72057594037927936, 113424190360, 143395271303,
    ⟨[[(9199283872089, 0), (3863156597, 0), (2087250, 0), (839, 0)], [(0, 7223362473), (0, 12508204), (0, 12727), (0,
    7)], [(16156729, 0), (46104, 0), (65, 0)], [(0, 61172), (0, 202)]], 3, 4⟩, 17592186044416, 379889271,
    4752377907523558801902865512178145340319457064406131027594674258742575044601477807682565583877427703616248411597504570886724814,
    lc0⟩) (.leaf ⟨264, 16, 254, 280, 16, 2273, ⟨[[(2933059202060288, 0), (0, 1947306610561196), (33454859175, 0),
    (1704, 0), (0, 55)], [(28710445103387776, 0), (0, 1563722230077), (1716891, 0), (3061, 0)], [(29478484626271, 0),
    (0, 228351862), (0, 52934), (7, 0)], [(14082889534, 0), (605756, 0), (0, 72)]], 3, 4⟩, ⟨[[(20253291669270528, 0),
    (0, 3588564888771387), (49548592586, 0), (0, 987179), (80, 0)], [(0, 9716140098246427), (0, 473799562470),
    (16519973, 0), (0, 1209)], [(14176506673409, 0), (0, 302954397), (26634, 0), (0, 1)], [(5700170288, 0), (0,
    5028), (21, 0)]], 3, 4⟩, 72057594037927936, 151286536629, 160178941259, ⟨[[(9198455175823, 0), (3898146192, 0),
    (2166540, 0), (919, 0)], [(0, 7174320109), (0, 12725306), (0, 13470), (0, 8)], [(16605548, 0), (48210, 0), (71,
    0)], [(0, 59382), (0, 203)]], 3, 4⟩, 17592186044416, 394001302,
    3930446800607682713975763791697799825433111948023439947099120849207488363124494405019184754901824457090589143374799017703029582,
    lc0⟩)))
theorem c58 : checkR job con0 true ⟨7, 9, 7, 9, 13, 17⟩ 1 9016 t58 1347 21 640 15247 251 16000 = true := by decide +kernel

def t59 : CTree :=
  .sy (.sx (.sy (.sx (.leaf ⟨349, 16, 433, 304, 16, 2487, ⟨[[(6613973239091200, 0), (0, 2910089933536460),
    (54446613208, 0), (0, 568205), (0, 20)], [(17645280891172550, 0), (0, 1246271206899), (11841242, 0), (793, 0)],
    [(10080655047535, 0), (0, 176242265), (0, 6465), (2, 0)], [(2826570224, 0), (34986, 0), (0, 14)]], 3, 4⟩, ⟨[[(0,
    8638090374856704), (0, 3810005788388754), (50929504549, 0), (0, 803840), (59, 0)], [(0, 7369818197740215), (0,
    209254322808), (5221248, 0), (0, 212)], [(3229742909595, 0), (0, 75373269), (3766, 0), (0, 1)], [(699668737, 0),
    (519, 0), (5, 0)]], 3, 4⟩, 72057594037927936, 90306426869, 30372649879, ⟨[[(9686604170274, 0), (4445032059, 0),
    (2759727, 0), (1306, 0)], [(0, 5818255587), (0, 11510573), (0, 13530), (0, 10)], [(11196588, 0), (35498, 0), (58,
    0)], [(0, 27842), (0, 116)]], 3, 4⟩, 17592186044416, 41834675,
    6261129006599302405831642284922068769525206086449591576448468647983002299753594762228021139736650225407006720317206338977080519,
    lc0⟩) (.leaf ⟨350, 16, 421, 301, 16, 2494, ⟨[[(0, 24514786280783872), (0, 2880633145790799), (53409145447, 0),
    (0, 515898), (0, 27)], [(17994205042448603, 0), (0, 1225930773041), (10912358, 0), (971, 0)], [(10150666398583,
    0), (0, 166502337), (0, 8024), (2, 0)], [(2797013864, 0), (43232, 0), (0, 14)]], 3, 4⟩, ⟨[[(0,
    35471626167402496), (0, 3829676307269809), (51299765635, 0), (0, 816236), (64, 0)], [(0, 7114761734374482), (0,
    216192183643), (5577361, 0), (0, 269)], [(3328123042375, 0), (0, 75604940), (4343, 0), (0, 1)], [(715641412, 0),
    (0, 736), (4, 0)]], 3, 4⟩, 72057594037927936, 84902043630, 30793039827, ⟨[[(9607472823989, 0), (4290663804, 0),
    (2589361, 0), (1192, 0)], [(0, 5698869076), (0, 10950355), (0, 12530), (0, 9)], [(10796576, 0), (33272, 0), (52,
    0)], [(0, 26735), (0, 108)]], 3, 4⟩, 17592186044416, 40979031,
    6457756590640411862599025988148950284869134323301061862336360399609589967114650719911930777600447828438453336681390396945911185,
    lc0⟩)) (.sx (.leaf ⟨337, 16, 444, 280, 16, 2510, ⟨[[(26356804645834752, 0), (0, 2928413426568097), (54931841801,
    0), (0, 602937)], [(17455173235698810, 0), (0, 1265223254355), (13076384, 0), (426, 0)], [(10244667669440, 0),
    (0, 185501659), (0, 2905), (2, 0)], [(2912794898, 0), (21625, 0), (0, 14)]], 3, 4⟩, ⟨[[(5791652846460928, 0), (0,
    3794218287052446), (50268263645, 0), (0, 692648), (59, 0)], [(0, 7542683323992332), (0, 205997869156), (5134686,
    0), (33, 0)], [(3222288020058, 0), (0, 72830650), (2603, 0), (0, 1)], [(707662860, 0), (5681, 0), (6, 0)]], 3,
    4⟩, 72057594037927936, 98316458992, 28849005352, ⟨[[(9687289619836, 0), (4494026678, 0), (2886843, 0), (1454,
    0)], [(0, 5825921444), (0, 11864928), (0, 14580), (0, 12)], [(11396094, 0), (37546, 0), (64, 0)], [(0, 28493),
    (0, 125)]], 3, 4⟩, 17592186044416, 47880401,
    6477354009422704009190953611908568890485416714916830075633318953535460740324271299054550505833116097347077446556506324319417122,
    lc0⟩) (.leaf ⟨338, 16, 431, 277, 16, 2518, ⟨[[(0, 28068106404663296), (0, 2894571012273166), (53850615650, 0),
    (0, 563697), (0, 8)], [(17794514694345176, 0), (0, 1243177660551), (12384018, 0), (615, 0)], [(10304443956195,
    0), (0, 176862420), (0, 4555), (2, 0)], [(2882106421, 0), (30126, 0), (0, 14)]], 3, 4⟩, ⟨[[(0,
    25758048388001792), (0, 3815119395773633), (50649833474, 0), (0, 694996), (64, 0)], [(0, 7291408449977711), (0,
    212764909606), (5398882, 0), (0, 39)], [(3322849069114, 0), (0, 72461225), (3279, 0), (0, 1)], [(723304600, 0),
    (3959, 0), (5, 0)]], 3, 4⟩, 72057594037927936, 92569330913, 28423397210, ⟨[[(9606560129958, 0), (4330797692, 0),
    (2698576, 0), (1317, 0)], [(0, 5705374141), (0, 11261725), (0, 13433), (0, 10)], [(10997306, 0), (35130, 0), (58,
    0)], [(0, 27321), (0, 116)]], 3, 4⟩, 17592186044416, 46630008,
    6782021045029942087413836750158443703533356567622183638954787696572850697513976612339899127844754059810763421843895947469305150,
    lc0⟩))) (.sy (.sx (.leaf ⟨351, 16, 410, 297, 16, 2502, ⟨[[(0, 1240267286872064), (0, 2855793705698827),
    (52445206819, 0), (0, 458583), (0, 34)], [(18368919779196678, 0), (0, 1207280109785), (9898612, 0), (1143, 0)],
    [(10231482755150, 0), (0, 156228395), (0, 9538), (2, 0)], [(2768068520, 0), (52089, 0), (0, 14)]], 3, 4⟩,
    ⟨[[(28382389476569088, 0), (0, 3851203817579192), (51707317582, 0), (0, 831272), (69, 0)], [(0,
    6853300757462920), (0, 223262227646), (5983333, 0), (0, 321)], [(3430135120276, 0), (0, 75989947), (4876, 0), (0,
    1)], [(731801166, 0), (0, 1426), (4, 0)]], 3, 4⟩, 72057594037927936, 79132245926, 29953045868, ⟨[[(9528619742794,
    0), (4142484550, 0), (2432230, 0), (1093, 0)], [(0, 5577417317), (0, 10417071), (0, 11626), (0, 8)], [(10390495,
    0), (31174, 0), (48, 0)], [(0, 25635), (0, 100)]], 3, 4⟩, 17592186044416, 40287945,
    6401039169182849619891791670601667152365660355198655338101920449565505649836857968311035717870552033462025004947681305845908923,
    lc0⟩) (.leaf ⟨351, 16, 398, 294, 16, 2510, ⟨[[(25170279840911360, 0), (0, 2821694775828063), (51296473523, 0),
    (0, 394493), (0, 40)], [(18679873160977399, 0), (0, 1184398217053), (8760208, 0), (1304, 0)], [(10273082309171,
    0), (0, 144623746), (0, 10950), (2, 0)], [(2725804056, 0), (61212, 0), (0, 13)]], 3, 4⟩, ⟨[[(30440487195947008,
    0), (0, 3873059400692028), (52133668966, 0), (0, 848451), (74, 0)], [(0, 6582252025983108), (0, 230387676756),
    (6433815, 0), (0, 369)], [(3534461057632, 0), (0, 76425999), (5373, 0), (0, 1)], [(747648569, 0), (0, 1537), (4,
    0)]], 3, 4⟩, 72057594037927936, 72406173188, 28816388415, ⟨[[(9454875883085, 0), (4004637748, 0), (2287668, 0),
    (1003, 0)], [(0, 5488069076), (0, 9966419), (0, 10850), (0, 7)], [(10088509, 0), (29482, 0), (44, 0)], [(0,
    24934), (0, 94)]], 3, 4⟩, 17592186044416, 40496233,
    5970486598910978742211032616960390213740745166581523716908625082458207109775326750598375697998591232080244181926119290224844229,
    lc0⟩)) (.sx (.leaf ⟨339, 16, 419, 273, 16, 2526, ⟨[[(0, 33014001763713024), (0, 2865040380241415), (52848125057,
    0), (0, 518749), (0, 16)], [(18155466997884757, 0), (0, 1222835446443), (11595380, 0), (796, 0)],
    [(10373776183320, 0), (0, 167627809), (0, 6142), (2, 0)], [(2852044630, 0), (39321, 0), (0, 14)]], 3, 4⟩,
    ⟨[[(24527775600345088, 0), (0, 3836332980378196), (51044397918, 0), (0, 700293), (68, 0)], [(0,
    7030704261290136), (0, 219528149904), (5718415, 0), (0, 107)], [(3425685768595, 0), (0, 72265920), (3901, 0), (0,
    1)], [(739158079, 0), (2895, 0), (5, 0)]], 3, 4⟩, 72057594037927936, 88111874123, 29261556840, ⟨[[(9526251321396,
    0), (4175990287, 0), (2527295, 0), (1199, 0)], [(0, 5583339137), (0, 10693299), (0, 12413), (0, 9)], [(10594280,
    0), (32874, 0), (52, 0)], [(0, 26182), (0, 107)]], 3, 4⟩, 17592186044416, 45529363,
    6979339253985635253557960865264226917089710010104750684295015600087732946705438033481413735796459686207579541970826089213490233,
    lc0⟩) (.leaf ⟨340, 16, 408, 270, 16, 2535, ⟨[[(15036211065483264, 0), (0, 2840120183176419), (51923387428, 0),
    (0, 468506), (0, 23)], [(18542130557864472, 0), (0, 1204222141546), (10718059, 0), (970, 0)], [(10454247373598,
    0), (0, 157730049), (0, 7660), (2, 0)], [(2822357014, 0), (49142, 0), (0, 13)]], 3, 4⟩, ⟨[[(20655193762500608,
    0), (0, 3859382385710003), (51474541954, 0), (0, 708629), (73, 0)], [(0, 6763021911953704), (0, 226387912298),
    (6091808, 0), (0, 170)], [(3532210848784, 0), (0, 72189671), (4483, 0), (0, 1)], [(755308216, 0), (2505, 0), (4,
    0)]], 3, 4⟩, 72057594037927936, 80093284335, 27754804781, ⟨[[(9454479564693, 0), (4037180827, 0), (2376137, 0),
    (1097, 0)], [(0, 5480009043), (0, 10199125), (0, 11541), (0, 8)], [(10248336, 0), (30940, 0), (48, 0)], [(0,
    25260), (0, 100)]], 3, 4⟩, 17592186044416, 44760582,
    7101190499775628918143012459927427581267145820321525403017702384632504607602211896678201658763520019179768533842541704954600658,
    lc0⟩)))) (.sx (.sy (.sx (.leaf ⟨325, 16, 455, 256, 16, 2534, ⟨[[(940977775038464, 0), (0, 2944910794167316),
    (55372492483, 0), (0, 597761), (20, 0)], [(17240162911920981, 0), (0, 1282887907460), (13748750, 0), (23, 0)],
    [(10402616323075, 0), (0, 191184246), (809, 0), (3, 0)], [(2992478142, 0), (7827, 0), (0, 14)]], 3, 4⟩,
    ⟨[[(17942824608468992, 0), (0, 3780044454461916), (49785299422, 0), (0, 580476), (59, 0)], [(0,
    7717886236823576), (0, 202678375017), (5409102, 0), (259, 0)], [(3216728475823, 0), (0, 71632096), (1086, 0), (0,
    1)], [(718794140, 0), (11808, 0), (7, 0)]], 3, 4⟩, 72057594037927936, 107563982810, 26121823693,
    ⟨[[(9684513078258, 0), (4536328255, 0), (3012427, 0), (1615, 0), (1, 0)], [(0, 5825166798), (0, 12201964), (0,
    15662), (0, 14)], [(11549199, 0), (39500, 0), (72, 0)], [(0, 29152), (0, 134)]], 3, 4⟩, 17592186044416, 56269082,
    6405902160883766162276669784323107038878257783338741400331175290730561877962433234969227648530078973335346299766519835269978168,
    lc0⟩) (.leaf ⟨326, 16, 442, 253, 16, 2542, ⟨[[(0, 18808655744606208), (0, 2913439201563424), (54351729080, 0),
    (0, 575456), (10, 0)], [(17611931849624582, 0), (0, 1261778926012), (13348428, 0), (227, 0)], [(10475517993567,
    0), (0, 184205196), (0, 970), (2, 0)], [(2967601122, 0), (16700, 0), (0, 14)]], 3, 4⟩, ⟨[[(0, 27018910802894848),
    (0, 3800643590205575), (50172769510, 0), (0, 573389), (63, 0)], [(0, 7467356195741653), (0, 209296075531),
    (5551214, 0), (166, 0)], [(3318519064286, 0), (0, 70519769), (1874, 0), (0, 1)], [(733558695, 0), (9528, 0), (6,
    0)]], 3, 4⟩, 72057594037927936, 101510671661, 26053452822, ⟨[[(9607390368282, 0), (4375983623, 0), (2819607, 0),
    (1460, 0)], [(0, 5710076667), (0, 11596587), (0, 14437), (0, 12)], [(11169192, 0), (37043, 0), (65, 0)], [(0,
    27925), (0, 124)]], 3, 4⟩, 17592186044416, 54534048,
    6949735511921527766667903451354407970087359709754068313165860684308675928370047269599217935371215191562317434352153620754656362,
    lc0⟩)) (.sx (.leaf ⟨312, 16, 466, 232, 16, 2558, ⟨[[(4009318793031680, 0), (0, 2959618878336796), (55828358348,
    0), (0, 554560), (37, 0)], [(17000916282466597, 0), (0, 1299859891442), (13778931, 0), (0, 431)],
    [(10556347656321, 0), (0, 193028851), (4707, 0), (3, 0)], [(3065185393, 0), (0, 6578), (0, 15)]], 3, 4⟩,
    ⟨[[(19247577213915136, 0), (0, 3765800883853451), (49464769214, 0), (0, 465777), (60, 0)], [(0,
    7892276887369428), (0, 198871080450), (5990113, 0), (429, 0)], [(3211015667884, 0), (0, 72157533), (0, 867), (0,
    1)], [(733330109, 0), (19046, 0), (8, 0)]], 3, 4⟩, 72057594037927936, 113759727588, 23512668216,
    ⟨[[(9684751507582, 0), (4586775640, 0), (3155262, 0), (1806, 0), (1, 0)], [(0, 5839979202), (0, 12607305), (0,
    16937), (0, 16)], [(11758649, 0), (41815, 0), (81, 0)], [(0, 30264), (0, 146)]], 3, 4⟩, 17592186044416, 69082997,
    5662479990138658999133672218152419704244666582229965017708912992949837052314011026529615891350493089440381883991827114636220625,
    lc0⟩) (.leaf ⟨313, 16, 453, 228, 16, 2566, ⟨[[(17103347583315968, 0), (0, 2930456825063677), (54840503317, 0),
    (0, 552247), (26, 0)], [(17404524545095698, 0), (0, 1279378312335), (13703523, 0), (0, 208)], [(10641515033408,
    0), (0, 187894006), (2776, 0), (3, 0)], [(3046425633, 0), (2690, 0), (0, 14)]], 3, 4⟩, ⟨[[(33045100352759808, 0),
    (0, 3786083249471911), (49870857912, 0), (0, 451690), (63, 0)], [(0, 7642478302339016), (0, 205477826302),
    (5974980, 0), (311, 0)], [(3314446350493, 0), (0, 70174984), (48, 0), (0, 1)], [(746898659, 0), (16095, 0), (7,
    0)]], 3, 4⟩, 72057594037927936, 109310993915, 24801301805, ⟨[[(9606629927777, 0), (4423021673, 0), (2952107, 0),
    (1626, 0), (1, 0)], [(0, 5718138324), (0, 11967051), (0, 15573), (0, 14)], [(11350291, 0), (39135, 0), (72, 0)],
    [(0, 28787), (0, 134)]], 3, 4⟩, 17592186044416, 66556545,
    6612778192919674861680836280877985532114936021138470864039099040303772405762335417186718129269708574608316303401158745199307161,
    lc0⟩))) (.sy (.sx (.leaf ⟨326, 16, 429, 249, 16, 2551, ⟨[[(26934373478440960, 0), (0, 2879499859435577),
    (53294620344, 0), (0, 545077), (2, 0)], [(17963340202370624, 0), (0, 1239582815850), (12804374, 0), (420, 0)],
    [(10533923532061, 0), (0, 176119297), (0, 2667), (2, 0)], [(2936822592, 0), (26359, 0), (0, 14)]], 3, 4⟩,
    ⟨[[(16851496613650432, 0), (0, 3823045561850218), (50588132901, 0), (0, 570273), (67, 0)], [(0,
    7210133427113961), (0, 215934196923), (5759448, 0), (79, 0)], [(3423840818933, 0), (0, 69670230), (2599, 0), (0,
    1)], [(749188311, 0), (8018, 0), (5, 0)]], 3, 4⟩, 72057594037927936, 96080789275, 24981961974, ⟨[[(9531302864691,
    0), (4223886351, 0), (2644552, 0), (1328, 0)], [(0, 5609424574), (0, 11058183), (0, 13393), (0, 11)], [(10849195,
    0), (34967, 0), (59, 0)], [(0, 26988), (0, 116)]], 3, 4⟩, 17592186044416, 54116161,
    7173553232745179074661226650580072756725594499615324629379696184592447259071610990636421308635359217578315853608021612472540071,
    lc0⟩) (.leaf ⟨328, 16, 417, 246, 16, 2559, ⟨[[(0, 23387808172421120), (0, 2849860480998823), (52321041982, 0),
    (0, 508564), (0, 7)], [(18336167513563678, 0), (0, 1219134725942), (12157907, 0), (604, 0)], [(10602256115477,
    0), (0, 167277605), (0, 4271), (2, 0)], [(2906425862, 0), (36726, 0), (0, 13)]], 3, 4⟩, ⟨[[(0, 8315993838813184),
    (0, 3844255112456268), (50994430288, 0), (0, 570469), (70, 0)], [(0, 6940239402279473), (0, 222441141040),
    (6024734, 0), (0, 3)], [(3530111653424, 0), (0, 68931152), (3272, 0), (0, 1)], [(764893763, 0), (7288, 0), (5,
    0)]], 3, 4⟩, 72057594037927936, 88758731162, 26228544324, ⟨[[(9453093392349, 0), (4070253876, 0), (2469423, 0),
    (1200, 0)], [(0, 5486216824), (0, 10471333), (0, 12313), (0, 9)], [(10433533, 0), (32594, 0), (53, 0)], [(0,
    25762), (0, 107)]], 3, 4⟩, 17592186044416, 51830829,
    7449422231398519254799304288831507597478400366298552125305957000101800806985698041082547619316126057460540461260462879715864355,
    lc0⟩)) (.sx (.leaf ⟨314, 16, 440, 225, 16, 2575, ⟨[[(25774855076241408, 0), (0, 2898873243465910), (53829466556,
    0), (0, 540602), (16, 0)], [(17789063195115938, 0), (0, 1257961997084), (13462796, 0), (2, 0)], [(10712964992219,
    0), (0, 181536320), (934, 0), (2, 0)], [(3022161580, 0), (12964, 0), (0, 14)]], 3, 4⟩, ⟨[[(0, 9229572507574272),
    (0, 3808145983146089), (50298194144, 0), (0, 442544), (65, 0)], [(0, 7385905893401045), (0, 212032539419),
    (6035748, 0), (200, 0)], [(3421273076995, 0), (0, 68528291), (887, 0), (0, 1)], [(761758007, 0), (14048, 0), (6,
    0)]], 3, 4⟩, 72057594037927936, 103031081672, 25191166768, ⟨[[(9532774780916, 0), (4267922543, 0), (2763038, 0),
    (1466, 0), (1, 0)], [(0, 5612471488), (0, 11383950), (0, 14366), (0, 12)], [(11000709, 0), (36792, 0), (65, 0)],
    [(0, 27607), (0, 123)]], 3, 4⟩, 17592186044416, 64440696,
    7281964638632409333643404181291137644842318075136806224530178899251658030168674682143507976735120837156289350189688062053839854,
    lc0⟩) (.leaf ⟨315, 16, 427, 221, 16, 2583, ⟨[[(28081548244942848, 0), (0, 2864807735175159), (52788377683, 0),
    (0, 520396), (6, 0)], [(18152404351032079, 0), (0, 1235507254863), (13069563, 0), (200, 0)], [(10769719249268,
    0), (0, 173879698), (0, 796), (2, 0)], [(2991591596, 0), (24046, 0), (0, 13)]], 3, 4⟩, ⟨[[(24281411012911104, 0),
    (0, 3829030392591018), (50710783028, 0), (0, 437752), (66, 0)], [(0, 7116506195194889), (0, 218393460875),
    (6162189, 0), (94, 0)], [(3528994618108, 0), (0, 67049762), (1665, 0), (0, 1)], [(777121406, 0), (12911, 0), (6,
    0)]], 3, 4⟩, 72057594037927936, 98371396057, 23334148929, ⟨[[(9455150072687, 0), (4114129633, 0), (2582930, 0),
    (1323, 0), (1, 0)], [(0, 5501383360), (0, 10809168), (0, 13249), (0, 11)], [(10636651, 0), (34523, 0), (58, 0)],
    [(0, 26459), (0, 115)]], 3, 4⟩, 17592186044416, 62747775,
    7617432588304221382187919263870027158988006860706595630975179478422886572047814939367811287438429401182346780047562208196254033,
    lc0⟩))))
theorem c59 : checkR job con0 true ⟨7, 9, 7, 9, 13, 17⟩ 1 9016 t59 1305 21 640 15749 251 16000 = true := by decide +kernel

def t60 : CTree :=
  .sy (.sx (.sy (.sx (.leaf ⟨352, 16, 387, 292, 16, 2519, ⟨[[(34074814340534272, 0), (0, 2792321560068540),
    (50216740058, 0), (0, 326293), (0, 46)], [(19016770578401064, 0), (0, 1163141815137), (7554442, 0), (1461, 0)],
    [(10325234094440, 0), (0, 132428574), (0, 12297), (2, 0)], [(2683256435, 0), (70748, 0), (0, 13)]], 3, 4⟩, ⟨[[(0,
    20506143592951808), (0, 3896793250516968), (52601575031, 0), (0, 867957), (78, 0)], [(0, 6303900610995354), (0,
    237664153737), (6929131, 0), (0, 413)], [(3642496036078, 0), (0, 76870674), (5848, 0)], [(763207922, 0), (0,
    1071), (4, 0)]], 3, 4⟩, 72057594037927936, 65143014736, 29411380678, ⟨[[(9383824443961, 0), (3871321589, 0),
    (2149407, 0), (919, 0)], [(0, 5395525716), (0, 9519724), (0, 10099), (0, 6)], [(9758586, 0), (27767, 0), (40,
    0)], [(0, 24159), (0, 88)]], 3, 4⟩, 17592186044416, 40240979,
    5172361299929605321901022439689883561138344060891213142979040747637751522988513869911424828223551054909043977579080570945031505,
    lc0⟩) (.leaf ⟨354, 16, 377, 289, 16, 2528, ⟨[[(29674829044699136, 0), (0, 2767980428606344), (49206162936, 0),
    (0, 254068), (0, 52)], [(19384171259577591, 0), (0, 1143537958695), (6285610, 0), (1615, 0)], [(10389501040616,
    0), (0, 119592173), (0, 13582), (2, 0)], [(2640085657, 0), (80639, 0), (0, 13)]], 3, 4⟩, ⟨[[(11564488832618496,
    0), (0, 3920869600333320), (53092187038, 0), (0, 889308), (83, 0)], [(0, 6015285774660876), (0, 244997613546),
    (7465317, 0), (0, 454)], [(3752780621341, 0), (0, 77221725), (6306, 0)], [(777839705, 0), (0, 48), (3, 0)]], 3,
    4⟩, 72057594037927936, 57010946691, 27104928411, ⟨[[(9308459870446, 0), (3736627927, 0), (2014664, 0), (841, 0)],
    [(0, 5283026684), (0, 9047920), (0, 9351), (0, 6)], [(9352752, 0), (25922, 0), (37, 0)], [(0, 23174), (0, 81)]],
    3, 4⟩, 17592186044416, 39367554,
    4049644263944932631046165842625376693307015667601598967883903931797356540281958480224473895433815318932733407836135977559788927,
    lc0⟩)) (.sx (.leaf ⟨341, 16, 396, 267, 16, 2543, ⟨[[(0, 4072455967289344), (0, 2805943308493559), (50819074357,
    0), (0, 411174), (0, 30)], [(18863670620530438, 0), (0, 1181391159025), (9709896, 0), (1133, 0)],
    [(10494457734471, 0), (0, 146365014), (0, 9062), (2, 0)], [(2778671073, 0), (59222, 0), (0, 13)]], 3, 4⟩,
    ⟨[[(19654892003106816, 0), (0, 3881227751938659), (51901902258, 0), (0, 719271), (77, 0)], [(0,
    6482689519564637), (0, 233171940131), (6511511, 0), (0, 229)], [(3639663581533, 0), (0, 72090866), (5033, 0), (0,
    1)], [(770881409, 0), (2782, 0), (4, 0)]], 3, 4⟩, 72057594037927936, 72443989780, 27121220676, ⟨[[(9378613056733,
    0), (3895884847, 0), (2225499, 0), (1000, 0)], [(0, 5378841493), (0, 9709986), (0, 10696), (0, 7)], [(9903060,
    0), (29041, 0), (44, 0)], [(0, 24403), (0, 94)]], 3, 4⟩, 17592186044416, 44379500,
    6837248394648022550627590969826929640853043800271507512989134824161165291496564581716623090143149362060731483988489614980570504,
    lc0⟩) (.leaf ⟨342, 16, 385, 265, 16, 2552, ⟨[[(29902863207571456, 0), (0, 2776487108952646), (49787455735, 0),
    (0, 349506), (0, 36)], [(19211083843197385, 0), (0, 1160202243242), (8634183, 0), (1292, 0)], [(10545459204571,
    0), (0, 134292383), (0, 10377), (2, 0)], [(2734236580, 0), (69654, 0), (0, 12)]], 3, 4⟩, ⟨[[(0,
    34805685160939520), (0, 3904919188968900), (52369256249, 0), (0, 732620), (81, 0)], [(0, 6194702406075025), (0,
    240058122410), (6980583, 0), (0, 284)], [(3750817410919, 0), (0, 71943342), (5566, 0), (0, 1)], [(786117447, 0),
    (3703, 0), (4, 0)]], 3, 4⟩, 72057594037927936, 64830013748, 27235235773, ⟨[[(9310677365236, 0), (3768822409, 0),
    (2092142, 0), (917, 0)], [(0, 5294102878), (0, 9284009), (0, 9967), (0, 6)], [(9603248, 0), (27398, 0), (40, 0)],
    [(0, 23714), (0, 88)]], 3, 4⟩, 17592186044416, 43960880,
    6191914740190007279369678118211213583550193875942354471597206652219078633247607755525274426593550178884400969215914946275942923,
    lc0⟩))) (.sy (.leaf ⟨257, 16, 260, 257, 16, 2288, ⟨[[(0, 35240338320220160), (0, 1958949425498081), (34169026706,
    0), (0, 98644), (0, 44)], [(28585936550315910, 0), (0, 1596652491067), (6101998, 0), (2637, 0)],
    [(30044692586300, 0), (0, 283018452), (0, 44034), (7, 0)], [(14708738445, 0), (548718, 0), (0, 69)]], 3, 4⟩,
    ⟨[[(9958544003624960, 0), (0, 3562881944825681), (48500876685, 0), (0, 832267), (80, 0)], [(0,
    10015629680094383), (0, 461074256931), (15024615, 0), (0, 915)], [(14123605962590, 0), (0, 278808036), (25147,
    0), (0, 1)], [(5740769755, 0), (17563, 0), (24, 0)]], 3, 4⟩, 72057594037927936, 238793575273, 179730191468,
    ⟨[[(9195055278738, 0), (3930978334, 0), (2247360, 0), (1003, 0)], [(0, 7128358436), (0, 12941493), (0, 14243),
    (0, 9)], [(16924152, 0), (50126, 0), (76, 0)], [(0, 58934), (0, 214)]], 3, 4⟩, 17592186044416, 413863434,
    3126555064653011196108072805622486778406364132459987267371994007574139105477550066045481252865674754769101851883824246554010018,
    lc0⟩) (.sx (.leaf ⟨345, 16, 375, 262, 16, 2562, ⟨[[(0, 22917833328599040), (0, 2752058864262226), (48828773704,
    0), (0, 283643), (0, 43)], [(19589046594065338, 0), (0, 1140673898132), (7497532, 0), (1447, 0)],
    [(10608790190737, 0), (0, 121475625), (0, 11612), (2, 0)], [(2688586902, 0), (80339, 0), (0, 12)]], 3, 4⟩,
    ⟨[[(1559458770907136, 0), (0, 3930469650785597), (52878953078, 0), (0, 748533), (84, 0)], [(0, 5898475924741206),
    (0, 247043632380), (7498565, 0), (0, 335)], [(3865686042636, 0), (0, 71668019), (6093, 0), (0, 1)], [(800582444,
    0), (5219, 0), (4, 0)]], 3, 4⟩, 72057594037927936, 53932194426, 25331901890, ⟨[[(9232787959676, 0), (3629401785,
    0), (1950754, 0), (832, 0)], [(0, 5169592398), (0, 8774587), (0, 9155), (0, 6)], [(9154890, 0), (25347, 0), (36,
    0)], [(0, 22583), (0, 80)]], 3, 4⟩, 17592186044416, 42035786,
    5170105848262618336778289247696076840703597636596320133797307870964698361454050169556218239322975288130258578130192951467586894,
    lc0⟩) (.leaf ⟨347, 16, 365, 260, 16, 2571, ⟨[[(0, 10142409529544704), (0, 2725503919208672), (47812386549, 0),
    (0, 213008), (0, 49)], [(19947928993337847, 0), (0, 1119751724642), (6287690, 0), (1596, 0)], [(10656777792559,
    0), (0, 107586869), (0, 12739), (2, 0)], [(2633913241, 0), (90921, 0), (0, 11)]], 3, 4⟩, ⟨[[(0,
    29703406137257984), (0, 3954815646571095), (53391837627, 0), (0, 766277), (87, 0)], [(0, 5589068665208709), (0,
    253921662902), (8059618, 0), (0, 383)], [(3981126636380, 0), (0, 71137818), (6617, 0), (0, 1)], [(813110707, 0),
    (7250, 0), (4, 0)]], 3, 4⟩, 72057594037927936, 43254706027, 24019637509, ⟨[[(9164218844315, 0), (3508599057, 0),
    (1830385, 0), (762, 0)], [(0, 5079157167), (0, 8367512), (0, 8499), (0, 5)], [(8812504, 0), (23758, 0), (33, 0)],
    [(0, 21858), (0, 74)]], 3, 4⟩, 17592186044416, 41058971,
    3872680883766426343286441645774694663869179186468972318060078209003285765818147104525568215489964277312504526880381752812047328,
    lc0⟩)))) (.sx (.sy (.sx (.leaf ⟨330, 16, 406, 243, 16, 2568, ⟨[[(0, 22124689703645184), (0, 2824821697326506),
    (51429740633, 0), (0, 466407), (0, 15)], [(18734635136830107, 0), (0, 1200446150526), (11419630, 0), (781, 0)],
    [(10682094178142, 0), (0, 157618895), (0, 5780), (2, 0)], [(2876033217, 0), (47694, 0), (0, 13)]], 3, 4⟩, ⟨[[(0,
    16038636135534592), (0, 3867272222894435), (51433871102, 0), (0, 574229), (73, 0)], [(0, 6662990186392075), (0,
    228995636363), (6348247, 0), (0, 80)], [(3640088427386, 0), (0, 68258493), (3910, 0), (0, 1)], [(780979416, 0),
    (7339, 0), (5, 0)]], 3, 4⟩, 72057594037927936, 81555814648, 26299607341, ⟨[[(9379069692414, 0), (3927658965, 0),
    (2311677, 0), (1090, 0)], [(0, 5370955768), (0, 9936659), (0, 11368), (0, 8)], [(10043041, 0), (30450, 0), (48,
    0)], [(0, 24664), (0, 99)]], 3, 4⟩, 17592186044416, 49866799,
    7634316299675316316607910990552586324635974168468149604346922979891224221013955386279874364327542620433760911996585859793136421,
    lc0⟩) (.leaf ⟨331, 16, 394, 240, 16, 2577, ⟨[[(0, 14264407526916096), (0, 2790524124817172), (50364289621, 0),
    (0, 416844), (0, 22)], [(19066519719919226, 0), (0, 1177546945502), (10545757, 0), (947, 0)], [(10720602656152,
    0), (0, 146346396), (0, 7156), (2, 0)], [(2830795587, 0), (58849, 0), (0, 12)]], 3, 4⟩, ⟨[[(0,
    12879684201349120), (0, 3890597545117441), (51888968241, 0), (0, 581153), (76, 0)], [(0, 6375332026568779), (0,
    235511981842), (6725460, 0), (0, 153)], [(3752422897208, 0), (0, 67528718), (4525, 0), (0, 1)], [(796772202, 0),
    (8135, 0), (5, 0)]], 3, 4⟩, 72057594037927936, 71983003106, 24592774113, ⟨[[(9306119428996, 0), (3791094242, 0),
    (2164520, 0), (992, 0)], [(0, 5277602102), (0, 9464851), (0, 10542), (0, 7)], [(9727945, 0), (28629, 0), (43,
    0)], [(0, 23883), (0, 93)]], 3, 4⟩, 17592186044416, 49139915,
    7530173056857323352894787490477823254321161228204376167072789802871804718111260031376524811469392096595743457365520282972475285,
    lc0⟩)) (.sx (.leaf ⟨317, 16, 415, 218, 16, 2593, ⟨[[(4945793988980736, 0), (0, 2835027066079926), (51836031700,
    0), (0, 493565), (0, 3)], [(18536982097715118, 0), (0, 1214836107406), (12568651, 0), (387, 0)],
    [(10836817900860, 0), (0, 165278427), (0, 2402), (2, 0)], [(2960997149, 0), (35796, 0), (0, 13)]], 3, 4⟩,
    ⟨[[(8457139946921984, 0), (0, 3853180178374547), (51170305149, 0), (0, 437609), (67, 0)], [(0, 6842322234648288),
    (0, 224825228702), (6357353, 0), (0, 6)], [(3641799309308, 0), (0, 65702591), (2401, 0), (0, 1)], [(793596909,
    0), (12692, 0), (6, 0)]], 3, 4⟩, 72057594037927936, 90511510513, 23632436876, ⟨[[(9379692953683, 0), (3963533654,
    0), (2409301, 0), (1191, 0)], [(0, 5386199080), (0, 10236122), (0, 12182), (0, 9)], [(10249591, 0), (32234, 0),
    (52, 0)], [(0, 25282), (0, 106)]], 3, 4⟩, 17592186044416, 59834465,
    7742088632992050703692819048504435722756918220913758932649284307317980203059391422085935768075987116836725404270441423514341801,
    lc0⟩) (.leaf ⟨319, 16, 403, 215, 16, 2602, ⟨[[(0, 24993220869529600), (0, 2802878436208598), (50844750756, 0),
    (0, 459541), (0, 11)], [(18900246095881149, 0), (0, 1192983515444), (11944278, 0), (565, 0)], [(10888792397036,
    0), (0, 155300172), (0, 3872), (2, 0)], [(2922582016, 0), (47935, 0), (0, 12)]], 3, 4⟩, ⟨[[(0, 2687468198254592),
    (0, 3876144902099193), (51620511649, 0), (0, 441410), (67, 0)], [(0, 6554859964523382), (0, 231075656827),
    (6611344, 0), (0, 102)], [(3755634508417, 0), (0, 64296915), (3109, 0), (0, 1)], [(809880404, 0), (13334, 0), (5,
    0)]], 3, 4⟩, 72057594037927936, 80596321762, 24283963426, ⟨[[(9304695207888, 0), (3819685849, 0), (2247955, 0),
    (1076, 0)], [(0, 5277186362), (0, 9700220), (0, 11220), (0, 8)], [(9882107, 0), (30109, 0), (47, 0)], [(0,
    24234), (0, 99)]], 3, 4⟩, 17592186044416, 57592217,
    7922225218711076878699213602339418302066817337463721419049421751210956025716384356581214523161067977035310934041806329470385365,
    lc0⟩))) (.sy (.sx (.leaf ⟨333, 16, 383, 237, 16, 2587, ⟨[[(0, 26849672235663360), (0, 2760938756443532),
    (49375596777, 0), (0, 362651), (0, 29)], [(19424217124038046, 0), (0, 1156295774036), (9605106, 0), (1107, 0)],
    [(10770131726643, 0), (0, 134239827), (0, 8424), (2, 0)], [(2784140941, 0), (70227, 0), (0, 11)]], 3, 4⟩,
    ⟨[[(8252926624571392, 0), (0, 3915743777219622), (52382248696, 0), (0, 591299), (78, 0)], [(0, 6079389751446376),
    (0, 242074808085), (7157943, 0), (0, 222)], [(3868550091325, 0), (0, 66676985), (5132, 0), (0, 1)], [(812105059,
    0), (9618, 0), (5, 0)]], 3, 4⟩, 72057594037927936, 63191804673, 24835898115, ⟨[[(9231953503559, 0), (3655149439,
    0), (2021705, 0), (901, 0)], [(0, 5171775786), (0, 8980168), (0, 9729), (0, 6)], [(9359119, 0), (26704, 0), (39,
    0)], [(0, 22955), (0, 86)]], 3, 4⟩, 17592186044416, 47621410,
    7033025756684992444175123151185479618406179758038692840305675569989637032920163860222721776288274232861888705049389186404846657,
    lc0⟩) (.leaf ⟨335, 16, 373, 234, 16, 2596, ⟨[[(16450455821877248, 0), (0, 2736373310520028), (48464003533, 0),
    (0, 304023), (0, 36)], [(19812522238777100, 0), (0, 1136701864154), (8606557, 0), (1264, 0)], [(10832168289019,
    0), (0, 121285648), (0, 9593), (2, 0)], [(2735436390, 0), (81676, 0), (0, 11)]], 3, 4⟩, ⟨[[(34552210803570688,
    0), (0, 3939686178332382), (52875591852, 0), (0, 604049), (80, 0)], [(0, 5770118334848290), (0, 248482893048),
    (7640078, 0), (0, 286)], [(3985390762196, 0), (0, 65570305), (5737, 0), (0, 1)], [(825760826, 0), (11683, 0), (5,
    0)]], 3, 4⟩, 72057594037927936, 52153539015, 22457283501, ⟨[[(9162721132702, 0), (3532761489, 0), (1896647, 0),
    (825, 0)], [(0, 5074778451), (0, 8550003), (0, 9028), (0, 6)], [(9013850, 0), (24994, 0), (36, 0)], [(0, 22133),
    (0, 80)]], 3, 4⟩, 17592186044416, 46311511,
    6158747726716983630423986657103953892831503123717629230718630215998255512121767213330510042177128301222814024034809535339509761,
    lc0⟩)) (.sx (.leaf ⟨321, 16, 392, 212, 16, 2612, ⟨[[(0, 4807811088347136), (0, 2775373506506472), (49937392509,
    0), (0, 420023), (0, 19)], [(19289168702149662, 0), (0, 1172839254462), (11240721, 0), (735, 0)],
    [(10952359564922, 0), (0, 144330945), (0, 5213), (2, 0)], [(2882728536, 0), (60334, 0), (0, 11)]], 3, 4⟩,
    ⟨[[(3363985695944704, 0), (0, 3900897011522860), (52103552502, 0), (0, 449307), (67, 0)], [(0, 6259040092609498),
    (0, 237312467038), (6927739, 0), (0, 192)], [(3873337450378, 0), (0, 62777825), (3806, 0), (0, 1)], [(826068078,
    0), (14771, 0), (5, 0)]], 3, 4⟩, 72057594037927936, 71918326652, 25087067461, ⟨[[(9233636910809, 0), (3686070288,
    0), (2102404, 0), (977, 0)], [(0, 5174949336), (0, 9210781), (0, 10372), (0, 7)], [(9534517, 0), (28167, 0), (43,
    0)], [(0, 23292), (0, 92)]], 3, 4⟩, 17592186044416, 55428654,
    7935668372468811831668465511872433468286167446253349773894744548979524843785025654870034770735557035324050387873895699960881826,
    lc0⟩) (.leaf ⟨323, 16, 381, 209, 16, 2622, ⟨[[(8539558619484160, 0), (0, 2745612956401632), (48985211077, 0), (0,
    374365), (0, 27)], [(19656959262883282, 0), (0, 1151376804892), (10442625, 0), (899, 0)], [(11000119491492, 0),
    (0, 132017616), (0, 6416), (2, 0)], [(2833244015, 0), (72606, 0), (0, 10)]], 3, 4⟩, ⟨[[(21068647918376960, 0),
    (0, 3925946846452504), (52602249143, 0), (0, 460953), (67, 0)], [(0, 5951986682641502), (0, 243432718631),
    (7303810, 0), (0, 279)], [(3993419544640, 0), (0, 61026932), (4502, 0), (0, 1)], [(841199338, 0), (16877, 0), (5,
    0)]], 3, 4⟩, 72057594037927936, 60106637368, 27002969524, ⟨[[(9162633393806, 0), (3556546609, 0), (1964867, 0),
    (889, 0)], [(0, 5077566970), (0, 8747899), (0, 9590), (0, 6)], [(9198415, 0), (26328, 0), (39, 0)], [(0, 22439),
    (0, 86)]], 3, 4⟩, 17592186044416, 53607658,
    7585570757793994789446043817146678126145835519923551493194079577731911661037099785938323969719181674680325867730440917352832887,
    lc0⟩))))
theorem c60 : checkR job con0 true ⟨7, 9, 7, 9, 13, 17⟩ 1 9016 t60 1347 21 640 15749 251 16000 = true := by decide +kernel

end PyX.Kron.V3a
