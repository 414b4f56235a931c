import Verif.Lemmas.T1phJob

/-!
# Temperature from pressure and enthalpy in region 1, part D of the certificate
-/

namespace PyX.Kron.T1ph

set_option Elab.async false

def t37 : CTree :=
  .sy (.sx (.leaf ⟨213, 16, 9, 1407, 16, 918, ⟨[[(0, 1375357104952576)], [(0, 1046875807131107)]], 2, 3⟩,
    ⟨[[(1377940259053568, 0), (386094435361840, 0), (0, 1720713034), (7105617, 0)], [(24949535179246, 0),
    (47003734842, 0), (23665656, 0), (11547, 0)], [(15738596810, 0), (23203302, 0), (20621, 0), (15, 0)]], 2, 3⟩,
    4503599627370496, 154, 71555514778450, ⟨[[(630162144189287, 0), (573746001376, 0), (0, 503249924), (0, 1016673)],
    [(13484800819, 0), (270514995, 0), (1160650, 0), (4887, 0)], [(0, 29592535), (0, 352063), (0, 2738), (0, 17)]],
    2, 3⟩, 1099511627776, 356484984,
    9840908272825581228309226106400931539540651858387558602720603491889943003076529690133386, lc0⟩) (.sy (.leaf ⟨184,
    16, 9, 2702, 16, 1771, ⟨[[(1510183618796800, 0)], [(0, 1046875807131107)]], 2, 3⟩, ⟨[[(0, 1453608612837376),
    (378248871269860, 0), (0, 332068687), (1925844, 0)], [(47514213853858, 0), (46777306815, 0), (12402845, 0),
    (3224, 0)], [(30629874554, 0), (23554536, 0), (11085, 0), (4, 0)]], 2, 3⟩, 4503599627370496, 68, 10262394708418,
    ⟨[[(626095176046806, 0), (296686537355, 0), (0, 139015445), (0, 155067)], [(13468472967, 0), (143211175, 0),
    (330152, 0), (751, 0)], [(0, 30315083), (0, 194499), (0, 811), (0, 3)]], 2, 3⟩, 1099511627776, 191897590,
    9739052365026222818319284160474192287635102531175392374422313299377922044758118252576117, lc0⟩) (.leaf ⟨184, 16,
    9, 2679, 16, 1737, ⟨[[(1510183618796800, 0)], [(0, 1046875807131107)]], 2, 3⟩, ⟨[[(0, 1569966219749376),
    (371498826948582, 0), (1859165580, 0), (2299230, 0)], [(64298901849270, 0), (55713380529, 0), (16185083, 0),
    (4610, 0)], [(39665979765, 0), (32565640, 0), (16670, 0), (7, 0)]], 2, 3⟩, 4503599627370496, 68, 21412194384667,
    ⟨[[(634704678464077, 0), (293719906396, 0), (0, 159685686), (0, 186567)], [(17990994123, 0), (168005842, 0),
    (421841, 0), (1031, 0)], [(0, 36817474), (0, 254847), (0, 1129), (0, 4)]], 2, 3⟩, 1099511627776, 260766425,
    17943859345510430442009127775144192389816019492881278440562473989298301839050602370588439, lc0⟩))) (.sx (.sy
    (.leaf ⟨213, 16, 9, 2716, 16, 1744, ⟨[[(0, 1375357104952576)], [(0, 1046875807131107)]], 2, 3⟩,
    ⟨[[(1511340749031424, 0), (367412906430153, 0), (2224342434, 0), (2223370, 0)], [(74389976529278, 0),
    (59159930700, 0), (16897631, 0), (4652, 0)], [(44783172695, 0), (36062956, 0), (17916, 0), (7, 0)]], 2, 3⟩,
    4503599627370496, 154, 25818881717000, ⟨[[(642880213381837, 0), (289145070734, 0), (0, 160155493), (0, 173423)],
    [(20265783459, 0), (174548095, 0), (433069, 0), (1038, 0)], [(0, 39187216), (0, 266653), (0, 1163), (0, 4)]], 2,
    3⟩, 1099511627776, 279993985,
    10478938683551714692940090341922850031258829207890217165390249434230590183718053339827574, lc0⟩) (.leaf ⟨213, 16,
    9, 2663, 16, 1692, ⟨[[(0, 1375357104952576)], [(0, 1046875807131107)]], 2, 3⟩, ⟨[[(570462703620096, 0),
    (358822142575014, 0), (4692718587, 0), (2706536, 0)], [(94482490532851, 0), (70767660643, 0), (22196819, 0),
    (6729, 0)], [(58177004061, 0), (50342983, 0), (27420, 0), (13, 0)]], 2, 3⟩, 4503599627370496, 154,
    57929738016465, ⟨[[(651082129515773, 0), (288047511293, 0), (0, 186928867), (0, 209988)], [(25686852064, 0),
    (208574092, 0), (568881, 0), (1471, 0)], [(0, 47945676), (0, 355042), (0, 1651), (0, 6)]], 2, 3⟩, 1099511627776,
    381337352, 11841050058453163605258150241113127542149547213292402452077049743047015016069073940107080, lc0⟩)) (.sy
    (.leaf ⟨184, 16, 9, 2631, 16, 1688, ⟨[[(1510183618796800, 0)], [(0, 1046875807131107)]], 2, 3⟩,
    ⟨[[(974141615695872, 0), (363170332365671, 0), (4443659648, 0), (2829186, 0)], [(83574624750164, 0),
    (67046308004, 0), (21545841, 0), (6802, 0)], [(51950602985, 0), (46072733, 0), (25922, 0), (12, 0)]], 2, 3⟩,
    4503599627370496, 68, 48441954814193, ⟨[[(642905674524551, 0), (292437487034, 0), (0, 187015444), (0, 230706)],
    [(23122730184, 0), (200314691, 0), (552768, 0), (1457, 0)], [(0, 45052046), (0, 338729), (0, 1598), (0, 6)]], 2,
    3⟩, 1099511627776, 355563666,
    23300174710826347131464141723799735661350672905330310261582015949496451004951601208953118, lc0⟩) (.leaf ⟨184, 16,
    9, 2559, 16, 1624, ⟨[[(1510183618796800, 0)], [(0, 1046875807131107)]], 2, 3⟩, ⟨[[(0, 1114771712071680),
    (353489838766570, 0), (7561292165, 0), (3603356, 0)], [(105836812126167, 0), (81825908626, 0), (29430250, 0),
    (10388, 0)], [(69131753296, 0), (67033669, 0), (41550, 0), (21, 0)]], 2, 3⟩, 4503599627370496, 68,
    114543386644495, ⟨[[(651180348363242, 0), (292121023829, 0), (0, 225116716), (0, 295922)], [(29398767322, 0),
    (245508593, 0), (753965, 0), (2155, 0)], [(0, 56299299), (0, 464121), (0, 2342), (0, 9)]], 2, 3⟩, 1099511627776,
    494271660, 24656344505509103459451144852206696490061061916484104555020973433327261211734203259294981, lc0⟩)))
theorem c37 : checkC job ⟨6, 8, 5, 6, 9, 13⟩ 1 40 B1.zlims t37 1845 61 320 3259 175 3792 = true := by decide +kernel

def t38 : CTree :=
  .sy (.sx (.sy (.leaf ⟨156, 16, 9, 2640, 16, 1730, ⟨[[(0, 107875284824320)], [(0, 1046875807131107)]], 2, 3⟩,
    ⟨[[(2218174484721664, 0), (375435939882790, 0), (1333651247, 0), (2338330, 0)], [(54276330056195, 0),
    (51982852894, 0), (15236897, 0), (4441, 0)], [(34717739233, 0), (28865760, 0), (15065, 0), (7, 0)]], 2, 3⟩,
    4503599627370496, 59, 17236599009903, ⟨[[(625859122094361, 0), (299275130111, 0), (0, 156403876), (0, 191854)],
    [(15343636892, 0), (159149404, 0), (400572, 0), (990, 0)], [(0, 33734877), (0, 235361), (0, 1053), (0, 4)]], 2,
    3⟩, 1099511627776, 232496623,
    16123084812365257545194470673589492846662980345503457426116625265041577804883373017765550, lc0⟩) (.leaf ⟨156, 16,
    9, 2600, 16, 1685, ⟨[[(0, 107875284824320)], [(0, 1046875807131107)]], 2, 3⟩, ⟨[[(1287113893482496, 0),
    (367484511314890, 0), (3992782768, 0), (2897898, 0)], [(72609763942075, 0), (62856376096, 0), (20494054, 0),
    (6646, 0)], [(45770059677, 0), (41247420, 0), (23688, 0), (11, 0)]], 2, 3⟩, 4503599627370496, 59, 39117979332588,
    ⟨[[(634528043109102, 0), (297275591360, 0), (0, 184122986), (0, 241093)], [(20402563583, 0), (190513230, 0),
    (528285, 0), (1410, 0)], [(0, 41675504), (0, 316049), (0, 1506), (0, 5)]], 2, 3⟩, 1099511627776, 321699354,
    27955428224673566351048072409477535525231857315171163355108402490843882035049099370260350, lc0⟩)) (.sy (.leaf
    ⟨128, 16, 9, 2570, 16, 1683, ⟨[[(0, 1725934188445568)], [(0, 1046875807131107)]], 2, 3⟩, ⟨[[(1372750084331520,
    0), (371860406981757, 0), (3352168672, 0), (2913314, 0)], [(61746483149515, 0), (58350557218, 0), (19118423, 0),
    (6294, 0)], [(39814715149, 0), (36169040, 0), (20987, 0), (10, 0)]], 2, 3⟩, 4503599627370496, 24, 30632353780948,
    ⟨[[(625923220068728, 0), (302236039559, 0), (0, 179304113), (0, 244228)], [(17647609622, 0), (180035158, 0),
    (499344, 0), (1344, 0)], [(0, 38127239), (0, 290294), (0, 1392), (0, 5)]], 2, 3⟩, 1099511627776, 284863146,
    22422418628555585975475206032790149818899245582868327985041869107420533654546603606729747, lc0⟩) (.leaf ⟨128, 16,
    9, 2513, 16, 1627, ⟨[[(0, 1725934188445568)], [(0, 1046875807131107)]], 2, 3⟩, ⟨[[(0, 741335304878080),
    (362894052514236, 0), (6659695868, 0), (3770882, 0)], [(81993380403558, 0), (71974901180, 0), (26635767, 0),
    (9786, 0)], [(53694663420, 0), (53508462, 0), (33997, 0), (17, 0)]], 2, 3⟩, 4503599627370496, 24, 73618868783687,
    ⟨[[(634675254110574, 0), (300998569182, 0), (0, 217099214), (0, 321651)], [(23429383835, 0), (220709621, 0),
    (681990, 0), (1990, 0)], [(0, 48039913), (0, 400303), (0, 2048), (0, 8)]], 2, 3⟩, 1099511627776, 402748422,
    37576713505817551338905770994792532710783138744978495151843708978736204115619159982078918, lc0⟩))) (.sx (.sy
    (.leaf ⟨156, 16, 9, 2534, 16, 1624, ⟨[[(0, 107875284824320)], [(0, 1046875807131107)]], 2, 3⟩, ⟨[[(0,
    858398013861888), (358002639249678, 0), (7233870534, 0), (3727776, 0)], [(93913368603661, 0), (77168954286, 0),
    (28312467, 0), (10257, 0)], [(61363056209, 0), (60600490, 0), (38210, 0), (19, 0)]], 2, 3⟩, 4503599627370496, 59,
    93377277101695, ⟨[[(643039834163066, 0), (296618720314, 0), (0, 222808377), (0, 315098)], [(26449448961, 0),
    (233775178, 0), (722318, 0), (2091, 0)], [(0, 52324433), (0, 434905), (0, 2215), (0, 8)]], 2, 3⟩, 1099511627776,
    450966574, 36262273315210774231658344861146029282556231086171756653885340092484714054849824401215411, lc0⟩) (.sx
    (.leaf ⟨344, 16, 19, 2632, 16, 1669, ⟨[[(1126638778656512, 0)], [(0, 1105035574193947)]], 2, 3⟩,
    ⟨[[(17628522313728, 0), (371610487291818, 0), (10941352865, 0), (4887717, 0)], [(61497502073883, 0),
    (49267089550, 0), (19801037, 0), (7778, 0)], [(21266810592, 0), (22523474, 0), (15168, 0), (8, 0)]], 2, 3⟩,
    4503599627370496, 46, 19100206314622, ⟨[[(651118195038852, 0), (278042286031, 0), (0, 231217942), (0, 321767)],
    [(15367546351, 0), (124479603, 0), (393371, 0), (1137, 0)], [(0, 14267838), (0, 119588), (0, 602), (0, 2)]], 2,
    3⟩, 1099511627776, 89777717,
    29888092204538881968570938085619716058946109124480077576417551339535686585484890203518970, lc0⟩) (.leaf ⟨314, 16,
    19, 2572, 16, 1630, ⟨[[(1420287548109824, 0)], [(0, 1105035574193947)]], 2, 3⟩, ⟨[[(899779758143488, 0),
    (369145771472636, 0), (13284311699, 0), (5832979, 0)], [(65467831008223, 0), (54016518032, 0), (23429318, 0),
    (9900, 0)], [(23642420521, 0), (26542671, 0), (18939, 0), (11, 0)]], 2, 3⟩, 4503599627370496, 81, 27938483725747,
    ⟨[[(651065327271580, 0), (279987080768, 0), (0, 257116945), (0, 387693)], [(16459527273, 0), (136546008, 0),
    (458697, 0), (1390, 0)], [(0, 15547046), (0, 137186), (0, 717), (0, 3)]], 2, 3⟩, 1099511627776, 107631859,
    36367003122496677853169728914448327966718920588087145011192512382623889594331657733775236, lc0⟩))) (.sy (.sx
    (.leaf ⟨284, 16, 19, 2597, 16, 1663, ⟨[[(1713936317563392, 0)], [(0, 1105035574193947)]], 2, 3⟩, ⟨[[(0,
    1190084180889600), (374395999084824, 0), (10426344259, 0), (4967594, 0)], [(54346940210857, 0), (45961929304, 0),
    (18724412, 0), (7465, 0)], [(18637210238, 0), (19959482, 0), (13545, 0), (7, 0)]], 2, 3⟩, 4503599627370496, 142,
    19217182966933, ⟨[[(643056659180827, 0), (283569985536, 0), (0, 230499652), (0, 343505)], [(13902898839, 0),
    (119037828, 0), (380113, 0), (1116, 0)], [(0, 13240997), (0, 112237), (0, 572), (0, 2)]], 2, 3⟩, 1099511627776,
    89677362, 41356262505923953341068175941172157526016043783290248742162454878359493471761230972870816, lc0⟩) (.leaf
    ⟨254, 16, 19, 2544, 16, 1628, ⟨[[(2007585087016704, 0)], [(0, 1105035574193947)]], 2, 3⟩, ⟨[[(0,
    1855045310314496), (372314101906487, 0), (12656294709, 0), (5873875, 0)], [(57934964273165, 0), (50202645900, 0),
    (21963052, 0), (9376, 0)], [(20608614062, 0), (23284194, 0), (16703, 0), (10, 0)]], 2, 3⟩, 4503599627370496, 62,
    28047577907887, ⟨[[(643100505151228, 0), (285070170705, 0), (0, 254992179), (0, 408406)], [(14940230274, 0),
    (130260418, 0), (441102, 0), (1354, 0)], [(0, 14405142), (0, 128158), (0, 677), (0, 3)]], 2, 3⟩, 1099511627776,
    107123379, 46857303851932244452227518507137066319840928225861510737197015929845296376340675443541629, lc0⟩)) (.sx
    (.leaf ⟨284, 16, 19, 2509, 16, 1589, ⟨[[(1713936317563392, 0)], [(0, 1105035574193947)]], 2, 3⟩,
    ⟨[[(1391113721452544, 0), (366696181866913, 0), (16037517283, 0), (7049843, 0)], [(69844842398708, 0),
    (59632695098, 0), (28010681, 0), (12939, 0)], [(26438070195, 0), (31551264, 0), (24358, 0), (17, 0)]], 2, 3⟩,
    4503599627370496, 142, 41274417254738, ⟨[[(651035706940204, 0), (281906052784, 0), (0, 288125042), (0, 471437)],
    [(17681611479, 0), (150752433, 0), (539192, 0), (1713, 0)], [(0, 17008551), (0, 158070), (0, 859), (0, 3)]], 2,
    3⟩, 1099511627776, 129862360,
    42647422416267876372558836809281249127515025044268935254578541904250737942769362823207610, lc0⟩) (.sy (.leaf
    ⟨254, 16, 19, 4671, 16, 2964, ⟨[[(2007585087016704, 0)], [(0, 1105035574193947)]], 2, 3⟩, ⟨[[(0,
    613133955735552), (346201828034038, 0), (8232772825, 0), (1843819, 0)], [(132574983670833, 0), (58273908150, 0),
    (14309914, 0), (3512, 0)], [(51142487831, 0), (31616896, 0), (12941, 0), (5, 0)]], 2, 3⟩, 4503599627370496, 62,
    14058634240204, ⟨[[(649130132478784, 0), (150202133586, 0), (0, 85513328), (0, 78300)], [(17971535184, 0),
    (83126860, 0), (162742, 0), (281, 0)], [(0, 17513489), (0, 88548), (0, 260), (0, 1)]], 2, 3⟩, 1099511627776,
    72827092, 45663861528107624682674298058749748931450943762966886561350074193286324737142999392196552, lc0⟩) (.leaf
    ⟨254, 16, 19, 4519, 16, 2851, ⟨[[(2007585087016704, 0)], [(0, 1105035574193947)]], 2, 3⟩, ⟨[[(0,
    432306249834496), (339254346940256, 0), (10030323348, 0), (2282645, 0)], [(148985318984963, 0), (67110260619, 0),
    (18132055, 0), (5118, 0)], [(61603679054, 0), (41322052, 0), (19482, 0), (9, 0)]], 2, 3⟩, 4503599627370496, 62,
    21259234410219, ⟨[[(653137887206626, 0), (151149068264, 0), (0, 99674475), (0, 97496)], [(20350679199, 0),
    (96274838, 0), (202633, 0), (369, 0)], [(0, 20116537), (0, 108023), (0, 332), (0, 1)]], 2, 3⟩, 1099511627776,
    87663677, 45549243799505782067997221667287448783586033428736766024166253090706614588336110164192867, lc0⟩)))))
theorem c38 : checkC job ⟨6, 8, 5, 6, 9, 13⟩ 1 40 B1.zlims t38 1967 61 320 3259 175 3792 = true := by decide +kernel

def t39 : CTree :=
  .sx (.sy (.leaf ⟨213, 16, 9, 2585, 16, 1625, ⟨[[(0, 1375357104952576)], [(0, 1046875807131107)]], 2, 3⟩, ⟨[[(0,
    1789155853967360), (348810736268991, 0), (7624028858, 0), (3395154, 0)], [(117450384968083, 0), (85649050297, 0),
    (29841863, 0), (10113, 0)], [(76621170040, 0), (72196960, 0), (43473, 0), (22, 0)]], 2, 3⟩, 4503599627370496,
    154, 135206588582153, ⟨[[(659157241979630, 0), (288244208896, 0), (0, 223159837), (0, 260809)], [(32149705596,
    0), (255144744, 0), (773525, 0), (2171, 0)], [(0, 59587060), (0, 484204), (0, 2413), (0, 9)]], 2, 3⟩,
    1099511627776, 525278428,
    12288463567059255084780869102954737476422552120834238099867693388016428117450684250071540, lc0⟩) (.sx (.leaf
    ⟨464, 16, 19, 2714, 16, 1689, ⟨[[(0, 47956299157248)], [(0, 1105035574193947)]], 2, 3⟩, ⟨[[(0, 992670700390400),
    (366121964481681, 0), (10950302476, 0), (4347722, 0)], [(75455732880727, 0), (54268457309, 0), (20418913, 0),
    (7488, 0)], [(26260872242, 0), (26343955, 0), (16970, 0), (9, 0)]], 2, 3⟩, 4503599627370496, 193, 17609203673013,
    ⟨[[(666804447072922, 0), (267493935317, 0), (0, 220373229), (0, 235302)], [(18193111435, 0), (133135462, 0),
    (405811, 0), (1121, 0)], [(0, 16022516), (0, 129444), (0, 630), (0, 2)]], 2, 3⟩, 1099511627776, 80874576,
    14142467530781570126493866280326909131522182433892858206239351187118585898105127045917913, lc0⟩) (.leaf ⟨434, 16,
    19, 2647, 16, 1646, ⟨[[(245692470296320, 0)], [(0, 1105035574193946)]], 2, 3⟩, ⟨[[(0, 1033538107408384),
    (363663173800228, 0), (13369614746, 0), (5272753, 0)], [(80235212308292, 0), (59853610935, 0), (24546685, 0),
    (9825, 0)], [(29469945684, 0), (31692612, 0), (21830, 0), (12, 0)]], 2, 3⟩, 4503599627370496, 45, 25852142394710,
    ⟨[[(666809058326434, 0), (269227132516, 0), (0, 247324502), (0, 294818)], [(19498316389, 0), (147000254, 0),
    (478206, 0), (1391, 0)], [(0, 17621144), (0, 150640), (0, 764), (0, 3)]], 2, 3⟩, 1099511627776, 98366336,
    9386030792585369103604275512547680907782802669138565652842759368570819596707183297095380, lc0⟩))) (.sy (.sx
    (.leaf ⟨404, 16, 19, 2670, 16, 1677, ⟨[[(539341239749632, 0)], [(0, 1105035574193947)]], 2, 3⟩, ⟨[[(0,
    319872028897280), (368746091347221, 0), (11113419314, 0), (4676926, 0)], [(68547841261885, 0), (52060068379, 0),
    (20384174, 0), (7795, 0)], [(23839375660, 0), (24716244, 0), (16371, 0), (9, 0)]], 2, 3⟩, 4503599627370496, 97,
    18531578783822, ⟨[[(659055784551072, 0), (272690455697, 0), (0, 228324306), (0, 286761)], [(16812170349, 0),
    (129320069, 0), (402587, 0), (1140, 0)], [(0, 15213444), (0, 125549), (0, 623), (0, 2)]], 2, 3⟩, 1099511627776,
    87021218, 16009228742098383590752183310706699602910467091767124524196429303515116441813018175115723, lc0⟩) (.leaf
    ⟨374, 16, 19, 2607, 16, 1636, ⟨[[(832990009202944, 0)], [(0, 1105035574193947)]], 2, 3⟩, ⟨[[(0,
    2047498840313856), (366310620810857, 0), (13527286573, 0), (5632246, 0)], [(72946440413820, 0), (57294657220, 0),
    (24332933, 0), (10068, 0)], [(26648506236, 0), (29443473, 0), (20729, 0), (12, 0)]], 2, 3⟩, 4503599627370496,
    177, 27155438257447, ⟨[[(659163288106659, 0), (274268991707, 0), (0, 255605220), (0, 351923)], [(18082893200, 0),
    (142826345, 0), (474169, 0), (1412, 0)], [(0, 16730899), (0, 145844), (0, 753), (0, 3)]], 2, 3⟩, 1099511627776,
    105550500, 23499526768777361008812265869349052100009222134847747933144540172781715398250114311034232, lc0⟩)) (.sx
    (.leaf ⟨404, 16, 19, 2572, 16, 1598, ⟨[[(539341239749632, 0)], [(0, 1105035574193947)]], 2, 3⟩, ⟨[[(0,
    918664869730304), (360640627984739, 0), (16235151061, 0), (6484631, 0)], [(85427302630679, 0), (66504436739, 0),
    (29830552, 0), (13085, 0)], [(33300178376, 0), (38407058, 0), (28453, 0), (18, 0)]], 2, 3⟩, 4503599627370496, 97,
    38220934719501, ⟨[[(666803744824461, 0), (271401794910, 0), (0, 280833529), (0, 374106)], [(20954532478, 0),
    (163707157, 0), (570406, 0), (1752, 0)], [(0, 19461726), (0, 176427), (0, 935), (0, 3)]], 2, 3⟩, 1099511627776,
    121179827, 10910675109069470508446638031950135204819477792981071029983768791568491429732008843591882, lc0⟩)
    (.leaf ⟨374, 16, 19, 2490, 16, 1546, ⟨[[(832990009202944, 0)], [(0, 1105035574193947)]], 2, 3⟩,
    ⟨[[(2068501808762880, 0), (357353321686344, 0), (19685494228, 0), (8120124, 0)], [(91177105514337, 0),
    (74560311247, 0), (36811657, 0), (18070, 0)], [(37925353541, 0), (47168652, 0), (38617, 0), (29, 0)]], 2, 3⟩,
    4503599627370496, 177, 57097328235133, ⟨[[(666622691626456, 0), (274197835635, 0), (0, 321685989), (0, 478995)],
    [(22479269435, 0), (183052856, 0), (684241, 0), (2220, 0)], [(0, 21461490), (0, 206478), (0, 1146), (0, 4)]], 2,
    3⟩, 1099511627776, 149882358,
    17569063916710164046319560873439139631706728091915436397952611086840838438586897691835694, lc0⟩)))
theorem c39 : checkC job ⟨6, 8, 5, 6, 9, 13⟩ 1 40 B1.zlims t39 1845 61 320 7043 175 7584 = true := by decide +kernel

def t40 : CTree :=
  .sx (.sy (.sx (.leaf ⟨464, 16, 19, 2614, 16, 1610, ⟨[[(0, 47956299157248)], [(0, 1105035574193947)]], 2, 3⟩,
    ⟨[[(1336614312192000, 0), (358015044652963, 0), (15634388798, 0), (5912146, 0)], [(92767186663117, 0),
    (68509567847, 0), (29380558, 0), (12353, 0)], [(36238975476, 0), (40408741, 0), (29033, 0), (17, 0)]], 2, 3⟩,
    4503599627370496, 193, 35719381959540, ⟨[[(674183608238081, 0), (266947273822, 0), (0, 265123831), (0, 286408)],
    [(22307437172, 0), (166823028, 0), (566654, 0), (1695, 0)], [(0, 20237846), (0, 179259), (0, 932), (0, 3)]], 2,
    3⟩, 1099511627776, 108121664,
    15913491913639690839850127701308769086767513131568909251676906031567820087098475676140929, lc0⟩) (.leaf ⟨434, 16,
    19, 2528, 16, 1555, ⟨[[(245692470296320, 0)], [(0, 1105035574193946)]], 2, 3⟩, ⟨[[(0, 2080550656036864),
    (354488359319373, 0), (19029015592, 0), (7456016, 0)], [(98893225753455, 0), (76958387934, 0), (36482842, 0),
    (17098, 0)], [(41455015301, 0), (49997970, 0), (39284, 0), (27, 0)]], 2, 3⟩, 4503599627370496, 45,
    53277415661988, ⟨[[(674386250874034, 0), (269020708540, 0), (0, 307127207), (0, 381528)], [(24189443794, 0),
    (188982701, 0), (692545, 0), (2198, 0)], [(0, 22693230), (0, 214431), (0, 1171), (0, 4)]], 2, 3⟩, 1099511627776,
    136252510, 10655141783115471616998511653275465106169361720977552111543866602654206671322581380921997, lc0⟩)) (.sx
    (.leaf ⟨464, 16, 19, 2475, 16, 1508, ⟨[[(0, 47956299157248)], [(0, 1105035574193947)]], 2, 3⟩,
    ⟨[[(846903349391360, 0), (347930340825586, 0), (21871738417, 0), (8563288, 0)], [(113303865823803, 0),
    (88732507651, 0), (44533362, 0), (22455, 0)], [(51391506013, 0), (64984948, 0), (54515, 0), (41, 0)]], 2, 3⟩,
    4503599627370496, 193, 73636206350285, ⟨[[(681546252360833, 0), (268173093250, 0), (0, 330451462), (0, 356928)],
    [(27545468220, 0), (217307790, 0), (836491, 0), (2746, 0)], [(0, 26166883), (0, 257728), (0, 1451), (0, 6)]], 2,
    3⟩, 1099511627776, 146189426,
    41778849579399341950119008369432973366612333237635645686576312982412271233477895219936460, lc0⟩) (.leaf ⟨434, 16,
    19, 2362, 16, 1437, ⟨[[(245692470296320, 0)], [(0, 1105035574193946)]], 2, 3⟩, ⟨[[(0, 1130909430999040),
    (342887592227589, 0), (26922095380, 0), (11496150, 0)], [(121230717504844, 0), (102257859830, 0), (58501627, 0),
    (34791, 0)], [(60339388949, 0), (85033593, 0), (83344, 0), (76, 0)]], 2, 3⟩, 4503599627370496, 45,
    112125901491049, ⟨[[(681658679832560, 0), (271536041636, 0), (0, 398508256), (0, 517923)], [(30065875091, 0),
    (252571362, 0), (1062002, 0), (3740, 0)], [(0, 29708754), (0, 315485), (0, 1886), (0, 8)]], 2, 3⟩, 1099511627776,
    191727335, 31187031617509490262990392298245507505209763564955398189136179132119729959816977616151450, lc0⟩)))
    (.sy (.sx (.leaf ⟨404, 16, 19, 2431, 16, 1494, ⟨[[(539341239749632, 0)], [(0, 1105035574193947)]], 2, 3⟩,
    ⟨[[(453880810682368, 0), (350385686302642, 0), (23199572810, 0), (9635708, 0)], [(105668889632313, 0),
    (87383594543, 0), (46309893, 0), (24948, 0)], [(47878242558, 0), (63183209, 0), (56457, 0), (47, 0)]], 2, 3⟩,
    4503599627370496, 97, 80364293632925, ⟨[[(674231982791414, 0), (272342060894, 0), (0, 359744633), (0, 513956)],
    [(26072255475, 0), (214491368, 0), (849544, 0), (2868, 0)], [(0, 25271915), (0, 255123), (0, 1467), (0, 6)]], 2,
    3⟩, 1099511627776, 171964414,
    16997145501467263114431834693984124246150170267060856513689339641072495321643053901010779, lc0⟩) (.leaf ⟨374, 16,
    19, 2322, 16, 1425, ⟨[[(832990009202944, 0)], [(0, 1105035574193947)]], 2, 3⟩, ⟨[[(0, 1293478617733120),
    (345368494034764, 0), (28463100970, 0), (12942408, 0)], [(113131288302362, 0), (100622280699, 0), (61107069, 0),
    (39566, 0)], [(56089066957, 0), (83358294, 0), (89275, 0), (91, 0)]], 2, 3⟩, 4503599627370496, 177,
    122985922307743, ⟨[[(674334035710795, 0), (275727025902, 0), (0, 431868930), (0, 710396)], [(28460001792, 0),
    (248742284, 0), (1073944, 0), (3880, 0)], [(0, 28578552), (0, 310316), (0, 1892), (0, 8)]], 2, 3⟩, 1099511627776,
    226180318, 30788934618268055504635758057494935695237948721998448028234435997077048977600816146802518, lc0⟩)) (.sx
    (.sy (.leaf ⟨404, 16, 19, 4151, 16, 2529, ⟨[[(539341239749632, 0)], [(0, 1105035574193947)]], 2, 3⟩, ⟨[[(0,
    2062461917020160), (308818692116424, 0), (13826114531, 0), (3180986, 0)], [(224010076813200, 0), (100041128966,
    0), (31445414, 0), (10563, 0)], [(117545771552, 0), (90022474, 0), (49790, 0), (26, 0)]], 2, 3⟩,
    4503599627370496, 97, 72245702549019, ⟨[[(679836937345922, 0), (151456668556, 0), (0, 137456104), (0, 115392)],
    [(31028301099, 0), (150453251, 0), (368179, 0), (747, 0)], [(0, 31396680), (0, 192509), (0, 659), (0, 2)]], 2,
    3⟩, 1099511627776, 155613492,
    20429474155127365628191164368892902825010166586519985853668670358147896090185484986108404, lc0⟩) (.leaf ⟨404, 16,
    19, 3899, 16, 2362, ⟨[[(539341239749632, 0)], [(0, 1105035574193947)]], 2, 3⟩, ⟨[[(1182196531380224, 0),
    (298696513024672, 0), (16658385583, 0), (4279107, 0)], [(246002823269806, 0), (118353748173, 0), (43066265, 0),
    (16997, 0)], [(146136812745, 0), (127823212, 0), (82522, 0), (47, 0)]], 2, 3⟩, 4503599627370496, 97,
    110113597813578, ⟨[[(683343381831585, 0), (154986421587, 0), (0, 167223325), (0, 149117)], [(34806150835, 0),
    (181170269, 0), (487900, 0), (1071, 0)], [(0, 36344087), (0, 242471), (0, 892), (0, 2)]], 2, 3⟩, 1099511627776,
    187689586, 26359524091181637099518132690671311701127633121578701189800048004568895616921312326267339, lc0⟩)) (.sy
    (.leaf ⟨374, 16, 19, 3878, 16, 2359, ⟨[[(832990009202944, 0)], [(0, 1105035574193947)]], 2, 3⟩, ⟨[[(0,
    1816171033319424), (300886848527605, 0), (17335862679, 0), (4641273, 0)], [(239438720713942, 0), (118832622067,
    0), (45143407, 0), (18757, 0)], [(142849992597, 0), (130374921, 0), (88761, 0), (53, 0)]], 2, 3⟩,
    4503599627370496, 177, 106836286009834, ⟨[[(679819628145414, 0), (155253439454, 0), (0, 174520949), (0, 174945)],
    [(34070403659, 0), (180193993, 0), (490709, 0), (1088, 0)], [(0, 35840254), (0, 241113), (0, 893), (0, 2)]], 2,
    3⟩, 1099511627776, 186604462,
    41986298373537899269124808040493514186619615919761430262840847154247703599825401936639628, lc0⟩) (.sx (.leaf
    ⟨783, 16, 39, 4222, 16, 2554, ⟨[[(1914680752516096, 0)], [(0, 1134115457725366)]], 2, 3⟩, ⟨[[(0,
    254159360069632), (336002337779074, 0), (23169914548, 0), (6838398, 0)], [(149252423472402, 0), (79366689956, 0),
    (34035295, 0), (15630, 0)], [(50037691966, 0), (50987049, 0), (38036, 0), (24, 0)]], 2, 3⟩, 4503599627370496, 25,
    14564104133744, ⟨[[(683379620505380, 0), (137573455188, 0), (0, 155360638), (0, 140244)], [(18318143127, 0),
    (89493576, 0), (229251, 0), (472, 0)], [(0, 9619160), (0, 60361), (0, 207)]], 2, 3⟩, 1099511627776, 30759637,
    32775624536307437679679824888491624316035598869392888816958468724839412623684975822360393, lc0⟩) (.leaf ⟨753, 16,
    39, 4049, 16, 2447, ⟨[[(0, 1339416268863488)], [(0, 1134115457725366)]], 2, 3⟩, ⟨[[(481988783106048, 0),
    (332004495098442, 0), (26793864360, 0), (8764399, 0)], [(155817039578838, 0), (89862915466, 0), (43383519, 0),
    (21752, 0)], [(57622962113, 0), (65493138, 0), (52978, 0), (34, 0)]], 2, 3⟩, 4503599627370496, 230,
    19377008115330, ⟨[[(683364773655834, 0), (139347767052, 0), (0, 179005787), (0, 178223)], [(19290514556, 0),
    (99364354, 0), (270376, 0), (585, 0)], [(0, 10339041), (0, 68410), (0, 245), (0, 1)]], 2, 3⟩, 1099511627776,
    36124115, 44025957053517778631549098125681620955630527577270836749962396997385275073246612426854366, lc0⟩)))))
theorem c40 : checkC job ⟨6, 8, 5, 6, 9, 13⟩ 1 40 B1.zlims t40 1845 61 320 7393 175 7584 = true := by decide +kernel

def t41 : CTree :=
  .sx (.sy (.sx (.leaf ⟨344, 16, 19, 2537, 16, 1591, ⟨[[(1126638778656512, 0)], [(0, 1105035574193947)]], 2, 3⟩,
    ⟨[[(0, 625832955705344), (363489716517494, 0), (16371878523, 0), (6869650, 0)], [(77740245070824, 0),
    (63485670578, 0), (29338144, 0), (13275, 0)], [(29965610431, 0), (35335072, 0), (26818, 0), (18, 0)]], 2, 3⟩,
    4503599627370496, 46, 40151624875509, ⟨[[(659078570892054, 0), (276499582853, 0), (0, 288277242), (0, 435756)],
    [(19395122622, 0), (158239757, 0), (560918, 0), (1758, 0)], [(0, 18360343), (0, 169124), (0, 910), (0, 3)]], 2,
    3⟩, 1099511627776, 128641446,
    30922360393070370847366878054498763535099342088792667579771563509682132757566419013834737, lc0⟩) (.leaf ⟨314, 16,
    19, 2461, 16, 1542, ⟨[[(1420287548109824, 0)], [(0, 1105035574193947)]], 2, 3⟩, ⟨[[(0, 575012855410688),
    (360351443275644, 0), (19768909464, 0), (8530863, 0)], [(83005486799458, 0), (70902566170, 0), (35948162, 0),
    (18325, 0)], [(33927523658, 0), (43083759, 0), (36592, 0), (29, 0)]], 2, 3⟩, 4503599627370496, 81,
    60001353625492, ⟨[[(659076580653260, 0), (278827039440, 0), (0, 329192914), (0, 547613)], [(20916349538, 0),
    (177131864, 0), (672759, 0), (2222, 0)], [(0, 20282575), (0, 197861), (0, 1112), (0, 4)]], 2, 3⟩, 1099511627776,
    158827232, 38062846184361776935779909504902942421340411325891842693014390676618922540862680834246267, lc0⟩)) (.sx
    (.leaf ⟨344, 16, 19, 2400, 16, 1488, ⟨[[(1126638778656512, 0)], [(0, 1105035574193947)]], 2, 3⟩, ⟨[[(0,
    2107664026816512), (353440367179452, 0), (23903817564, 0), (10444100, 0)], [(97489436896420, 0), (84441950322,
    0), (46613714, 0), (26681, 0)], [(43604339445, 0), (59555589, 0), (56640, 0), (52, 0)]], 2, 3⟩, 4503599627370496,
    46, 86357247429944, ⟨[[(666876897201070, 0), (276427070575, 0), (0, 376953118), (0, 629674)], [(24527406809, 0),
    (209443879, 0), (846650, 0), (2917, 0)], [(0, 24151591), (0, 248010), (0, 1448), (0, 6)]], 2, 3⟩, 1099511627776,
    191580148, 23421693714441611971650207689783575307536723503936514294058091844444909281385237640854339, lc0⟩)
    (.leaf ⟨314, 16, 19, 2297, 16, 1423, ⟨[[(1420287548109824, 0)], [(0, 1105035574193947)]], 2, 3⟩,
    ⟨[[(1740577244418048, 0), (348796774827914, 0), (29259139287, 0), (14051357, 0)], [(104473849896795, 0),
    (97130937335, 0), (61866837, 0), (43239, 0)], [(51005826566, 0), (79398531, 0), (92285, 0), (103, 0)]], 2, 3⟩,
    4503599627370496, 81, 132651671594919, ⟨[[(666636175604792, 0), (280609877666, 0), (0, 446017928), (0, 837176)],
    [(26475935578, 0), (239230603, 0), (1047349, 0), (3843, 0)], [(0, 26822989), (0, 294622), (0, 1816), (0, 8)]], 2,
    3⟩, 1099511627776, 246936725,
    29530345690334917036584571392158457947056640205203792980236293781458774070032866550875230, lc0⟩))) (.sy (.sx (.sy
    (.leaf ⟨284, 16, 19, 4519, 16, 2837, ⟨[[(1713936317563392, 0)], [(0, 1105035574193947)]], 2, 3⟩, ⟨[[(0,
    1023782216499200), (336329940663480, 0), (10125908977, 0), (2260182, 0)], [(156575354366489, 0), (69248685762,
    0), (18589981, 0), (5165, 0)], [(65663597225, 0), (43780797, 0), (20281, 0), (9, 0)]], 2, 3⟩, 4503599627370496,
    142, 23547592168334, ⟨[[(657116069597924, 0), (150360726035, 0), (0, 100946014), (0, 96036)], [(21293739725, 0),
    (99297300, 0), (209296, 0), (381, 0)], [(0, 20956528), (0, 112725), (0, 347), (0, 1)]], 2, 3⟩, 1099511627776,
    92568457, 38956979296878791499718384981929732289692665279250420720381456276650120071611303057670642, lc0⟩) (.leaf
    ⟨284, 16, 19, 4335, 16, 2706, ⟨[[(1713936317563392, 0)], [(0, 1105035574193947)]], 2, 3⟩, ⟨[[(1494358252490752,
    0), (328432708852939, 0), (12278593794, 0), (2893315, 0)], [(174873415700045, 0), (80590812801, 0), (24345900,
    0), (8011, 0)], [(80068334104, 0), (59416599, 0), (32636, 0), (18, 0)]], 2, 3⟩, 4503599627370496, 142,
    36347489353283, ⟨[[(660935394694043, 0), (151957055305, 0), (0, 119562130), (0, 122123)], [(24008538072, 0),
    (116297814, 0), (265170, 0), (512, 0)], [(0, 24117335), (0, 138658), (0, 450), (0, 1)]], 2, 3⟩, 1099511627776,
    111648081, 32567901667991311105294375323850070484466618892122810964504878093328978712130901182637511, lc0⟩)) (.sy
    (.leaf ⟨254, 16, 19, 4340, 16, 2722, ⟨[[(2007585087016704, 0)], [(0, 1105035574193947)]], 2, 3⟩, ⟨[[(0,
    490556207751168), (331490654477011, 0), (12232223813, 0), (2941011, 0)], [(167027609588201, 0), (78313421254, 0),
    (23925901, 0), (8071, 0)], [(75354589090, 0), (56597221, 0), (31966, 0), (18, 0)]], 2, 3⟩, 4503599627370496, 62,
    33177714372715, ⟨[[(657097640691431, 0), (152515663439, 0), (0, 118378148), (0, 124623)], [(23070790187, 0),
    (113033359, 0), (257427, 0), (497, 0)], [(0, 23249264), (0, 133404), (0, 433), (0, 1)]], 2, 3⟩, 1099511627776,
    106390720, 41941522429028278409860732006840450872268115497528063211097895333483063333387839635018667, lc0⟩)
    (.leaf ⟨254, 16, 19, 4125, 16, 2572, ⟨[[(2007585087016704, 0)], [(0, 1105035574193947)]], 2, 3⟩,
    ⟨[[(1892967179988992, 0), (322464629122535, 0), (15058457685, 0), (4003865, 0)], [(186870705659399, 0),
    (93240660736, 0), (33425167, 0), (13697, 0)], [(94500378865, 0), (82694672, 0), (56505, 0), (36, 0)]], 2, 3⟩,
    4503599627370496, 62, 53406727076401, ⟨[[(660918151746302, 0), (154734813754, 0), (0, 143897419), (0, 164644)],
    [(26138220776, 0), (134649029, 0), (334683, 0), (692, 0)], [(0, 26960377), (0, 166726), (0, 575), (0, 1)]], 2,
    3⟩, 1099511627776, 130749569,
    33812523120274573538650624022973479436432147760781751603677163795016653544134626274601636, lc0⟩))) (.sx (.sy
    (.leaf ⟨284, 16, 19, 4118, 16, 2555, ⟨[[(1713936317563392, 0)], [(0, 1105035574193947)]], 2, 3⟩, ⟨[[(0,
    649869193150464), (319348649616170, 0), (15018447685, 0), (3898951, 0)], [(194937704250876, 0), (95552158751, 0),
    (33610615, 0), (13340, 0)], [(99874447188, 0), (85577223, 0), (56497, 0), (34, 0)]], 2, 3⟩, 4503599627370496,
    142, 57673395073372, ⟨[[(664857496741087, 0), (153978863406, 0), (0, 145546862), (0, 161378)], [(27269890971, 0),
    (139181152, 0), (346866, 0), (718, 0)], [(0, 28106739), (0, 174374), (0, 603), (0, 1)]], 2, 3⟩, 1099511627776,
    137858048, 23369104306403027577550769818410661763221269572365052332354534781704842882006751455814076, lc0⟩)
    (.leaf ⟨284, 16, 19, 3858, 16, 2379, ⟨[[(1713936317563392, 0)], [(0, 1105035574193947)]], 2, 3⟩, ⟨[[(0,
    1231108142147584), (308677041915470, 0), (18717281849, 0), (5584410, 0)], [(217108539588461, 0), (116549198515,
    0), (49398063, 0), (23347, 0)], [(129000341542, 0), (131826190, 0), (102432, 0), (67, 0)]], 2, 3⟩,
    4503599627370496, 142, 93550272340527, ⟨[[(668674485636457, 0), (157075586230, 0), (0, 182879397), (0, 223107)],
    [(31043907946, 0), (169997236, 0), (468867, 0), (1053, 0)], [(0, 32952838), (0, 223338), (0, 833), (0, 2)]], 2,
    3⟩, 1099511627776, 171635469,
    23412198972110307689699512737399829296708365714684698163379755380960132652438358867941650, lc0⟩)) (.sy (.leaf
    ⟨254, 16, 19, 3867, 16, 2396, ⟨[[(2007585087016704, 0)], [(0, 1105035574193947)]], 2, 3⟩, ⟨[[(0,
    505473429665792), (311805417336210, 0), (18925166691, 0), (5815739, 0)], [(208944833517639, 0), (114522443294,
    0), (49917005, 0), (24404, 0)], [(123175707167, 0), (129756053, 0), (104375, 0), (70, 0)]], 2, 3⟩,
    4503599627370496, 62, 88063708490092, ⟨[[(664848848802980, 0), (157677673719, 0), (0, 181554356), (0, 229258)],
    [(29886252668, 0), (164864062, 0), (453706, 0), (1018, 0)], [(0, 31719617), (0, 214292), (0, 797), (0, 2)]], 2,
    3⟩, 1099511627776, 163947927,
    22718379315439095221673445466738404764842124998337128106590034649992480037495027854921443, lc0⟩) (.leaf ⟨254, 16,
    19, 3546, 16, 2183, ⟨[[(2007585087016704, 0)], [(0, 1105035574193947)]], 2, 3⟩, ⟨[[(0, 1202587447621632),
    (298478078135068, 0), (24509015324, 0), (8943681, 0)], [(233600133833312, 0), (146558517165, 0), (78929748, 0),
    (44070, 0)], [(168574056304, 0), (215215450, 0), (194054, 0), (133, 0)]], 2, 3⟩, 4503599627370496, 62,
    146619417213791, ⟨[[(668672266742312, 0), (162611422449, 0), (0, 240747047), (0, 342936)], [(34306319395, 0),
    (208062609, 0), (647168, 0), (1608, 0)], [(0, 37605399), (0, 283309), (0, 1159), (0, 3)]], 2, 3⟩, 1099511627776,
    212074595, 35280992478464528445266013327568418761679408742197130555665923332324162757569642502259318, lc0⟩))))
theorem c41 : checkC job ⟨6, 8, 5, 6, 9, 13⟩ 1 40 B1.zlims t41 1967 61 320 7043 175 7584 = true := by decide +kernel

def t42 : CTree :=
  .sx (.sy (.leaf ⟨344, 16, 19, 4122, 16, 2534, ⟨[[(1126638778656512, 0)], [(0, 1105035574193947)]], 2, 3⟩,
    ⟨[[(383388378083328, 0), (313779866254273, 0), (14621491610, 0), (3589814, 0)], [(210229843428993, 0),
    (98801646135, 0), (33065441, 0), (12155, 0)], [(109620350182, 0), (89186924, 0), (54254, 0), (31, 0)]], 2, 3⟩,
    4503599627370496, 46, 65556118132793, ⟨[[(672378508233111, 0), (152762124537, 0), (0, 144208956), (0, 144615)],
    [(29202384867, 0), (145702573, 0), (361508, 0), (744, 0)], [(0, 29896295), (0, 185174), (0, 639), (0, 2)]], 2,
    3⟩, 1099511627776, 148339348,
    26669911233536808124254797145241155521450814022934586511922527286517690411763139910586470, lc0⟩) (.sx (.leaf
    ⟨722, 16, 39, 4448, 16, 2719, ⟨[[(0, 89913662873088)], [(0, 1134115457725366)]], 2, 3⟩, ⟨[[(0, 544335992348672),
    (345250870309223, 0), (19077776199, 0), (5083362, 0)], [(129135923459206, 0), (63998301970, 0), (23990550, 0),
    (9920, 0)], [(37183338358, 0), (33600424, 0), (22850, 0), (14, 0)]], 2, 3⟩, 4503599627370496, 95, 9081519033581,
    ⟨[[(676118389163439, 0), (137033031762, 0), (0, 131663840), (0, 121965)], [(15727889057, 0), (72895221, 0),
    (171956, 0), (332, 0)], [(0, 8018944), (0, 46811), (0, 151)]], 2, 3⟩, 1099511627776, 25740579,
    36386227485895284125011637333703022925938973268538592182844889760377108959602191301156196, lc0⟩) (.leaf ⟨691, 16,
    39, 4309, 16, 2632, ⟨[[(1159588943117312, 0)], [(0, 1134115457725366)]], 2, 3⟩, ⟨[[(321195428712448, 0),
    (342288341651012, 0), (21671322460, 0), (6319622, 0)], [(134465249342292, 0), (70962706006, 0), (29678178, 0),
    (13594, 0)], [(41823906190, 0), (41910303, 0), (31410, 0), (20, 0)]], 2, 3⟩, 4503599627370496, 386,
    11894235192403, ⟨[[(676083863486755, 0), (138203304277, 0), (0, 147824324), (0, 147905)], [(16499279123, 0),
    (79687501, 0), (197714, 0), (397, 0)], [(0, 8567471), (0, 52226), (0, 175)]], 2, 3⟩, 1099511627776, 29677591,
    44438523192194556807117452933753582978821114439417727077067311180934686714830463886776369, lc0⟩))) (.sy (.leaf
    ⟨314, 16, 19, 3856, 16, 2367, ⟨[[(1420287548109824, 0)], [(0, 1105035574193947)]], 2, 3⟩, ⟨[[(510211899537408,
    0), (305802950863952, 0), (18374375219, 0), (5303747, 0)], [(224917573085055, 0), (117927830984, 0), (48378389,
    0), (22003, 0)], [(134232461371, 0), (132523249, 0), (99005, 0), (63, 0)]], 2, 3⟩, 4503599627370496, 81,
    98523844847691, ⟨[[(672366298477031, 0), (156637968980, 0), (0, 181938234), (0, 211660)], [(32046217330, 0),
    (173850496, 0), (478763, 0), (1073, 0)], [(0, 33948687), (0, 230117), (0, 858), (0, 2)]], 2, 3⟩, 1099511627776,
    177390255, 38733098007388652445162857142056403451951860404950012908107655276811273070074382958266261, lc0⟩) (.sx
    (.sy (.leaf ⟨661, 16, 39, 7581, 16, 4634, ⟨[[(0, 2094508078261760)], [(0, 1134115457725366)]], 2, 3⟩,
    ⟨[[(1952096189304832, 0), (305730670894140, 0), (10461998013, 0), (1617473, 0)], [(244054664370206, 0),
    (67217203571, 0), (15047780, 0), (3651, 0)], [(79360284094, 0), (42428553, 0), (16787, 0), (5, 0)]], 2, 3⟩,
    4503599627370496, 382, 13230856852550, ⟨[[(675148427440550, 0), (77663564681, 0), (0, 49163434), (0, 29000)],
    [(16763833257, 0), (46343412, 0), (65976, 0), (76, 0)], [(0, 8786204), (0, 30612), (0, 58)]], 2, 3⟩,
    1099511627776, 20380800,
    40535272356681175453975094734553175454890885062914201484514162627438469173655593631899261, lc0⟩) (.leaf ⟨661, 16,
    39, 7271, 16, 4430, ⟨[[(0, 2094508078261760)], [(0, 1134115457725366)]], 2, 3⟩, ⟨[[(0, 1432051272101888),
    (299890821315350, 0), (11844865229, 0), (1988600, 0)], [(257726055937288, 0), (75762676664, 0), (18721825, 0),
    (4848, 0)], [(92272838076, 0), (53951638, 0), (22600, 0), (7, 0)]], 2, 3⟩, 4503599627370496, 382, 17310229575645,
    ⟨[[(677045834246838, 0), (78629252979, 0), (0, 56223365), (0, 35016)], [(17956257370, 0), (52055356, 0), (78652,
    0), (95, 0)], [(0, 9583335), (0, 35201), (0, 70)]], 2, 3⟩, 1099511627776, 22801781,
    48746776562552443091009072451455869045795187931296678910820793458676403945001050815395553, lc0⟩)) (.sy (.leaf
    ⟨630, 16, 39, 7264, 16, 4436, ⟨[[(0, 845005472271360)], [(0, 1134115457725366)]], 2, 3⟩, ⟨[[(413900359491584, 0),
    (301184676025304, 0), (12043754139, 0), (2063449, 0)], [(253927758397034, 0), (75843844344, 0), (19145052, 0),
    (5051, 0)], [(91229672515, 0), (54503205, 0), (23251, 0), (8, 0)]], 2, 3⟩, 4503599627370496, 91, 17297394429737,
    ⟨[[(675168177285717, 0), (78818731232, 0), (0, 56694015), (0, 36412)], [(17674027094, 0), (51515042, 0), (77990,
    0), (94, 0)], [(0, 9437495), (0, 34704), (0, 69)]], 2, 3⟩, 1099511627776, 22411095,
    43830264415882923251170710612149868711947857265012454804267902501068674133211444919458449, lc0⟩) (.leaf ⟨630, 16,
    39, 6915, 16, 4209, ⟨[[(0, 845005472271360)], [(0, 1134115457725366)]], 2, 3⟩, ⟨[[(0, 396727649484800),
    (294560176151865, 0), (13787699701, 0), (2571423, 0)], [(268569872993210, 0), (86654686826, 0), (24146963, 0),
    (6712, 0)], [(107707339437, 0), (70194532, 0), (31284, 0), (10, 0)]], 2, 3⟩, 4503599627370496, 91,
    22799207521355, ⟨[[(677022108032398, 0), (80141414988, 0), (0, 65962956), (0, 45116)], [(18953325382, 0),
    (58405039, 0), (94502, 0), (121, 0)], [(0, 10309362), (0, 40249), (0, 85)]], 2, 3⟩, 1099511627776, 25222911,
    49538373343957177478540076461128658140407831110794995541582944430851438870495643891809952, lc0⟩))))
theorem c42 : checkC job ⟨6, 8, 5, 6, 9, 13⟩ 1 40 B1.zlims t42 3873 61 640 14611 175 15168 = true := by decide +kernel

def t43 : CTree :=
  .sy (.sx (.leaf ⟨722, 16, 39, 4184, 16, 2542, ⟨[[(0, 89913662873088)], [(0, 1134115457725366)]], 2, 3⟩, ⟨[[(0,
    207677890179072), (337288257228290, 0), (24095296161, 0), (7440994, 0)], [(144884811657097, 0), (79757503707, 0),
    (35889712, 0), (17274, 0)], [(49038949691, 0), (52437691, 0), (41004, 0), (26, 0)]], 2, 3⟩, 4503599627370496, 95,
    15225946760804, ⟨[[(679762976845969, 0), (138574878686, 0), (0, 162597348), (0, 162934)], [(17855854838, 0),
    (88867417, 0), (230632, 0), (480, 0)], [(0, 9418212), (0, 59736), (0, 207)]], 2, 3⟩, 1099511627776, 32989738,
    49903611644042218939727727103870349697788803060836912303040959885443134685981118178509020, lc0⟩) (.sy (.leaf
    ⟨691, 16, 39, 7280, 16, 4426, ⟨[[(1159588943117312, 0)], [(0, 1134115457725366)]], 2, 3⟩, ⟨[[(1510371029524480,
    0), (298604499513764, 0), (11625552913, 0), (1910731, 0)], [(261349828311980, 0), (75557028941, 0), (18256623,
    0), (4635, 0)], [(93164439146, 0), (53254981, 0), (21878, 0), (7, 0)]], 2, 3⟩, 4503599627370496, 386,
    17264271025814, ⟨[[(678811647692371, 0), (78526689138, 0), (0, 55558727), (0, 33425)], [(18191447858, 0),
    (52434964, 0), (78998, 0), (95, 0)], [(0, 9696014), (0, 35551), (0, 71)]], 2, 3⟩, 1099511627776, 23100388,
    50185268514265900752326746626953887997909926753264659128353564651895972105499426428807879, lc0⟩) (.sx (.leaf
    ⟨1398, 16, 78, 8091, 16, 4904, ⟨[[(0, 557373230445568)], [(0, 1134115457725366)]], 2, 3⟩, ⟨[[(0,
    2113699452063744), (337742003611300, 0), (14639660233, 0), (2546455, 0)], [(157017374204592, 0), (47671731516,
    0), (12313665, 0), (3247, 0)], [(30176191755, 0), (18293969, 0), (7760, 0), (3, 0)]], 2, 3⟩, 4503599627370496,
    353, 3183609215050, ⟨[[(680693797498569, 0), (68987279389, 0), (0, 46571829), (0, 25160)], [(9618493947, 0),
    (25043716, 0), (34383, 0), (37, 0)], [(0, 2599567), (0, 8645), (0, 16)]], 2, 3⟩, 1099511627776, 3812329,
    49466874472759880027430233667578296768484297205829206499032196878547532255346025497036052, lc0⟩) (.leaf ⟨1367,
    16, 78, 7905, 16, 4789, ⟨[[(692129375546368, 0)], [(0, 1134115457725366)]], 2, 3⟩, ⟨[[(272029075447808, 0),
    (335782026833470, 0), (15883696150, 0), (2912851, 0)], [(160919217713998, 0), (51279993478, 0), (14061692, 0),
    (3837, 0)], [(32788100469, 0), (20973570, 0), (9169, 0), (3, 0)]], 2, 3⟩, 4503599627370496, 926, 3694704726923,
    ⟨[[(680653325578428, 0), (69465764184, 0), (0, 50287035), (0, 28493)], [(9880016312, 0), (26480417, 0), (37548,
    0), (42, 0)], [(0, 2696705), (0, 9227), (0, 17)]], 2, 3⟩, 1099511627776, 4045435,
    50625189457866653814400042820631671706638697283189843524905810042739780081962785462196727, lc0⟩)))) (.sx (.sy
    (.leaf ⟨722, 16, 39, 6961, 16, 4209, ⟨[[(0, 89913662873088)], [(0, 1134115457725366)]], 2, 3⟩, ⟨[[(0,
    289703690465280), (291158299647393, 0), (12917836313, 0), (2254353, 0)], [(279245034051227, 0), (85126715744, 0),
    (22103449, 0), (5818, 0)], [(109563702906, 0), (66596817, 0), (28161, 0), (9, 0)]], 2, 3⟩, 4503599627370496, 95,
    22357380044824, ⟨[[(682475189745162, 0), (79631456869, 0), (0, 63007250), (0, 38422)], [(19734729260, 0),
    (59623410, 0), (95392, 0), (121, 0)], [(0, 10703252), (0, 41450), (0, 87)]], 2, 3⟩, 1099511627776, 26201685,
    48122722551070421868604369039082432934427776419399257894574984409688629122321751466191552, lc0⟩) (.leaf ⟨722, 16,
    39, 6592, 16, 3973, ⟨[[(0, 89913662873088)], [(0, 1134115457725366)]], 2, 3⟩, ⟨[[(1557886780436480, 0),
    (284225644977282, 0), (14759213400, 0), (2794831, 0)], [(294523465863804, 0), (97217592321, 0), (27693379, 0),
    (7637, 0)], [(129082340857, 0), (85035186, 0), (37389, 0), (12, 0)]], 2, 3⟩, 4503599627370496, 95,
    29106890040151, ⟨[[(684240013427678, 0), (81285225703, 0), (0, 73703046), (0, 47829)], [(21130513785, 0),
    (67928612, 0), (116663, 0), (157, 0)], [(0, 11684453), (0, 48264), (0, 107)]], 2, 3⟩, 1099511627776, 29405662,
    48019936279728484561298283732272111473099317713881975249236770128950327559500821636247104, lc0⟩)) (.sy (.sx
    (.leaf ⟨1398, 16, 78, 7746, 16, 4680, ⟨[[(0, 557373230445568)], [(0, 1134115457725366)]], 2, 3⟩,
    ⟨[[(1950990479855616, 0), (333073649514611, 0), (16901335453, 0), (3192622, 0)], [(167352384697068, 0),
    (54995385680, 0), (15607748, 0), (4317, 0)], [(35928656909, 0), (23642303, 0), (10438, 0), (3, 0)]], 2, 3⟩,
    4503599627370496, 353, 4223778986730, ⟨[[(682438819802907, 0), (69722822906, 0), (0, 53322884), (0, 30375)],
    [(10286786521, 0), (28178113, 0), (41071, 0), (47, 0)], [(0, 2832793), (0, 9938), (0, 19)]], 2, 3⟩,
    1099511627776, 4306496,
    49569475632313501620631661682941370169563906754600582968864975480964680699796789659679935, lc0⟩) (.sy (.leaf
    ⟨1367, 16, 78, 13333, 16, 8057, ⟨[[(692129375546368, 0)], [(0, 1134115457725366)]], 2, 3⟩, ⟨[[(0,
    864510456553472), (290017705402196, 0), (7753762259, 0), (755930, 0)], [(295131373887628, 0), (50073297868, 0),
    (7358580, 0), (1037, 0)], [(65586012425, 0), (22264510, 0), (4996, 0), (1, 0)]], 2, 3⟩, 4503599627370496, 926,
    5810906363221, ⟨[[(682022396239426, 0), (40073462458, 0), (0, 18382568), (0, 6226)], [(10425027510, 0),
    (16663159, 0), (14188, 0), (9, 0)], [(0, 2888248), (0, 5905), (0, 6)]], 2, 3⟩, 1099511627776, 3402570,
    48886917348152794646654298050043457668578080903919521715997566054487105294751403158701927, lc0⟩) (.leaf ⟨1367,
    16, 78, 12938, 16, 7805, ⟨[[(692129375546368, 0)], [(0, 1134115457725366)]], 2, 3⟩, ⟨[[(0, 714777615597568),
    (286487094932301, 0), (8338070598, 0), (845711, 0)], [(303796165432457, 0), (53887638251, 0), (8276443, 0),
    (1188, 0)], [(71712050565, 0), (25266138, 0), (5752, 0), (1, 0)]], 2, 3⟩, 4503599627370496, 926, 6666666989483,
    ⟨[[(682923661606470, 0), (40494643618, 0), (0, 20047254), (0, 7034)], [(10811209077, 0), (17882329, 0), (15823,
    0), (11, 0)], [(0, 3025865), (0, 6407), (0, 7)]], 2, 3⟩, 1099511627776, 3566451,
    48123903428609660020167558217000997365016979696933225254708269173307398210334990052391169, lc0⟩))) (.sx (.leaf
    ⟨1398, 16, 78, 7361, 16, 4432, ⟨[[(0, 557373230445568)], [(0, 1134115457725366)]], 2, 3⟩, ⟨[[(0,
    368887203729408), (327851298738602, 0), (19676641435, 0), (4023056, 0)], [(178714048237231, 0), (64111596400, 0),
    (19874867, 0), (5706, 0)], [(43223618059, 0), (30648053, 0), (13943, 0), (5, 0)]], 2, 3⟩, 4503599627370496, 353,
    5592645886400, ⟨[[(684274986784046, 0), (70524459806, 0), (0, 62263332), (0, 37690)], [(11075347055, 0),
    (32199205, 0), (50238, 0), (61, 0)], [(0, 3114132), (0, 11615), (0, 23)]], 2, 3⟩, 1099511627776, 5010531,
    48567949974715069358719852870037586012444358770353522711076964759208394410135688656714227, lc0⟩) (.leaf ⟨1367,
    16, 78, 7125, 16, 4287, ⟨[[(692129375546368, 0)], [(0, 1134115457725366)]], 2, 3⟩, ⟨[[(0, 355779505115136),
    (325158918697557, 0), (21592645778, 0), (4635043, 0)], [(183756898842022, 0), (69918536938, 0), (22855730, 0),
    (6710, 0)], [(47625690024, 0), (35327871, 0), (16369, 0), (5, 0)]], 2, 3⟩, 4503599627370496, 926, 6503276284208,
    ⟨[[(684273932964520, 0), (71204434290, 0), (0, 68872123), (0, 44235)], [(11436434469, 0), (34581586, 0), (56266,
    0), (71, 0)], [(0, 3251781), (0, 12598), (0, 26)]], 2, 3⟩, 1099511627776, 5542451,
    49571696721785641597705219480972264895574523350071132559155873310323470724494488449138426, lc0⟩))))
theorem c43 : checkC job ⟨6, 8, 5, 6, 9, 13⟩ 1 40 B1.zlims t43 7685 61 1280 14961 175 15168 = true := by decide +kernel

def t44 : CTree :=
  .sx (.sy (.sx (.leaf ⟨1336, 16, 78, 8060, 16, 4896, ⟨[[(1941631981536256, 0)], [(0, 1134115457725366)]], 2, 3⟩,
    ⟨[[(0, 2187683672903680), (338494296789166, 0), (14931026060, 0), (2655538, 0)], [(154713277192597, 0),
    (47851790502, 0), (12656036, 0), (3400, 0)], [(29935816230, 0), (18578945, 0), (8027, 0), (3, 0)]], 2, 3⟩,
    4503599627370496, 124, 3238069833400, ⟨[[(678870189767928, 0), (69226628074, 0), (0, 47471461), (0, 26716)],
    [(9493828347, 0), (24926882, 0), (34414, 0), (38, 0)], [(0, 2569130), (0, 8581), (0, 15)]], 2, 3⟩, 1099511627776,
    3862367, 50517080220841047312638520411199694517862020391687407267047865367166265104783383527611836, lc0⟩) (.leaf
    ⟨1306, 16, 78, 7874, 16, 4781, ⟨[[(0, 1312465039843328)], [(0, 1134115457725366)]], 2, 3⟩, ⟨[[(1804254434504704,
    0), (336529394106404, 0), (16212487131, 0), (3039330, 0)], [(158607955313422, 0), (51529842152, 0), (14464712,
    0), (4016, 0)], [(32571947340, 0), (21319363, 0), (9477, 0), (3, 0)]], 2, 3⟩, 4503599627370496, 345,
    3765279611121, ⟨[[(678815121985800, 0), (69779388946, 0), (0, 51178970), (0, 30133)], [(9736631456, 0),
    (26308225, 0), (37496, 0), (42, 0)], [(0, 2658846), (0, 9136), (0, 17)]], 2, 3⟩, 1099511627776, 4108371,
    50097798233183627355083800386821453432028478201662346258520082138683652378971513169929150, lc0⟩)) (.sx (.sy
    (.leaf ⟨1336, 16, 78, 13690, 16, 8296, ⟨[[(1941631981536256, 0)], [(0, 1134115457725366)]], 2, 3⟩,
    ⟨[[(1063590042378240, 0), (293919657515043, 0), (7308528799, 0), (691813, 0)], [(285025909641315, 0),
    (46818968290, 0), (6650487, 0), (926, 0)], [(60012129637, 0), (19816929, 0), (4409, 0), (1, 0)]], 2, 3⟩,
    4503599627370496, 124, 5089391575198, ⟨[[(680191368691642, 0), (39753231945, 0), (0, 17084637), (0, 5709)],
    [(9989175383, 0), (15522215, 0), (12773, 0), (8, 0)], [(0, 2741070), (0, 5431), (0, 6)]], 2, 3⟩, 1099511627776,
    3160073, 49019354833879194592606578109051325610385732728031878847644117261589905109545891951333933, lc0⟩) (.leaf
    ⟨1336, 16, 78, 13312, 16, 8053, ⟨[[(1941631981536256, 0)], [(0, 1134115457725366)]], 2, 3⟩, ⟨[[(0,
    1778694882705408), (290535356281900, 0), (7851964253, 0), (774135, 0)], [(293414827029750, 0), (50316077001, 0),
    (7483043, 0), (1063, 0)], [(65542951138, 0), (22507448, 0), (5090, 0), (1, 0)]], 2, 3⟩, 4503599627370496, 124,
    5848127941891, ⟨[[(681123489228247, 0), (40108868733, 0), (0, 18567990), (0, 6420)], [(10364189316, 0),
    (16628651, 0), (14195, 0), (9, 0)], [(0, 2873045), (0, 5885), (0, 6)]], 2, 3⟩, 1099511627776, 3382132,
    50013335923583397884674207757495112901725426387688750947637030725585421973203768055577352, lc0⟩)) (.sy (.leaf
    ⟨1306, 16, 78, 13295, 16, 8052, ⟨[[(0, 1312465039843328)], [(0, 1134115457725366)]], 2, 3⟩, ⟨[[(1244737724407808,
    0), (291121725997728, 0), (7949015599, 0), (792316, 0)], [(291712336145648, 0), (50549150376, 0), (7605435, 0),
    (1089, 0)], [(65483820354, 0), (22740179, 0), (5181, 0), (1, 0)]], 2, 3⟩, 4503599627370496, 345, 5881963484926,
    ⟨[[(680197619278056, 0), (40188192073, 0), (0, 18698404), (0, 6583)], [(10281276234, 0), (16547586, 0), (14149,
    0), (9, 0)], [(0, 2849618), (0, 5844), (0, 6)]], 2, 3⟩, 1099511627776, 3346443,
    49938206122505313254098057826759451548590653784575314727051737533271269453145103307718231, lc0⟩) (.leaf ⟨1306,
    16, 78, 12895, 16, 7796, ⟨[[(0, 1312465039843328)], [(0, 1134115457725366)]], 2, 3⟩, ⟨[[(0, 1362750904967168),
    (287549503305164, 0), (8563438529, 0), (887910, 0)], [(300516755212265, 0), (54506771355, 0), (8569579, 0),
    (1248, 0)], [(71759615961, 0), (25852534, 0), (5970, 0), (1, 0)]], 2, 3⟩, 4503599627370496, 345, 6758718215371,
    ⟨[[(681129179611773, 0), (40591275048, 0), (0, 20447684), (0, 7470)], [(10677008641, 0), (17792360, 0), (15821,
    0), (11, 0)], [(0, 2990195), (0, 6356), (0, 7)]], 2, 3⟩, 1099511627776, 3509675,
    49968433883815939813464735106698934807090046748876225897601688959397396139969683350246245, lc0⟩)))) (.sy (.sx
    (.leaf ⟨1275, 16, 78, 7679, 16, 4660, ⟨[[(0, 62962433853440)], [(0, 1134115457725366)]], 2, 3⟩,
    ⟨[[(1837969972473856, 0), (334466871247682, 0), (17668841706, 0), (3488702, 0)], [(162797895326716, 0),
    (55738688186, 0), (16581232, 0), (4740, 0)], [(35610148209, 0), (24527799, 0), (11174, 0), (4, 0)]], 2, 3⟩,
    4503599627370496, 492, 4389499318766, ⟨[[(678812435059052, 0), (70271888293, 0), (0, 55550329), (0, 34302)],
    [(10022222409, 0), (27930487, 0), (41196, 0), (48, 0)], [(0, 2764278), (0, 9792), (0, 19)]], 2, 3⟩,
    1099511627776, 4488014,
    49618462658985116967641004521325654638617151529099398591415126943987517000770927459573502, lc0⟩) (.leaf ⟨1244,
    16, 78, 7471, 16, 4531, ⟨[[(1186540172137472, 0)], [(0, 1134115457725366)]], 2, 3⟩, ⟨[[(1039434987991040, 0),
    (332195709737972, 0), (19319130959, 0), (4011870, 0)], [(167269128693367, 0), (60535728004, 0), (19042683, 0),
    (5583, 0)], [(39095658090, 0), (28258381, 0), (13146, 0), (4, 0)]], 2, 3⟩, 4503599627370496, 271, 5114901465256,
    ⟨[[(678824205348509, 0), (70819895467, 0), (0, 60665690), (0, 39372)], [(10330867267, 0), (29771951, 0), (45556,
    0), (54, 0)], [(0, 2878581), (0, 10537), (0, 21)]], 2, 3⟩, 1099511627776, 4916765,
    50076359786911655356562785066372258861137204742428659015079005955912752708810411970365042, lc0⟩)) (.sx (.sy
    (.leaf ⟨1275, 16, 78, 12877, 16, 7794, ⟨[[(0, 62962433853440)], [(0, 1134115457725366)]], 2, 3⟩,
    ⟨[[(631162759618560, 0), (288110118024069, 0), (8672085969, 0), (908733, 0)], [(298820157876646, 0),
    (54785662531, 0), (8710258, 0), (1278, 0)], [(71735925502, 0), (26120776, 0), (6072, 0), (1, 0)]], 2, 3⟩,
    4503599627370496, 492, 6797150288550, ⟨[[(680202477269063, 0), (40654552556, 0), (0, 20614559), (0, 7669)],
    [(10600794995, 0), (17725343, 0), (15793, 0), (11, 0)], [(0, 2968868), (0, 6320), (0, 7)]], 2, 3⟩, 1099511627776,
    3479168, 48969532113221954909017214423761017644934893401719144577434930314061823121987161468155556, lc0⟩) (.leaf
    ⟨1275, 16, 78, 12451, 16, 7523, ⟨[[(0, 62962433853440)], [(0, 1134115457725366)]], 2, 3⟩, ⟨[[(1108482105171968,
    0), (284290822434771, 0), (9363934704, 0), (1018935, 0)], [(308023453631133, 0), (59245973771, 0), (9818831, 0),
    (1461, 0)], [(78827651411, 0), (29694829, 0), (6977, 0), (1, 0)]], 2, 3⟩, 4503599627370496, 492, 7808252533075,
    ⟨[[(681107501467459, 0), (41144879966, 0), (0, 22691087), (0, 8789)], [(11008118482, 0), (19118409, 0), (17766,
    0), (13, 0)], [(0, 3114920), (0, 6893), (0, 8)]], 2, 3⟩, 1099511627776, 3709405,
    47107771722848592881260246085299543055583334499962442106518620173026915478793595829061658, lc0⟩)) (.leaf ⟨1244,
    16, 78, 7044, 16, 4257, ⟨[[(1186540172137472, 0)], [(0, 1134115457725366)]], 2, 3⟩, ⟨[[(974187615485952, 0),
    (326347076176161, 0), (22766667836, 0), (5096250, 0)], [(179497289846311, 0), (71565005211, 0), (24451735, 0),
    (7371, 0)], [(47729991082, 0), (36901651, 0), (17524, 0), (6, 0)]], 2, 3⟩, 4503599627370496, 271, 6785145222832,
    ⟨[[(680649757568705, 0), (71881565297, 0), (0, 72369258), (0, 50528)], [(11149109959, 0), (34371911, 0), (56738,
    0), (72, 0)], [(0, 3171481), (0, 12438), (0, 26)]], 2, 3⟩, 1099511627776, 5889191,
    49897794936258220278486884867571199952855309705842789839391039807103168652445852273023548, lc0⟩)))
theorem c44 : checkC job ⟨6, 8, 5, 6, 9, 13⟩ 1 40 B1.zlims t44 7807 61 1280 29747 175 30336 = true := by decide +kernel

def t45 : CTree :=
  .sx (.sy (.sx (.sy (.leaf ⟨1336, 16, 78, 12915, 16, 7800, ⟨[[(1941631981536256, 0)], [(0, 1134115457725366)]], 2,
    3⟩, ⟨[[(2162684828958720, 0), (287020659131381, 0), (8452383063, 0), (866924, 0)], [(302187945334940, 0),
    (54209358907, 0), (8425200, 0), (1218, 0)], [(71754282937, 0), (25568403, 0), (5863, 0), (1, 0)]], 2, 3⟩,
    4503599627370496, 124, 6715436759356, ⟨[[(681993277928589, 0), (40560179352, 0), (0, 20247911), (0, 7256)],
    [(10735431481, 0), (17824514, 0), (15811, 0), (11, 0)], [(0, 3005140), (0, 6376), (0, 7)]], 2, 3⟩, 1099511627776,
    3536012, 49722215737102736119404727716333417627652622769585780520157747549353604902885914666895889, lc0⟩) (.leaf
    ⟨1336, 16, 78, 12497, 16, 7534, ⟨[[(1941631981536256, 0)], [(0, 1134115457725366)]], 2, 3⟩, ⟨[[(0,
    878844428607488), (283270810051605, 0), (9111451556, 0), (970710, 0)], [(311258333071914, 0), (58514912310, 0),
    (9483359, 0), (1392, 0)], [(78686609297, 0), (29024565, 0), (6734, 0), (1, 0)]], 2, 3⟩, 4503599627370496, 124,
    7703621485725, ⟨[[(682924342338846, 0), (41006150180, 0), (0, 22252893), (0, 8292)], [(11158104408, 0),
    (19232847, 0), (17784, 0), (13, 0)], [(0, 3157205), (0, 6958), (0, 8)]], 2, 3⟩, 1099511627776, 3772399,
    47398345405519471558933866979890448664238819598269639675950951309871102655230832993054953, lc0⟩)) (.sy (.leaf
    ⟨1306, 16, 78, 12473, 16, 7528, ⟨[[(0, 1312465039843328)], [(0, 1134115457725366)]], 2, 3⟩, ⟨[[(1052827108671488,
    0), (283784119063599, 0), (9239555358, 0), (994970, 0)], [(309675188415068, 0), (58894504616, 0), (9653788, 0),
    (1427, 0)], [(78778985491, 0), (29370728, 0), (6858, 0), (1, 0)]], 2, 3⟩, 4503599627370496, 345, 7759321675759,
    ⟨[[(682013960826675, 0), (41091360089, 0), (0, 22466962), (0, 8538)], [(11077032361, 0), (19164960, 0), (17764,
    0), (13, 0)], [(0, 3133881), (0, 6921), (0, 8)]], 2, 3⟩, 1099511627776, 3736890,
    47955924158331423853953895745948204666848471177820618008653104394027173425534545974977848, lc0⟩) (.leaf ⟨1306,
    16, 78, 12031, 16, 7248, ⟨[[(0, 1312465039843328)], [(0, 1134115457725366)]], 2, 3⟩, ⟨[[(0, 972758104940544),
    (279826452662733, 0), (9981538152, 0), (1114229, 0)], [(319203457045848, 0), (63744894124, 0), (10866439, 0),
    (1627, 0)], [(86604001095, 0), (33325502, 0), (7853, 0), (1, 0)]], 2, 3⟩, 4503599627370496, 345, 8888973333678,
    ⟨[[(682938010446040, 0), (41601990233, 0), (0, 24875343), (0, 9864)], [(11522855983, 0), (20766684, 0), (20128,
    0), (15, 0)], [(0, 3295797), (0, 7584), (0, 9)]], 2, 3⟩, 1099511627776, 3987558,
    43396031199034585863973204779770831406793981425260186265541921405789203941068247406367408, lc0⟩))) (.sx (.leaf
    ⟨1336, 16, 78, 6876, 16, 4134, ⟨[[(1941631981536256, 0)], [(0, 1134115457725366)]], 2, 3⟩, ⟨[[(0,
    1816414434340864), (322318295690055, 0), (23761740638, 0), (5341291, 0)], [(189200105686478, 0), (76520040143,
    0), (26288860, 0), (7864, 0)], [(52649952005, 0), (40709652, 0), (19149, 0), (6, 0)]], 2, 3⟩, 4503599627370496,
    124, 7546480942017, ⟨[[(684298511097505, 0), (71907823459, 0), (0, 76794240), (0, 52473)], [(11836212709, 0),
    (37348040, 0), (63574, 0), (83, 0)], [(0, 3404654), (0, 13742), (0, 29)]], 2, 3⟩, 1099511627776, 6243336,
    47554125317728545959570421146652897890944787247819669592785781289363525173179290162509389, lc0⟩) (.leaf ⟨1306,
    16, 78, 6610, 16, 3971, ⟨[[(0, 1312465039843328)], [(0, 1134115457725366)]], 2, 3⟩, ⟨[[(0, 1817410659160064),
    (319195472564124, 0), (26197854748, 0), (6148226, 0)], [(194997380294836, 0), (83957081656, 0), (30201761, 0),
    (9178, 0)], [(58329144470, 0), (46830812, 0), (22298, 0), (7, 0)]], 2, 3⟩, 4503599627370496, 345, 8731949969880,
    ⟨[[(684314943887217, 0), (72802343005, 0), (0, 86282650), (0, 62881)], [(12248130339, 0), (40483450, 0), (72345,
    0), (99, 0)], [(0, 3562965), (0, 15037), (0, 34)]], 2, 3⟩, 1099511627776, 7060209,
    41399639206746995066844880961387399901769085038457741048060297122636228679880993897979372, lc0⟩))) (.sy (.sx
    (.leaf ⟨1275, 16, 78, 6831, 16, 4116, ⟨[[(0, 62962433853440)], [(0, 1134115457725366)]], 2, 3⟩, ⟨[[(0,
    823130574581760), (322838476167024, 0), (24437942003, 0), (5606858, 0)], [(187148342212215, 0), (77552722389, 0),
    (27223189, 0), (8245, 0)], [(52807901372, 0), (41652996, 0), (19817, 0), (7, 0)]], 2, 3⟩, 4503599627370496, 492,
    7718617587680, ⟨[[(682492852036043, 0), (72297194956, 0), (0, 78899905), (0, 56281)], [(11685893916, 0),
    (37257931, 0), (63928, 0), (84, 0)], [(0, 3361387), (0, 13661), (0, 29)]], 2, 3⟩, 1099511627776, 6472251,
    48023730618823221501584691565323942145695264221879313933388728537744747944527346322121174, lc0⟩) (.leaf ⟨1244,
    16, 78, 6564, 16, 3952, ⟨[[(1186540172137472, 0)], [(0, 1134115457725366)]], 2, 3⟩, ⟨[[(0, 1395080626561024),
    (319692128892896, 0), (26955279566, 0), (6449057, 0)], [(192990890842475, 0), (85152802160, 0), (31254686, 0),
    (9605, 0)], [(58546391291, 0), (47879044, 0), (23032, 0), (8, 0)]], 2, 3⟩, 4503599627370496, 271, 8917971417456,
    ⟨[[(682508548264328, 0), (73166410538, 0), (0, 88806441), (0, 67527)], [(12104347588, 0), (40445408, 0), (72900,
    0), (101, 0)], [(0, 3521186), (0, 14971), (0, 34)]], 2, 3⟩, 1099511627776, 7378144,
    38822723362772464211362787377968077794014792705747056989091172261308997746498581744721147, lc0⟩)) (.sx (.leaf
    ⟨1275, 16, 78, 6327, 16, 3798, ⟨[[(0, 62962433853440)], [(0, 1134115457725366)]], 2, 3⟩, ⟨[[(0, 496588760977408),
    (315794894018292, 0), (28919342195, 0), (7062408, 0)], [(201168636093908, 0), (92284189248, 0), (34621899, 0),
    (10659, 0)], [(64702633969, 0), (53727117, 0), (25829, 0), (8, 0)]], 2, 3⟩, 4503599627370496, 492,
    10065093192701, ⟨[[(684301131688876, 0), (73823153178, 0), (0, 97941860), (0, 76473)], [(12689105474, 0),
    (44133736, 0), (83155, 0), (119, 0)], [(0, 3733435), (0, 16545), (0, 39)]], 2, 3⟩, 1099511627776, 8166706,
    46548492525314315045230003069666662297145097102604362908418328811062746450812147141443552, lc0⟩) (.sy (.sx (.leaf
    ⟨2520, 16, 157, 12703, 16, 7628, ⟨[[(0, 275744322107392)], [(0, 1141385428608221)]], 2, 3⟩, ⟨[[(0,
    73620097875968), (320581370958465, 0), (15197182150, 0), (1881691, 0)], [(205873686248960, 0), (48277208687, 0),
    (9188807, 0), (1422, 0)], [(33833712955, 0), (14217444, 0), (3432, 0), (1, 0)]], 2, 3⟩, 4503599627370496, 716,
    2083256859609, ⟨[[(683850357262654, 0), (36459157133, 0), (0, 24634195), (0, 9724)], [(6342690280, 0), (11017854,
    0), (10367, 0), (7, 0)], [(0, 929720), (0, 2055), (0, 2)]], 2, 3⟩, 1099511627776, 810783,
    35822353760223874295642859736123216657570288259161701281658164725193043013208122522691290, lc0⟩) (.skip))
    (.skip))))
theorem c45 : checkC job ⟨6, 8, 5, 6, 9, 13⟩ 1 40 B1.zlims t45 7807 61 1280 30097 175 30336 = true := by decide +kernel

def t46 : CTree :=
  .sy (.sx (.sy (.sx (.leaf ⟨599, 16, 39, 4135, 16, 2535, ⟨[[(404497133719552, 0)], [(0, 1134115457725366)]], 2, 3⟩,
    ⟨[[(0, 51733241487360), (340429922668810, 0), (25489832171, 0), (8531590, 0)], [(135343449135175, 0),
    (79196487074, 0), (38764443, 0), (20201, 0)], [(46269593151, 0), (53905562, 0), (45609, 0), (30, 0)]], 2, 3⟩,
    4503599627370496, 312, 16238350262396, ⟨[[(672391577102176, 0), (140742649595, 0), (0, 171366109), (0, 197048)],
    [(16823277053, 0), (86296087, 0), (227777, 0), (482, 0)], [(0, 8909644), (0, 57259), (0, 200)]], 2, 3⟩,
    1099511627776, 35952532,
    39354430660105895456523968119301776071504091060794193137330746720554805932634316273507361, lc0⟩) (.leaf ⟨568, 16,
    39, 3966, 16, 2429, ⟨[[(1653999739709952, 0)], [(0, 1134115457725366)]], 2, 3⟩, ⟨[[(0, 1103037352581120),
    (336305588300040, 0), (29694165219, 0), (11032113, 0)], [(141622865259778, 0), (90618247562, 0), (50049270, 0),
    (28043, 0)], [(54051392765, 0), (70274141, 0), (63331, 0), (43, 0)]], 2, 3⟩, 4503599627370496, 21,
    21775714850660, ⟨[[(672420599490563, 0), (142504254260, 0), (0, 197407943), (0, 245976)], [(17758869768, 0),
    (95939861, 0), (268938, 0), (599, 0)], [(0, 9574305), (0, 64855), (0, 238), (0, 1)]], 2, 3⟩, 1099511627776,
    42933001, 40601468661237201794583794915880499546631172258812212194454538765355854209910697383216373, lc0⟩)) (.sx
    (.sx (.leaf ⟨1214, 16, 78, 4169, 16, 2540, ⟨[[(0, 2067556849242112)], [(0, 1134115457725366)]], 2, 3⟩,
    ⟨[[(1397987885637632, 0), (359323884452020, 0), (35440893499, 0), (13706247, 0)], [(82442504709377, 0),
    (55053506880, 0), (31934183, 0), (18168, 0)], [(17098609412, 0), (23114514, 0), (21029, 0), (14, 0)]], 2, 3⟩,
    4503599627370496, 50, 11058769950714, ⟨[[(676057312171496, 0), (132021885670, 0), (0, 184635724), (0, 214533)],
    [(9520940927, 0), (48891934, 0), (131824, 0), (280, 0)], [(0, 2600523), (0, 16881), (0, 59)]], 2, 3⟩,
    1099511627776, 19120819,
    49253745010613216676793879232341048922287043897307662368720697392133330622378107321325676, lc0⟩) (.leaf ⟨1183,
    16, 78, 4070, 16, 2478, ⟨[[(0, 818054243251200)], [(0, 1134115457725366)]], 2, 3⟩, ⟨[[(0, 1008988026765312),
    (357460517647665, 0), (38702194009, 0), (15752888, 0)], [(84744879771710, 0), (59694523929, 0), (36664493, 0),
    (21430, 0)], [(18745120616, 0), (26634396, 0), (24781, 0), (17, 0)]], 2, 3⟩, 4503599627370496, 206,
    12929362247300, ⟨[[(676127688330582, 0), (132653165585, 0), (0, 200350668), (0, 243554)], [(9826640342, 0),
    (51996774, 0), (145011, 0), (317, 0)], [(0, 2711682), (0, 18133), (0, 65)]], 2, 3⟩, 1099511627776, 22304465,
    47798099711084726425790790656764534567224399951074535704584526819423461860809173374442374, lc0⟩)) (.sy (.leaf
    ⟨568, 16, 39, 6515, 16, 3970, ⟨[[(1653999739709952, 0)], [(0, 1134115457725366)]], 2, 3⟩, ⟨[[(0,
    1977644834107392), (289734266631490, 0), (16575778759, 0), (3491221, 0)], [(276933960107791, 0), (101196763312,
    0), (32263740, 0), (9607, 0)], [(127083377935, 0), (93334710, 0), (44127, 0), (15, 0)]], 2, 3⟩, 4503599627370496,
    21, 30157322890134, ⟨[[(675207125097779, 0), (82138162816, 0), (0, 79731442), (0, 61940)], [(19804149438, 0),
    (65791354, 0), (115213, 0), (158, 0)], [(0, 10981177), (0, 45999), (0, 103)]], 2, 3⟩, 1099511627776, 27889328,
    44398657590983584647674984149358266345675868174653285616105833014464611592564173112886231, lc0⟩) (.sx (.leaf
    ⟨1152, 16, 78, 7224, 16, 4388, ⟨[[(431448362739712, 0)], [(0, 1134115457725366)]], 2, 3⟩, ⟨[[(0,
    1943072906969088), (330461713138035, 0), (21626246638, 0), (4804024, 0)], [(169645310001851, 0), (66393871139,
    0), (22464193, 0), (6814, 0)], [(42866855839, 0), (33022355, 0), (15815, 0), (5, 0)]], 2, 3⟩, 4503599627370496,
    427, 6030768196929, ⟨[[(677052991796466, 0), (71741646706, 0), (0, 67716297), (0, 47711)], [(10518176440, 0),
    (31667497, 0), (50642, 0), (63, 0)], [(0, 2960206), (0, 11268), (0, 23)]], 2, 3⟩, 1099511627776, 5483291,
    39554760741490285256017864894689017841226105088013602322934737222477081272829801683076988, lc0⟩) (.skip))))) (.sy
    (.sx (.leaf ⟨538, 16, 39, 3775, 16, 2310, ⟨[[(0, 1600097281669632)], [(0, 1134115457725366)]], 2, 3⟩,
    ⟨[[(1345687916574720, 0), (331454071415386, 0), (35065468116, 0), (14438062, 0)], [(148712465202181, 0),
    (105432860245, 0), (65411563, 0), (38795, 0)], [(64311260448, 0), (92592333, 0), (87491, 0), (60, 0)]], 2, 3⟩,
    4503599627370496, 242, 29248073156419, ⟨[[(672360854652932, 0), (145245449410, 0), (0, 230502418), (0, 312725)],
    [(18696406772, 0), (107174579, 0), (320974, 0), (757, 0)], [(0, 10247423), (0, 73641), (0, 285), (0, 1)]], 2, 3⟩,
    1099511627776, 52411337,
    41253562420081690381044526936587855531652288322806813098658343334776991199362419540866455, lc0⟩) (.skip))
    (.skip))) (.sx (.sx (.sy (.sy (.sx (.leaf ⟨1214, 16, 78, 7248, 16, 4393, ⟨[[(0, 2067556849242112)], [(0,
    1134115457725366)]], 2, 3⟩, ⟨[[(921280392916992, 0), (329670726652711, 0), (21185514507, 0), (4617607, 0)],
    [(172035982798336, 0), (65987824823, 0), (21888234, 0), (6557, 0)], [(43079188223, 0), (32567319, 0), (15417, 0),
    (5, 0)]], 2, 3⟩, 4503599627370496, 50, 5942483564057, ⟨[[(678837924197712, 0), (71510928205, 0), (0, 66627954),
    (0, 45532)], [(10649132770, 0), (31824284, 0), (50647, 0), (63, 0)], [(0, 2996923), (0, 11366), (0, 23)]], 2, 3⟩,
    1099511627776, 5394864,
    48089562865272799967398294724951821527045574220044876195648869684209883560859119801723575, lc0⟩) (.leaf ⟨1183,
    16, 78, 7012, 16, 4247, ⟨[[(0, 818054243251200)], [(0, 1134115457725366)]], 2, 3⟩, ⟨[[(0, 170539205406720),
    (326994354321445, 0), (23299610792, 0), (5316644, 0)], [(177188364473934, 0), (72190524098, 0), (25165645, 0),
    (7678, 0)], [(47629400386, 0), (37522477, 0), (18019, 0), (6, 0)]], 2, 3⟩, 4503599627370496, 206, 6894909502070,
    ⟨[[(678859452442791, 0), (72220492990, 0), (0, 73766856), (0, 53255)], [(11002934278, 0), (34206925, 0), (56796,
    0), (73, 0)], [(0, 3128982), (0, 12331), (0, 26)]], 2, 3⟩, 1099511627776, 6017991,
    42709383084694929352893686220289874111154228226725846671179085340780046802156450289730788, lc0⟩)) (.sx (.leaf
    ⟨1214, 16, 78, 6791, 16, 4101, ⟨[[(0, 2067556849242112)], [(0, 1134115457725366)]], 2, 3⟩, ⟨[[(0,
    356750916341760), (323360726609228, 0), (25074186986, 0), (5864875, 0)], [(184950993104068, 0), (78433947817, 0),
    (28093408, 0), (8609, 0)], [(52845059760, 0), (42467193, 0), (20423, 0), (7, 0)]], 2, 3⟩, 4503599627370496, 50,
    7859082460245, ⟨[[(680687605228852, 0), (72709795448, 0), (0, 80753487), (0, 59798)], [(11530408774, 0),
    (37115942, 0), (64138, 0), (85, 0)], [(0, 3315300), (0, 13557), (0, 29)]], 2, 3⟩, 1099511627776, 6658731,
    42778647916198271816730646106179170000425372143449392309764326313324723026474686158901563, lc0⟩) (.skip)))
    (.skip)) (.skip)) (.skip))
theorem c46 : checkC job ⟨6, 8, 5, 6, 9, 13⟩ 1 40 B1.zlims t46 3995 61 640 7393 175 7584 = true := by decide +kernel

def t47 : CTree :=
  .sy (.sx (.sy (.leaf ⟨99, 16, 9, 2491, 16, 1630, ⟨[[(1159606535303744, 0)], [(0, 1046875807131107)]], 2, 3⟩,
    ⟨[[(530155815979008, 0), (367616562327194, 0), (5848830794, 0), (3732504, 0)], [(70109734879672, 0),
    (66342046548, 0), (24508800, 0), (9042, 0)], [(46296789966, 0), (46175782, 0), (29334, 0), (15, 0)]], 2, 3⟩,
    4503599627370496, 39, 56297806138606, ⟨[[(625969532229057, 0), (305597882672, 0), (0, 209780279), (0, 320817)],
    [(20393775109, 0), (207322178, 0), (638830, 0), (1875, 0)], [(0, 43657910), (0, 363715), (0, 1868), (0, 7)]], 2,
    3⟩, 1099511627776, 353305561,
    27991444796459423547832068669196636265774475680238857034367898707370954862520949412759069, lc0⟩) (.sx (.leaf
    ⟨225, 16, 19, 2564, 16, 1659, ⟨[[(0, 2202365770900480)], [(0, 1105035574193947)]], 2, 3⟩, ⟨[[(288511716243456,
    0), (377241065221516, 0), (9597171240, 0), (4924027, 0)], [(47231474422957, 0), (42317770456, 0), (17276917, 0),
    (6921, 0)], [(16069218734, 0), (17249153, 0), (11705, 0), (6, 0)]], 2, 3⟩, 4503599627370496, 64, 18806130659128,
    ⟨[[(634607103650019, 0), (289660335221, 0), (0, 225456921), (0, 350746)], [(12297365636, 0), (112183304, 0),
    (359005, 0), (1065, 0)], [(0, 12037047), (0, 102482), (0, 526), (0, 2)]], 2, 3⟩, 1099511627776, 86229582,
    41042434209700196572645223620189838682715575762174676801308073823763069877460456133362311, lc0⟩) (.leaf ⟨195, 16,
    19, 2517, 16, 1628, ⟨[[(0, 1908717001447040)], [(0, 1105035574193947)]], 2, 3⟩, ⟨[[(2079588138633216, 0),
    (375524273431050, 0), (11669794431, 0), (5763432, 0)], [(50421517908392, 0), (46009338767, 0), (20074886, 0),
    (8572, 0)], [(17663195870, 0), (19913498, 0), (14242, 0), (9, 0)]], 2, 3⟩, 4503599627370496, 31, 27364394964224,
    ⟨[[(634492535165447, 0), (291200739926, 0), (0, 246933808), (0, 409547)], [(13154313738, 0), (121620080, 0),
    (410804, 0), (1270, 0)], [(0, 12962326), (0, 115329), (0, 612), (0, 2)]], 2, 3⟩, 1099511627776, 101305423,
    44744021739298336373993400530699348955204299395946359121395582582106807663942913029705249, lc0⟩))) (.sy (.leaf
    ⟨71, 16, 9, 2403, 16, 1571, ⟨[[(0, 458452368317440)], [(0, 1046875807131107)]], 2, 3⟩, ⟨[[(0, 285748935968768),
    (362841879493284, 0), (8996303660, 0), (4907514, 0)], [(79613682884972, 0), (76533879089, 0), (31961716, 0),
    (13111, 0)], [(54556006105, 0), (59562076, 0), (41027, 0), (23, 0)]], 2, 3⟩, 4503599627370496, 61,
    105467110869698, ⟨[[(626034472458366, 0), (309664083739, 0), (0, 249547548), (0, 430493)], [(23510344165, 0),
    (241674989, 0), (829095, 0), (2644, 0)], [(0, 50217023), (0, 457126), (0, 2508), (0, 10)]], 2, 3⟩, 1099511627776,
    438680785, 32026076818223355198328524607138249261652772333639385476449843925788998654932050522489789, lc0⟩) (.sx
    (.sy (.leaf ⟨165, 16, 19, 4776, 16, 3096, ⟨[[(0, 1615068231993600)], [(0, 1105035574193947)]], 2, 3⟩,
    ⟨[[(768552352890880, 0), (360465613629039, 0), (5998713973, 0), (1486992, 0)], [(96385189586387, 0),
    (45019121234, 0), (10134085, 0), (2244, 0)], [(34146135859, 0), (19701914, 0), (7280, 0), (2, 0)]], 2, 3⟩,
    4503599627370496, 79, 6511420185066, ⟨[[(632471363165554, 0), (152655515278, 0), (0, 69801340), (0, 62760)],
    [(13252229797, 0), (65185406, 0), (117898, 0), (194, 0)], [(0, 13176261), (0, 62449), (0, 176)]], 2, 3⟩,
    1099511627776, 49139166,
    38143265772175033655669827200871646298573614160835402089194852327414312703622225497281497, lc0⟩) (.leaf ⟨165, 16,
    19, 4666, 16, 3007, ⟨[[(0, 1615068231993600)], [(0, 1105035574193947)]], 2, 3⟩, ⟨[[(1137867637035008, 0),
    (354752233139320, 0), (7517904763, 0), (1798306, 0)], [(110225686561948, 0), (51513817730, 0), (12571276, 0),
    (3102, 0)], [(40842472736, 0), (25116758, 0), (10340, 0), (4, 0)]], 2, 3⟩, 4503599627370496, 79, 9629211361460,
    ⟨[[(636704796701646, 0), (152975644061, 0), (0, 79921415), (0, 76441)], [(15181689414, 0), (74436504, 0),
    (143760, 0), (248, 0)], [(0, 15078055), (0, 75366), (0, 220)]], 2, 3⟩, 1099511627776, 59275636,
    45852802354769357137061948775878016118410309853307388906135867753137629315751878380760474, lc0⟩)) (.skip)))) (.sx
    (.sy (.sx (.sy (.leaf ⟨225, 16, 19, 4791, 16, 3073, ⟨[[(0, 2202365770900480)], [(0, 1105035574193947)]], 2, 3⟩,
    ⟨[[(0, 2209972273778688), (355089618935700, 0), (6520711629, 0), (1524187, 0)], [(110527451162273, 0),
    (49124706996, 0), (11144675, 0), (2479, 0)], [(39894236728, 0), (23163449, 0), (8612, 0), (3, 0)]], 2, 3⟩,
    4503599627370496, 64, 8476812955905, ⟨[[(641002043423380, 0), (150601226187, 0), (0, 73152447), (0, 64214)],
    [(15014178830, 0), (70222976, 0), (128190, 0), (211, 0)], [(0, 14631084), (0, 69840), (0, 197)]], 2, 3⟩,
    1099511627776, 56893072,
    45655654276832046095741665517077905530789801272761563657969928156028685245845918370843539, lc0⟩) (.leaf ⟨225, 16,
    19, 4668, 16, 2977, ⟨[[(0, 2202365770900480)], [(0, 1105035574193947)]], 2, 3⟩, ⟨[[(0, 1012569184776192),
    (349002140607331, 0), (8047951119, 0), (1841297, 0)], [(125165755143197, 0), (56137118699, 0), (13798082, 0),
    (3404, 0)], [(47657376598, 0), (29481585, 0), (12133, 0), (5, 0)]], 2, 3⟩, 4503599627370496, 64, 12497771254657,
    ⟨[[(645091287514645, 0), (151144054555, 0), (0, 83896517), (0, 78258)], [(17049156251, 0), (80294997, 0),
    (156667, 0), (271, 0)], [(0, 16711519), (0, 84254), (0, 247), (0, 1)]], 2, 3⟩, 1099511627776, 68367734,
    49038227510025413866462342775860706460555556316665675162106919595111918878930052250638722, lc0⟩)) (.sy (.leaf
    ⟨195, 16, 19, 4667, 16, 2992, ⟨[[(0, 1908717001447040)], [(0, 1105035574193947)]], 2, 3⟩, ⟨[[(1294143590010880,
    0), (351922705720862, 0), (7809850796, 0), (1826151, 0)], [(117726954850731, 0), (53883455496, 0), (13216271, 0),
    (3267, 0)], [(44220400780, 0), (27307165, 0), (11261, 0), (4, 0)]], 2, 3⟩, 4503599627370496, 31, 11024570602749,
    ⟨[[(640885915027324, 0), (152074879584, 0), (0, 81945986), (0, 77532)], [(16099467000, 0), (77314967, 0),
    (150117, 0), (259, 0)], [(0, 15880065), (0, 79734), (0, 234)]], 2, 3⟩, 1099511627776, 63709791,
    49091239257113285932478828219588542665239663881784952894094524190056771980885364093231482, lc0⟩) (.sx (.leaf
    ⟨415, 16, 39, 4877, 16, 3109, ⟨[[(0, 1105686485077504)], [(0, 1134115457725366)]], 2, 3⟩, ⟨[[(2232299495723008,
    0), (370113490576479, 0), (9839521821, 0), (2296837, 0)], [(70163009737508, 0), (32374853405, 0), (8537657, 0),
    (2352, 0)], [(13856308687, 0), (9104412, 0), (4198, 0), (2, 0)]], 2, 3⟩, 4503599627370496, 103, 1985911289667,
    ⟨[[(644981904905772, 0), (142603655237, 0), (0, 80775746), (0, 74950)], [(8767896379, 0), (39622636, 0), (75998,
    0), (128, 0)], [(0, 4235481), (0, 20807), (0, 59)]], 2, 3⟩, 1099511627776, 12851743,
    50053880845286881026088955772059765453579867452770796287809030330708323159698622278214351, lc0⟩) (.sx (.leaf
    ⟨783, 16, 78, 5003, 16, 3188, ⟨[[(1914680752516096, 0)], [(0, 1134115457725366)]], 2, 3⟩, ⟨[[(0,
    351426771537920), (382636295135060, 0), (10928629111, 0), (2594243, 0)], [(37310427030481, 0), (17493761840, 0),
    (4804672, 0), (1415, 0)], [(3760109494, 0), (2563647, 0), (1267, 0), (1, 0)]], 2, 3⟩, 4503599627370496, 25,
    1174171385658, ⟨[[(645059813817047, 0), (137823557957, 0), (0, 79004149), (0, 72932)], [(4526154166, 0),
    (19962228, 0), (37870, 0), (62, 0)], [(0, 1100087), (0, 5319), (0, 15)]], 2, 3⟩, 1099511627776, 5816545,
    50433772123944881634147701784419896835756284433008111142389544654336633925781317567175279, lc0⟩) (.skip))))) (.sx
    (.sy (.leaf ⟨225, 16, 19, 4522, 16, 2867, ⟨[[(0, 2202365770900480)], [(0, 1105035574193947)]], 2, 3⟩, ⟨[[(0,
    1573523448913920), (342240090228105, 0), (9863280545, 0), (2286270, 0)], [(141246504273320, 0), (64749477272, 0),
    (17545859, 0), (5012, 0)], [(57498229330, 0), (38691486, 0), (18497, 0), (9, 0)]], 2, 3⟩, 4503599627370496, 64,
    19018965018432, ⟨[[(649182400522288, 0), (151960913335, 0), (0, 97805992), (0, 97574)], [(19381464821, 0),
    (92994883, 0), (194997, 0), (355, 0)], [(0, 19226430), (0, 102879), (0, 316), (0, 1)]], 2, 3⟩, 1099511627776,
    82470582, 48993933170140761105655097022284230038566030807053050540518195323586960072185315709769141, lc0⟩) (.leaf
    ⟨225, 16, 19, 4347, 16, 2740, ⟨[[(0, 2202365770900480)], [(0, 1105035574193947)]], 2, 3⟩, ⟨[[(235325395959808,
    0), (334564738269355, 0), (12094159442, 0), (2961049, 0)], [(158935394409462, 0), (75708698900, 0), (23298949,
    0), (8022, 0)], [(70502605351, 0), (53413398, 0), (30883, 0), (18, 0)]], 2, 3⟩, 4503599627370496, 64,
    30001233694690, ⟨[[(653136620956384, 0), (153360562780, 0), (0, 116051421), (0, 124706)], [(21988082102, 0),
    (108937329, 0), (246943, 0), (476, 0)], [(0, 22185884), (0, 126731), (0, 410), (0, 1)]], 2, 3⟩, 1099511627776,
    100030737, 48391473114530584092502347975319677590680762512202565139731865905573422001292295942041634, lc0⟩)) (.sy
    (.sx (.leaf ⟨415, 16, 39, 4750, 16, 3010, ⟨[[(0, 1105686485077504)], [(0, 1134115457725366)]], 2, 3⟩,
    ⟨[[(1400174217203712, 0), (365894742679176, 0), (12224110253, 0), (2975857, 0)], [(80022100197040, 0),
    (38117686094, 0), (11344373, 0), (3757, 0)], [(17096624360, 0), (12561874, 0), (6999, 0), (4, 0)]], 2, 3⟩,
    4503599627370496, 103, 3092174962496, ⟨[[(649079164336405, 0), (142210477783, 0), (0, 93601429), (0, 92542)],
    [(9994282195, 0), (45871262, 0), (94029, 0), (165, 0)], [(0, 4897071), (0, 25379), (0, 75)]], 2, 3⟩,
    1099511627776, 15959668,
    49780574864766846427634941915117554049165069541107964346119687425860790517171206389604969, lc0⟩) (.skip))
    (.skip)))) (.sy (.sx (.sy (.sy (.leaf ⟨165, 16, 19, 8260, 16, 5299, ⟨[[(0, 1615068231993600)], [(0,
    1105035574193947)]], 2, 3⟩, ⟨[[(0, 1689957915951104), (316401881453623, 0), (3996593018, 0), (477309, 0)],
    [(219704818995707, 0), (51831707181, 0), (6799560, 0), (939, 0)], [(84998898296, 0), (27818003, 0), (6440, 0),
    (2, 0)]], 2, 3⟩, 4503599627370496, 79, 17837586598173, ⟨[[(639921010027816, 0), (84818926942, 0), (0, 27376608),
    (0, 15238)], [(16832089725, 0), (45908582, 0), (51709, 0), (51, 0)], [(0, 16784888), (0, 48449), (0, 81)]], 2,
    3⟩, 1099511627776, 59169794,
    48185187651284711958555473966598395581053517288616792596502471148300136372168635799374606, lc0⟩) (.skip))
    (.skip)) (.skip)) (.skip)))
theorem c47 : checkC job ⟨6, 8, 5, 6, 9, 13⟩ 1 40 B1.zlims t47 2089 61 320 3259 175 3792 = true := by decide +kernel

def t48 : CTree :=
  .sy (.sx (.sy (.sx (.sy (.leaf ⟨225, 16, 19, 4137, 16, 2592, ⟨[[(0, 2202365770900480)], [(0, 1105035574193947)]],
    2, 3⟩, ⟨[[(832358102929408, 0), (325664590730564, 0), (14982797099, 0), (4067929, 0)], [(178495813113474, 0),
    (90468488163, 0), (32900767, 0), (13854, 0)], [(88840051424, 0), (79073036, 0), (55655, 0), (36, 0)]], 2, 3⟩,
    4503599627370496, 64, 48972060545093, ⟨[[(657075283151480, 0), (155402095002, 0), (0, 141297065), (0, 165277)],
    [(25022843895, 0), (129942904, 0), (321446, 0), (663, 0)], [(0, 25807345), (0, 158794), (0, 546), (0, 1)]], 2,
    3⟩, 1099511627776, 123504841,
    43249383090999125719126492151787625089371589364474005994581549256874347580268701552925448, lc0⟩) (.leaf ⟨225, 16,
    19, 3882, 16, 2417, ⟨[[(0, 2202365770900480)], [(0, 1105035574193947)]], 2, 3⟩, ⟨[[(0, 532102830839808),
    (315077609267112, 0), (18981979795, 0), (5985041, 0)], [(200386008099895, 0), (111810343934, 0), (49861826, 0),
    (25101, 0)], [(116765011113, 0), (126205409, 0), (104622, 0), (72, 0)]], 2, 3⟩, 4503599627370496, 64,
    82093151023014, ⟨[[(661027796622705, 0), (158376050886, 0), (0, 178313808), (0, 230450)], [(28641432139, 0),
    (158863297, 0), (434783, 0), (972, 0)], [(0, 30342009), (0, 203783), (0, 754), (0, 2)]], 2, 3⟩, 1099511627776,
    155245656, 39246261904082969154365884096369861395171019071850050521413844771374578284971570211527157, lc0⟩))
    (.skip)) (.skip)) (.skip)) (.skip)
theorem c48 : checkC job ⟨6, 8, 5, 6, 9, 13⟩ 1 40 B1.zlims t48 2089 61 320 3609 175 3792 = true := by decide +kernel

def t49 : CTree :=
  .skip
theorem c49 : checkC job ⟨6, 8, 5, 6, 9, 13⟩ 1 40 B1.zlims t49 2211 61 320 1717 175 1896 = true := by decide +kernel

end PyX.Kron.T1ph
