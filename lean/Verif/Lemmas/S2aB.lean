import Verif.Lemmas.S2aJob

/-!
# Temperature from pressure and entropy in subregion 2a, part B of the certificate
-/

namespace PyX.Kron.S2a

set_option Elab.async false

def t11 : CTree :=
  .sx (.sy (.sx (.sy (.leaf ⟨257, 16, 1548, 456, 16, 140, ⟨[[(406948151296, 0)], [(415538085888, 0)]], 3, 4⟩, ⟨[[(0,
    65310932217), (0, 2618701535937), (26232257880, 0), (0, 351254288), (5211791, 0)], [(0, 208654404307), (0,
    655896), (0, 19901), (0, 464), (0, 9)], [(153167945, 0), (0, 1445), (0, 44), (0, 1)], [(0, 149987), (0, 1)]], 3,
    4⟩, 1099511627776, 0, 2018854653, ⟨[[(40217017814849, 0), (286258252492, 0), (833209687, 0), (713370, 0), (0,
    2038)], [(143937660062, 0), (837397951, 0), (1085368, 0), (0, 4029), (0, 21)], [(0, 69313715), (0, 1075557), (0,
    5199), (0, 15)], [(0, 1058), (955, 0), (6, 0)]], 3, 4⟩, 68719476736, 357662497,
    1091688490093306209476011931269342399107056650429139193069291537806887925116002565759787373130, ⟨3, 0,
    -254932859108427, [208644488966, 153189786, 149966]⟩⟩) (.leaf ⟨257, 16, 1548, 468, 16, 148, ⟨[[(406948151296,
    0)], [(415538085888, 0)]], 3, 4⟩, ⟨[[(0, 298461983328), (0, 2471417194598), (22072702017, 0), (0, 265367414),
    (3506181, 0)], [(0, 220582550551), (0, 1008222), (0, 32295), (0, 777), (0, 14)], [(161909299, 0), (0, 2222), (0,
    71), (0, 2)], [(0, 158568), (0, 2)]], 3, 4⟩, 1099511627776, 0, 2118891246, ⟨[[(36556145596597, 0), (250198646495,
    0), (718336455, 0), (683588, 0), (0, 1205)], [(133003259944, 0), (762993795, 0), (1095084, 0), (0, 2471), (0,
    16)], [(0, 55894478), (0, 894491), (0, 4087), (0, 13)], [(0, 12903), (792, 0), (3, 0)]], 3, 4⟩, 68719476736,
    260572910, 1148811517836166924821695856783927191633709900700427193453220190497776784881425422088812042439, ⟨3, 0,
    -269500451057480, [220567031193, 161943488, 158535]⟩⟩)) (.sy (.leaf ⟨288, 16, 1548, 470, 16, 149,
    ⟨[[(396210733056, 0)], [(415538085888, 0)]], 3, 4⟩, ⟨[[(0, 425496303423), (0, 2787115072783), (27916540616, 0),
    (0, 373883324), (5545851, 0)], [(0, 198207574914), (0, 981907), (0, 29798), (0, 695), (0, 14)], [(129848098, 0),
    (0, 1931), (0, 59), (0, 1)], [(0, 113505), (0, 2)]], 3, 4⟩, 1099511627776, 0, 1366817572, ⟨[[(40311092902003, 0),
    (269468348182, 0), (736393083, 0), (590715, 0), (0, 1617)], [(128695986647, 0), (702989591, 0), (850523, 0), (0,
    3069), (0, 14)], [(0, 55512695), (0, 811603), (0, 3687), (0, 9)], [(0, 962), (675, 0), (4, 0)]], 3, 4⟩,
    68719476736, 216724646,
    630648536307534102822152071298898782291994027118881170924117624304912201047221699134861719260, ⟨2, 0,
    -254128212587095, [198192732175, 129877282, 113479]⟩⟩) (.leaf ⟨288, 16, 1548, 483, 16, 158, ⟨[[(396210733056,
    0)], [(415538085888, 0)]], 3, 4⟩, ⟨[[(0, 276288534158), (0, 2638510372473), (23560720092, 0), (0, 283378969),
    (3741617, 0)], [(0, 210187409372), (0, 1514136), (0, 48513), (0, 1167), (0, 21)], [(137676392, 0), (0, 2979), (0,
    96), (0, 2)], [(0, 120374), (0, 3)]], 3, 4⟩, 1099511627776, 0, 1433061282, ⟨[[(36553614558144, 0), (234331699353,
    0), (630367217, 0), (563237, 0), (0, 923)], [(118681599464, 0), (638007245, 0), (858575, 0), (0, 1855), (0, 11)],
    [(0, 44480137), (0, 670484), (0, 2881), (0, 9)], [(0, 10114), (560, 0), (2, 0)]], 3, 4⟩, 68719476736, 164370453,
    709215979017438045976939266623549518846146957300626260607918001629817623368405520139023218622, ⟨2, 0,
    -269478238850745, [210164105259, 137722218, 120334]⟩⟩))) (.sx (.sx (.leaf ⟨499, 16, 3096, 426, 16, 139,
    ⟨[[(269509197824, 0)], [(415538085888, 0)]], 3, 4⟩, ⟨[[(0, 453445285245), (0, 4000468595847), (61272665126, 0),
    (0, 1283800341), (29130330, 0)], [(0, 106803760513), (0, 1563026), (0, 104884), (0, 4829), (0, 146)], [(40407258,
    0), (0, 1776), (0, 119), (0, 5)], [(0, 20406), (0, 1)]], 3, 4⟩, 1099511627776, 0, 495260723, ⟨[[(32176945568181,
    0), (238935301003, 0), (769034409, 0), (910461, 0), (0, 996)], [(61445163316, 0), (394983012, 0), (702585, 0),
    (0, 978), (0, 4)], [(0, 10809443), (0, 212728), (0, 1064), (0, 1)], [(0, 3416), (87, 0), (1, 0)]], 3, 4⟩,
    68719476736, 195122738,
    1210968831580027900322666525429688960268002484857587718017174142421245205631487449856023508149, ⟨3, 0,
    -257423801208338, [106791817244, 40420824, 20399]⟩⟩) (.leaf ⟨530, 16, 3096, 424, 16, 141, ⟨[[(258771779584, 0)],
    [(415538085888, 0)]], 3, 4⟩, ⟨[[(0, 140714611940), (0, 4058171932390), (62144714119, 0), (0, 1302712997),
    (29536109, 0)], [(0, 102011523991), (0, 1899767), (0, 127498), (0, 5871), (0, 178)], [(36334086, 0), (0, 2033),
    (0, 137), (0, 6)], [(0, 17280), (0, 1)]], 3, 4⟩, 1099511627776, 0, 473038576, ⟨[[(32110150193826, 0),
    (235107199973, 0), (746637455, 0), (874113, 0), (0, 907)], [(57745808556, 0), (366337889, 0), (644620, 0), (0,
    884), (0, 4)], [(0, 9506781), (0, 186195), (0, 918), (0, 1)], [(0, 3121), (78, 0), (1, 0)]], 3, 4⟩, 68719476736,
    183039355, 1073235706064205612850091628240473631685399637884552601996144810700894728747897680837435642579, ⟨3, 0,
    -252509609901423, [101997008833, 36349611, 17272]⟩⟩)) (.sx (.leaf ⟨561, 16, 3096, 422, 16, 143, ⟨[[(248034361344,
    0)], [(415538085888, 0)]], 3, 4⟩, ⟨[[(423899302494, 0), (0, 4115907059316), (63014628040, 0), (0, 1321724045),
    (29938902, 0)], [(0, 97749185518), (0, 2285080), (0, 153381), (0, 7064), (0, 214)], [(32888663, 0), (0, 2311),
    (0, 155), (0, 7)], [(0, 14781), (0, 1)]], 3, 4⟩, 1099511627776, 0, 457466887, ⟨[[(31992259224394, 0),
    (231067625099, 0), (724648293, 0), (839281, 0), (0, 812)], [(54380192394, 0), (340693076, 0), (594161, 0), (0,
    794), (0, 4)], [(0, 8392008), (0, 163365), (0, 798), (0, 1)], [(0, 2770), (67, 0), (1, 0)]], 3, 4⟩, 68719476736,
    173413957, 866695047087771760672696290782207030629156807021286231703165656494616666341042688712764601525, ⟨2, 0,
    -247847544621300, [97731728086, 32906306, 14773]⟩⟩) (.leaf ⟨592, 16, 3096, 421, 16, 145, ⟨[[(237296943104, 0)],
    [(415538085888, 0)]], 3, 4⟩, ⟨[[(107527930069, 0), (0, 4173678536506), (63882099827, 0), (0, 1340847679),
    (30338276, 0)], [(0, 93933646456), (0, 2723033), (0, 182812), (0, 8421), (0, 255)], [(29945884, 0), (0, 2610),
    (0, 175), (0, 8)], [(0, 12757), (0, 1)]], 3, 4⟩, 1099511627776, 0, 447076873, ⟨[[(32060350983654, 0),
    (228289686319, 0), (705584921, 0), (802770, 0), (0, 735)], [(51626870608, 0), (318744506, 0), (547559, 0), (0,
    723), (0, 4)], [(0, 7574951), (0, 145192), (0, 700), (0, 1)], [(0, 2380), (57, 0), (1, 0)]], 3, 4⟩, 68719476736,
    168898640, 640369146047668117962809538334697211871981900251719128930814387519364499380143506965547882135, ⟨2, 0,
    -243404283234370, [93912845578, 29965809, 12749]⟩⟩)))) (.sy (.sx (.sy (.leaf ⟨319, 16, 1548, 480, 16, 157,
    ⟨[[(385473314816, 0)], [(415538085888, 0)]], 3, 4⟩, ⟨[[(35868053443, 0), (0, 2936858364334), (29412394466, 0),
    (0, 394028034), (5842182, 0)], [(0, 188589653825), (0, 1405535), (0, 42665), (0, 995), (0, 20)], [(111541221, 0),
    (0, 2496), (0, 76), (0, 2)], [(0, 88061), (0, 2)]], 3, 4⟩, 1099511627776, 0, 964335641, ⟨[[(40204309172436, 0),
    (255171556944, 0), (662722398, 0), (507175, 0), (0, 1304)], [(115938877505, 0), (601845599, 0), (694240, 0), (0,
    2382), (0, 11)], [(0, 44995297), (0, 627062), (0, 2715), (0, 6)], [(0, 953), (477, 0), (3, 0)]], 3, 4⟩,
    68719476736, 141904951,
    348843889373356492033315745369937059941925832313455697082465278437251225557051796506842272330, ⟨2, 0,
    -251507445652367, [188568409356, 111578940, 88031]⟩⟩) (.leaf ⟨319, 16, 1548, 495, 16, 167, ⟨[[(385473314816, 0)],
    [(415538085888, 0)]], 3, 4⟩, ⟨[[(0, 539284787836), (0, 2788959230112), (24897852617, 0), (0, 299639545),
    (3952602, 0)], [(0, 200612596493), (0, 2174365), (0, 69691), (0, 1678), (0, 30)], [(118626459, 0), (0, 3864), (0,
    124), (0, 3)], [(0, 93685), (0, 3)]], 3, 4⟩, 1099511627776, 0, 1008572136, ⟨[[(36608820956918, 0), (221969293285,
    0), (564698043, 0), (475959, 0), (0, 730)], [(107283208635, 0), (545385430, 0), (693530, 0), (0, 1443), (0, 8)],
    [(0, 36375213), (0, 518963), (0, 2125), (0, 6)], [(0, 7474), (394, 0), (1, 0)]], 3, 4⟩, 68719476736, 115532594,
    331531284460194387179149751561931432788758344224786155522157375291218071700109174791506755584, ⟨2, 0,
    -267527028177996, [200579136066, 118685879, 93638]⟩⟩)) (.sy (.leaf ⟨350, 16, 1548, 487, 16, 164,
    ⟨[[(374735896576, 0)], [(415538085888, 0)]], 3, 4⟩, ⟨[[(454139201235, 0), (0, 3067940185615), (30719552254, 0),
    (0, 411694682), (6100657, 0)], [(0, 179581243970), (0, 1938820), (0, 58873), (0, 1374), (0, 28)], [(96798281, 0),
    (0, 3140), (0, 95), (0, 2)], [(0, 69682), (0, 2)]], 3, 4⟩, 1099511627776, 0, 704254487, ⟨[[(40116542954070, 0),
    (243831543171, 0), (606964210, 0), (445791, 0), (0, 1081)], [(105480949913, 0), (524732463, 0), (581746, 0), (0,
    1906), (0, 8)], [(0, 37194771), (0, 497838), (0, 2072), (0, 5)], [(0, 856), (345, 0), (2, 0)]], 3, 4⟩,
    68719476736, 110694412,
    383527789634822804096359089719648592647370169029047967837279286334564064604208746809190177646, ⟨2, 0,
    -247305559486178, [179551942562, 96845708, 69648]⟩⟩) (.leaf ⟨350, 16, 1548, 500, 16, 174, ⟨[[(374735896576, 0)],
    [(415538085888, 0)]], 3, 4⟩, ⟨[[(394900765427, 0), (0, 2906076354483), (25934594062, 0), (0, 312364982),
    (4115286, 0)], [(0, 190546267028), (0, 2992155), (0, 95947), (0, 2311), (0, 42)], [(102676401, 0), (0, 4849), (0,
    156), (0, 4)], [(0, 73949), (0, 4)]], 3, 4⟩, 1099511627776, 0, 729317810, ⟨[[(36428190781679, 0), (212140898419,
    0), (519227422, 0), (421408, 0), (0, 585)], [(97374898780, 0), (476111410, 0), (585327, 0), (0, 1140), (0, 7)],
    [(0, 29854531), (0, 411314), (0, 1624), (0, 4)], [(0, 5907), (283, 0), (1, 0)]], 3, 4⟩, 68719476736, 82082512,
    354040473122182871154169867909243719285775133931602165642016796763572589701306177126419686169, ⟨2, 0,
    -262385166771920, [190500231742, 102750934, 73895]⟩⟩))) (.sx (.sy (.leaf ⟨319, 16, 1548, 503, 16, 175,
    ⟨[[(385473314816, 0)], [(415538085888, 0)]], 3, 4⟩, ⟨[[(52050675038, 0), (0, 2640154303043), (21220702508, 0),
    (0, 232609150), (2758097, 0)], [(0, 210239504491), (0, 3374392), (0, 112277), (0, 2646), (0, 42)], [(124279437,
    0), (0, 6000), (0, 200), (0, 5)], [(0, 98196), (0, 5)]], 3, 4⟩, 1099511627776, 0, 1047827277, ⟨[[(33405871569368,
    0), (195976654563, 0), (493965402, 0), (444718, 0), (0, 391)], [(99265925362, 0), (499780017, 0), (681137, 0),
    (0, 871), (0, 5)], [(0, 29052413), (0, 437975), (0, 1723), (0, 3)], [(0, 13063), (333, 0), (2, 0)]], 3, 4⟩,
    68719476736, 105542965,
    404656956286595522985733679132977182332570330167545437998229290689892960445782961280191530888, ⟨2, 0,
    -280342694198499, [210187717435, 124371430, 98123]⟩⟩) (.leaf ⟨319, 16, 1548, 512, 16, 183, ⟨[[(385473314816, 0)],
    [(415538085888, 0)]], 3, 4⟩, ⟨[[(0, 373972896059), (0, 2518554549003), (18364133075, 0), (0, 185465564),
    (1999316, 0)], [(0, 219876510294), (0, 5277425), (0, 177702), (0, 3984), (0, 57)], [(129914435, 0), (0, 9390),
    (0, 317), (0, 7)], [(0, 102722), (0, 7)]], 3, 4⟩, 1099511627776, 0, 1090741121, ⟨[[(30870598985640, 0),
    (174998067151, 0), (435058442, 0), (403794, 0), (0, 210)], [(92701543615, 0), (460090053, 0), (650830, 0), (0,
    589), (0, 2)], [(0, 23493030), (0, 376068), (0, 1496), (0, 1)], [(0, 17141), (259, 0), (3, 0)]], 3, 4⟩,
    68719476736, 89629349,
    623384857506949678010193651071825756109223045323887959139235397108042883226955206570426846236, ⟨2, 0,
    -293158360219001, [219796298803, 130056982, 102609]⟩⟩)) (.sy (.leaf ⟨350, 16, 1548, 513, 16, 184,
    ⟨[[(374735896576, 0)], [(415538085888, 0)]], 3, 4⟩, ⟨[[(201703425666, 0), (0, 2776269844410), (22300864117, 0),
    (0, 244835661), (2895705, 0)], [(0, 201520428072), (0, 4686865), (0, 156034), (0, 3679), (0, 59)], [(108539688,
    0), (0, 7602), (0, 254), (0, 6)], [(0, 78226), (0, 6)]], 3, 4⟩, 1099511627776, 0, 761607827, ⟨[[(33384998258932,
    0), (186269932932, 0), (446898849, 0), (379918, 0), (0, 285)], [(90423203294, 0), (433125520, 0), (561576, 0),
    (0, 667), (0, 4)], [(0, 24079922), (0, 345799), (0, 1300), (0, 3)], [(0, 9891), (237, 0), (1, 0)]], 3, 4⟩,
    68719476736, 67864735,
    407954838466800792724240005245611182902546425848748478737790711266253383438357876813040852511, ⟨2, 0,
    -277464774057663, [201448520923, 108656160, 78142]⟩⟩) (.leaf ⟨350, 16, 1548, 523, 16, 193, ⟨[[(374735896576, 0)],
    [(415538085888, 0)]], 3, 4⟩, ⟨[[(123719020413, 0), (0, 2656707919609), (19349872290, 0), (0, 195998689),
    (2102841, 0)], [(0, 211413712648), (0, 7354232), (0, 247782), (0, 5559), (0, 80)], [(113789775, 0), (0, 11940),
    (0, 403), (0, 9)], [(0, 82095), (0, 9)]], 3, 4⟩, 1099511627776, 0, 793523259, ⟨[[(30796214145742, 0),
    (165550757186, 0), (391019376, 0), (339785, 0), (0, 118)], [(84309229051, 0), (397166077, 0), (532770, 0), (0,
    422), (0, 2)], [(0, 19367114), (0, 295193), (0, 1114), (0, 1)], [(0, 12997), (183, 0), (2, 0)]], 3, 4⟩,
    68719476736, 59211793,
    515429847689061859653152861404054919243579832143718609771757116079696833052232145716566747967, ⟨2, 0,
    -291036420614831, [211301981186, 113970864, 81964]⟩⟩))))
theorem c11 : checkC job ⟨6, 8, 8, 10, 9, 13⟩ 3 100 lims t11 201 41 1024 9 3 16 = true := by decide +kernel

def t12 : CTree :=
  .sy (.sx (.sx (.sy (.leaf ⟨381, 16, 1548, 492, 16, 170, ⟨[[(363998478336, 0)], [(415538085888, 0)]], 3, 4⟩, ⟨[[(0,
    63806500211), (0, 3180369907330), (31837728069, 0), (0, 426890000), (6321137, 0)], [(0, 171034304131), (0,
    2592294), (0, 78752), (0, 1839), (0, 37)], [(84676696, 0), (0, 3858), (0, 117), (0, 3)], [(0, 56025), (0, 3)]],
    3, 4⟩, 1099511627776, 0, 529581209, ⟨[[(40234973623590, 0), (235780797758, 0), (565583908, 0), (397060, 0), (0,
    932)], [(97132221851, 0), (465519826, 0), (494683, 0), (0, 1587), (0, 7)], [(0, 31583762), (0, 407325), (0,
    1636), (0, 3)], [(0, 554), (260, 0), (1, 0)]], 3, 4⟩, 68719476736, 84361213,
    439433118308888463297871233171311596910943800421713995386415588327325928228029239555779910510, ⟨2, 0,
    -241729083456795, [170995133000, 84734952, 55986]⟩⟩) (.leaf ⟨381, 16, 1548, 509, 16, 182, ⟨[[(363998478336, 0)],
    [(415538085888, 0)]], 3, 4⟩, ⟨[[(132537799518, 0), (0, 3039981868370), (27117597070, 0), (0, 326952922),
    (4300401, 0)], [(0, 183127482067), (0, 4037714), (0, 129554), (0, 3123), (0, 57)], [(90623843, 0), (0, 6015), (0,
    194), (0, 5)], [(0, 59999), (0, 4)]], 3, 4⟩, 1099511627776, 0, 548158313, ⟨[[(36483581459417, 0), (203056956475,
    0), (475058145, 0), (365509, 0), (0, 468)], [(89565358501, 0), (418421256, 0), (490293, 0), (0, 911), (0, 5)],
    [(0, 25269907), (0, 332789), (0, 1258), (0, 3)], [(0, 4531), (209, 0), (1, 0)]], 3, 4⟩, 68719476736, 65314890,
    353553362858621060322686506091051367240954070713468992293677285895661732352072760168775773019, ⟨2, 0,
    -258792312877275, [183065377682, 90716243, 59938]⟩⟩)) (.sy (.leaf ⟨412, 16, 1548, 497, 16, 176, ⟨[[(353261060096,
    0)], [(415538085888, 0)]], 3, 4⟩, ⟨[[(0, 431417162712), (0, 3292866676978), (32953863586, 0), (0, 442133118),
    (6540640, 0)], [(0, 163775861852), (0, 3393797), (0, 103161), (0, 2412), (0, 49)], [(74963652, 0), (0, 4673), (0,
    142), (0, 3)], [(0, 45894), (0, 3)]], 3, 4⟩, 1099511627776, 0, 410893042, ⟨[[(40314020249066, 0), (228093091888,
    0), (528182600, 0), (355019, 0), (0, 800)], [(89968148889, 0), (416096121, 0), (425019, 0), (0, 1325), (0, 6)],
    [(0, 27116339), (0, 337666), (0, 1308), (0, 3)], [(0, 398), (199, 0), (1, 0)]], 3, 4⟩, 68719476736, 69874578,
    411623446459523271286889551540315917976986677252124402134923858473470165160985840331860588252, ⟨2, 0,
    -236303955001113, [163724589954, 75034184, 45850]⟩⟩) (.leaf ⟨412, 16, 1548, 512, 16, 188, ⟨[[(353261060096, 0)],
    [(415538085888, 0)]], 3, 4⟩, ⟨[[(374141955828, 0), (0, 3140587165498), (27999190101, 0), (0, 338030547),
    (4436759, 0)], [(0, 174968745919), (0, 5275595), (0, 169405), (0, 4089), (0, 74)], [(80038504, 0), (0, 7274), (0,
    234), (0, 6)], [(0, 49045), (0, 4)]], 3, 4⟩, 1099511627776, 0, 419682915, ⟨[[(36444221866212, 0), (196375464473,
    0), (445247743, 0), (329104, 0), (0, 380)], [(82750845140, 0), (374422761, 0), (424531, 0), (0, 746), (0, 5)],
    [(0, 21538912), (0, 275417), (0, 1005), (0, 3)], [(0, 3642), (159, 0), (1, 0)]], 3, 4⟩, 68719476736, 52236278,
    363773053817650265123709199926806046860058319011339194129574582284189323060290723184358981632, ⟨2, 0,
    -252415588296643, [174887630178, 80150151, 48977]⟩⟩))) (.sy (.sx (.leaf ⟨443, 16, 1548, 499, 16, 181,
    ⟨[[(342523641856, 0)], [(415538085888, 0)]], 3, 4⟩, ⟨[[(0, 435751676449), (0, 3386734199625), (33880317097, 0),
    (0, 454921500), (6721806, 0)], [(0, 156670879452), (0, 4339536), (0, 132004), (0, 3090), (0, 63)], [(66670316,
    0), (0, 5561), (0, 170), (0, 4)], [(0, 37987), (0, 3)]], 3, 4⟩, 1099511627776, 0, 325941307, ⟨[[(40315239903040,
    0), (221778261549, 0), (499575385, 0), (324364, 0), (0, 696)], [(83675110335, 0), (376270791, 0), (373209, 0),
    (0, 1124), (0, 5)], [(0, 23445302), (0, 284276), (0, 1067), (0, 2)], [(0, 351), (156, 0), (1, 0)]], 3, 4⟩,
    68719476736, 54300306,
    424334128619835870892867729944244588205731674954979060540224994409118473075446845167541906871, ⟨2, 0,
    -229704562355926, [156605336466, 66754193, 37939]⟩⟩) (.leaf ⟨474, 16, 1548, 498, 16, 185, ⟨[[(331786223616, 0)],
    [(415538085888, 0)]], 3, 4⟩, ⟨[[(86058968494, 0), (0, 3461982904992), (34616766294, 0), (0, 465262904), (6864470,
    0)], [(0, 149689777449), (0, 5434822), (0, 165468), (0, 3880), (0, 79)], [(59506493, 0), (0, 6514), (0, 199), (0,
    5)], [(0, 31715), (0, 3)]], 3, 4⟩, 1099511627776, 0, 264047876, ⟨[[(40212907158351, 0), (216507691413, 0),
    (477981269, 0), (302567, 0), (0, 609)], [(78041370544, 0), (343718803, 0), (334642, 0), (0, 964), (0, 4)], [(0,
    20354157), (0, 242366), (0, 886), (0, 2)], [(0, 377), (125, 0), (1, 0)]], 3, 4⟩, 68719476736, 52817029,
    389031048033388377762997243601088982517464926135462455850848023081596148374792271312425170652, ⟨2, 0,
    -222093931174975, [149607717373, 59604668, 31663]⟩⟩)) (.sx (.leaf ⟨443, 16, 1548, 516, 16, 194, ⟨[[(342523641856,
    0)], [(415538085888, 0)]], 3, 4⟩, ⟨[[(0, 321878989898), (0, 3241318152227), (28876734568, 0), (0, 349206307),
    (4571332, 0)], [(0, 167957294718), (0, 6770904), (0, 217633), (0, 5260), (0, 95)], [(71415428, 0), (0, 8691), (0,
    281), (0, 7)], [(0, 40740), (0, 5)]], 3, 4⟩, 1099511627776, 0, 329389027, ⟨[[(36569499461833, 0), (190824563310,
    0), (418998118, 0), (295332, 0), (0, 312)], [(77182221796, 0), (337944089, 0), (368401, 0), (0, 624), (0, 4)],
    [(0, 18765474), (0, 232294), (0, 815), (0, 2)], [(0, 2886), (125, 0)]], 3, 4⟩, 68719476736, 45012726,
    323492750423903645692261851463908677277339808213488085086467821400160450836560176843412911534, ⟨2, 0,
    -246202680094197, [167853233560, 71548693, 40664]⟩⟩) (.leaf ⟨474, 16, 1548, 517, 16, 199, ⟨[[(331786223616, 0)],
    [(415538085888, 0)]], 3, 4⟩, ⟨[[(0, 464101789568), (0, 3325489634846), (29600642630, 0), (0, 358698402),
    (4680217, 0)], [(0, 161060157533), (0, 8513714), (0, 273981), (0, 6633), (0, 121)], [(63958688, 0), (0, 10226),
    (0, 331), (0, 8)], [(0, 34142), (0, 6)]], 3, 4⟩, 1099511627776, 0, 263540936, ⟨[[(36594374839480, 0),
    (186102752565, 0), (398647612, 0), (269710, 0), (0, 250)], [(72175980742, 0), (308003356, 0), (325658, 0), (0,
    522), (0, 3)], [(0, 16400768), (0, 198403), (0, 672), (0, 2)], [(0, 2386), (100, 0)]], 3, 4⟩, 68719476736,
    43430763, 235239048058115468041448003381077825634228649553972564580611994055050108639823997485092091310, ⟨2, 0,
    -238901039480108, [160929382471, 64115292, 34059]⟩⟩)))) (.sx (.sx (.leaf ⟨381, 16, 1548, 342, 16, 128,
    ⟨[[(363998478336, 0)], [(415538085888, 0)]], 3, 4⟩, ⟨[[(0, 186083765436), (0, 3686000679883), (56281609121, 0),
    (0, 1188756686), (26626116, 0)], [(0, 128827779802), (0, 10287539), (0, 691824), (0, 31930), (0, 971)],
    [(63683518, 0), (0, 15355), (0, 1036), (0, 48), (0, 1)], [(0, 42232), (0, 10), (0, 1)]], 3, 4⟩, 1099511627776, 0,
    703508679, ⟨[[(32111184748850, 0), (258860457147, 0), (907800254, 0), (1132326, 0), (0, 672)], [(80321754538, 0),
    (561590486, 0), (1086800, 0), (0, 1457), (0, 14)], [(0, 18323089), (0, 398305), (0, 2182), (0, 5)], [(0, 8861),
    (239, 0), (2, 0)]], 3, 4⟩, 68719476736, 1410060827,
    573549953992683432721261980270093604129156937923693450202539746740799670533696160655763724891, ⟨2, 0,
    -182007780485116, [128749276612, 63800434, 42154]⟩⟩) (.leaf ⟨412, 16, 1548, 340, 16, 131, ⟨[[(353261060096, 0)],
    [(415538085888, 0)]], 3, 4⟩, ⟨[[(426155841535, 0), (0, 3773366269619), (57535113498, 0), (0, 1219647375),
    (27157993, 0)], [(0, 121964806196), (0, 13324520), (0, 896925), (0, 41443), (0, 1262)], [(55709248, 0), (0,
    18420), (0, 1246), (0, 58), (0, 2)], [(0, 34214), (0, 11), (0, 1)]], 3, 4⟩, 1099511627776, 0, 618596442,
    ⟨[[(31972297132158, 0), (251916543219, 0), (866112243, 0), (1036565, 0), (0, 306)], [(73996570431, 0),
    (506497438, 0), (956094, 0), (0, 1121), (0, 13)], [(0, 15460349), (0, 331597), (0, 1759), (0, 4)], [(0, 7117),
    (182, 0), (2, 0)]], 3, 4⟩, 68719476736, 1360404863,
    423238595369913235247928314775436695212131648803919662009921727091479408015560528776422089186, ⟨2, 0,
    -175885330142874, [121863189113, 55849308, 34127]⟩⟩)) (.sx (.leaf ⟨443, 16, 1548, 339, 16, 134, ⟨[[(342523641856,
    0)], [(415538085888, 0)]], 3, 4⟩, ⟨[[(231256099937, 0), (0, 3861030166084), (58768455793, 0), (0, 1251474067),
    (27661211, 0)], [(0, 116069130702), (0, 16963014), (0, 1143226), (0, 52898), (0, 1613)], [(49254378, 0), (0,
    21850), (0, 1482), (0, 69), (0, 2)], [(0, 28183), (0, 13), (0, 1)]], 3, 4⟩, 1099511627776, 0, 562491369,
    ⟨[[(32020449184736, 0), (246521302269, 0), (829747716, 0), (943934, 0), (2, 0)], [(68905610832, 0), (460989655,
    0), (842581, 0), (0, 866), (0, 12)], [(0, 13396544), (0, 281968), (0, 1436), (0, 4)], [(0, 5739), (144, 0), (1,
    0)]], 3, 4⟩, 68719476736, 1301658381,
    401108906316847404212829255125416501208277754122249270854395164833764104493995116104933534058, ⟨2, 0,
    -170057521302177, [115939862356, 49420231, 28088]⟩⟩) (.leaf ⟨474, 16, 1548, 336, 16, 136, ⟨[[(331786223616, 0)],
    [(415538085888, 0)]], 3, 4⟩, ⟨[[(0, 242142382711), (0, 3920225592126), (59539835328, 0), (0, 1275050646),
    (27924534, 0)], [(0, 110142694302), (0, 21120829), (0, 1425555), (0, 66075), (0, 2019)], [(43624453, 0), (0,
    25485), (0, 1734), (0, 81), (0, 3)], [(0, 23380), (0, 14), (0, 1)]], 3, 4⟩, 1099511627776, 0, 521426284,
    ⟨[[(32127888976026, 0), (243512105853, 0), (808392049, 0), (875131, 0), (289, 0)], [(64583648293, 0), (425358575,
    0), (755903, 0), (0, 673), (0, 12)], [(0, 11775702), (0, 244939), (0, 1200), (0, 4)], [(0, 4695), (118, 0), (1,
    0)]], 3, 4⟩, 68719476736, 1340616050,
    556658388870659823704407216966705167290859557280796246003003487453759316048206298725122032580, ⟨2, 0,
    -163269052107008, [109981889528, 43817486, 23276]⟩⟩)))
theorem c12 : checkC job ⟨6, 8, 8, 10, 9, 13⟩ 3 100 lims t12 283 41 1024 9 3 16 = true := by decide +kernel

def t13 : CTree :=
  .sy (.sx (.sy (.sx (.leaf ⟨505, 16, 1548, 500, 16, 190, ⟨[[(321048805376, 0)], [(415538085888, 0)]], 3, 4⟩,
    ⟨[[(475698312675, 0), (0, 3556054704438), (35536980390, 0), (0, 478198438), (7042608, 0)], [(0, 144329459422),
    (0, 6752860), (0, 205819), (0, 4836), (0, 99)], [(53822508, 0), (0, 7603), (0, 233), (0, 6)], [(0, 26952), (0,
    4)]], 3, 4⟩, 1099511627776, 0, 219927997, ⟨[[(40140834087961, 0), (210470960881, 0), (453115049, 0), (277316, 0),
    (0, 518)], [(73144639510, 0), (313900661, 0), (297922, 0), (0, 817), (0, 4)], [(0, 17850688), (0, 207672), (0,
    734), (0, 2)], [(0, 376), (101, 0)]], 3, 4⟩, 68719476736, 52659220,
    328948531164309809561537302080430251956863634628487067599596474905894453536124260875765809152, ⟨2, 0,
    -215891593248898, [144227537276, 53937000, 26895]⟩⟩) (.leaf ⟨536, 16, 1548, 500, 16, 194, ⟨[[(310311387136, 0)],
    [(415538085888, 0)]], 3, 4⟩, ⟨[[(330357453789, 0), (0, 3631538800561), (36266224708, 0), (0, 488710400),
    (7181751, 0)], [(0, 138878387193), (0, 8248942), (0, 251744), (0, 5928), (0, 122)], [(48759693, 0), (0, 8759),
    (0, 269), (0, 6)], [(0, 23032), (0, 4)]], 3, 4⟩, 1099511627776, 0, 186340323, ⟨[[(40171848987225, 0),
    (206227388471, 0), (435026779, 0), (257179, 0), (0, 451)], [(68959462665, 0), (289704041, 0), (268124, 0), (0,
    710), (0, 3)], [(0, 15862569), (0, 181010), (0, 620), (0, 1)], [(0, 329), (84, 0)]], 3, 4⟩, 68719476736,
    46475256, 259223315615047328759083379606729565028852813875853828297582814716510498819708522480973905920, ⟨2, 0,
    -208716869661220, [138753941484, 48891452, 22970]⟩⟩)) (.leaf ⟨260, 16, 774, 374, 16, 149, ⟨[[(432717955072, 0)],
    [(415538085888, 0)]], 3, 4⟩, ⟨[[(0, 96081573066), (0, 2490847301923), (22134046748, 0), (0, 269282368), (3491372,
    0)], [(0, 219738444837), (0, 16905704), (0, 545295), (0, 13243), (0, 241)], [(158707283, 0), (0, 37071), (0,
    1207), (0, 30), (0, 1)], [(0, 154664), (0, 37), (0, 1)]], 3, 4⟩, 1099511627776, 0, 2036776748,
    ⟨[[(36507567672247, 0), (247968504479, 0), (711560424, 0), (626460, 0), (0, 576)], [(131321879960, 0),
    (749266365, 0), (1052503, 0), (0, 2068), (0, 21)], [(0, 54100353), (0, 881653), (0, 3890), (0, 15)], [(0, 15268),
    (825, 0), (4, 0)]], 3, 4⟩, 68719476736, 943152801,
    658595749986609474306057855626204226425499210740438389632633636808052291654192446407255853123, ⟨2, 0,
    -164736846995720, [219479034324, 159273610, 154111]⟩⟩)) (.sy (.leaf ⟨291, 16, 774, 375, 16, 150,
    ⟨[[(421980536832, 0)], [(415538085888, 0)]], 3, 4⟩, ⟨[[(338978599729, 0), (0, 2808783940712), (28013606102, 0),
    (0, 378512886), (5539642, 0)], [(0, 197699673091), (0, 16390775), (0, 501425), (0, 11859), (0, 245)],
    [(127567939, 0), (0, 32088), (0, 993), (0, 24), (0, 1)], [(0, 111142), (0, 28), (0, 1)]], 3, 4⟩, 1099511627776,
    0, 1321517986, ⟨[[(40122328044465, 0), (266366376610, 0), (728259265, 0), (545210, 0), (0, 1109)],
    [(126895423591, 0), (689736280, 0), (823156, 0), (0, 2702), (0, 19)], [(0, 53608202), (0, 795171), (0, 3455), (0,
    11)], [(0, 2477), (688, 0), (4, 0)]], 3, 4⟩, 68719476736, 860990596,
    431557405145460253480517345721719274113166656029780047766844446997107223244833766737736368128, ⟨1, 0,
    -148723970693867, [197452608374, 128049681, 110722]⟩⟩) (.leaf ⟨291, 16, 774, 382, 16, 159, ⟨[[(421980536832, 0)],
    [(415538085888, 0)]], 3, 4⟩, ⟨[[(527155768025, 0), (0, 2659785945379), (23562417819, 0), (0, 288746573),
    (3700240, 0)], [(0, 209688110952), (0, 25356216), (0, 821266), (0, 20059), (0, 368)], [(134973827, 0), (0,
    49889), (0, 1640), (0, 41), (0, 1)], [(0, 118031), (0, 45), (0, 2)]], 3, 4⟩, 1099511627776, 0, 1385044830,
    ⟨[[(36381318007936, 0), (231536925693, 0), (625928285, 0), (490230, 0), (0, 136)], [(116993207280, 0),
    (626584511, 0), (815030, 0), (0, 1262), (0, 16)], [(0, 42683276), (0, 661956), (0, 2606), (0, 10)], [(0, 11882),
    (571, 0), (2, 0)]], 3, 4⟩, 68719476736, 656668268,
    674389941449814236685464571065706891676225608156465597253980194602743198931419075216921431140, ⟨1, 0,
    -157647408935499, [209299764876, 135732662, 117365]⟩⟩))) (.sx (.sy (.leaf ⟨260, 16, 774, 378, 16, 156,
    ⟨[[(432717955072, 0)], [(415538085888, 0)]], 3, 4⟩, ⟨[[(0, 49187485350), (0, 2357382022764), (18787387549, 0),
    (0, 210416529), (2409222, 0)], [(0, 230191823892), (0, 26284716), (0, 881128), (0, 20952), (0, 340)],
    [(165877436, 0), (0, 57879), (0, 1962), (0, 47), (0, 1)], [(0, 162216), (0, 58), (0, 2)]], 3, 4⟩, 1099511627776,
    0, 2124684099, ⟨[[(33411681581995, 0), (219528304158, 0), (626624412, 0), (553981, 0), (187, 0)], [(121790969104,
    0), (688763105, 0), (1014661, 0), (0, 903), (0, 15)], [(0, 43295863), (0, 752361), (0, 3086), (0, 10)], [(0,
    25328), (691, 0), (4, 0)]], 3, 4⟩, 68719476736, 808952853,
    787631853240461087373436728308602306760921979900938493460569048126733655795130980992806320249, ⟨2, 0,
    -172476161955251, [229790129896, 166756263, 161351]⟩⟩) (.leaf ⟨260, 16, 774, 380, 16, 162, ⟨[[(432717955072, 0)],
    [(415538085888, 0)]], 3, 4⟩, ⟨[[(0, 295034360013), (0, 2235564916862), (16053078046, 0), (0, 168770190),
    (1703576, 0)], [(0, 239247253017), (0, 40952214), (0, 1390135), (0, 31450), (0, 457)], [(171811633, 0), (0,
    90610), (0, 3113), (0, 71), (0, 1)], [(0, 168907), (0, 93), (0, 3)]], 3, 4⟩, 1099511627776, 0, 2203254942,
    ⟨[[(30851463454076, 0), (197057217638, 0), (562783670, 0), (472620, 0), (746, 0)], [(113623992133, 0),
    (639377303, 0), (959333, 0), (0, 157), (0, 15)], [(0, 34645551), (0, 656610), (0, 2542), (0, 11)], [(0, 33058),
    (572, 0), (2, 0)]], 3, 4⟩, 68719476736, 768519024,
    727642295885589962457915939510565990236326744269368094852226245477452494903754442353115766563, ⟨2, 0,
    -179109860491991, [238628211815, 173169965, 167557]⟩⟩)) (.sy (.leaf ⟨291, 16, 774, 385, 16, 166,
    ⟨[[(421980536832, 0)], [(415538085888, 0)]], 3, 4⟩, ⟨[[(0, 93237395637), (0, 2511239331892), (19899528517, 0),
    (0, 226102967), (2527884, 0)], [(0, 219114419702), (0, 39382858), (0, 1326629), (0, 31727), (0, 518)],
    [(140531594, 0), (0, 77991), (0, 2673), (0, 65), (0, 1)], [(0, 123577), (0, 72), (0, 3)]], 3, 4⟩, 1099511627776,
    0, 1438180740, ⟨[[(33425444386834, 0), (206150081579, 0), (556497603, 0), (420047, 0), (513, 0)], [(108845597621,
    0), (579003943, 0), (778637, 0), (0, 403), (0, 12)], [(0, 34356282), (0, 572744), (0, 2062), (0, 7)], [(0,
    19038), (486, 0), (3, 0)]], 3, 4⟩, 68719476736, 571620149,
    745891460372901687599871420980798953187428824993764863085742705253980351137197601610433483475, ⟨1, 0,
    -164587860901212, [218514219934, 141708314, 122532]⟩⟩) (.leaf ⟨291, 16, 774, 388, 16, 173, ⟨[[(421980536832, 0)],
    [(415538085888, 0)]], 3, 4⟩, ⟨[[(0, 549158775843), (0, 2391655998552), (16996975974, 0), (0, 183545597),
    (1770868, 0)], [(0, 228658100064), (0, 61705327), (0, 2105578), (0, 47916), (0, 702)], [(145853425, 0), (0,
    123101), (0, 4279), (0, 99), (0, 1)], [(0, 129350), (0, 116), (0, 4)]], 3, 4⟩, 1099511627776, 0, 1495474510,
    ⟨[[(30896363120890, 0), (184436006113, 0), (498285848, 0), (333432, 0), (1024, 0)], [(101618683290, 0),
    (536503846, 0), (720494, 0), (209, 0), (0, 14)], [(0, 27401471), (0, 502549), (0, 1630), (0, 10)], [(0, 24834),
    (419, 0)]], 3, 4⟩, 68719476736, 554685836,
    721738523448272104333332459531782716554400992721768950167109191531197597846391429656184094720, ⟨1, 0,
    -171528312866926, [227728674991, 147683966, 127699]⟩⟩)))
theorem c13 : checkC job ⟨6, 8, 8, 10, 9, 13⟩ 3 100 lims t13 365 41 1024 9 3 16 = true := by decide +kernel

def t14 : CTree :=
  .sy (.sx (.sy (.leaf ⟨322, 16, 774, 378, 16, 157, ⟨[[(411243118592, 0)], [(415538085888, 0)]], 3, 4⟩,
    ⟨[[(168160252335, 0), (0, 2941509975546), (29270341302, 0), (0, 397377193), (5773302, 0)], [(0, 187150371026),
    (0, 23286555), (0, 715386), (0, 17045), (0, 354)], [(108877452, 0), (0, 41332), (0, 1291), (0, 32), (0, 1)], [(0,
    86066), (0, 33), (0, 1)]], 3, 4⟩, 1099511627776, 0, 931072175, ⟨[[(40171346820172, 0), (254602538713, 0),
    (666488794, 0), (456393, 0), (0, 721)], [(114801848280, 0), (595672075, 0), (671406, 0), (0, 1983), (0, 16)],
    [(0, 43816690), (0, 624502), (0, 2502), (0, 8)], [(0, 2082), (503, 0), (2, 0)]], 3, 4⟩, 68719476736, 682062976,
    380932124031630670101123224779423445856239707936473611506096102331521764113784584996473948453, ⟨1, 0,
    -139559710887601, [186799889690, 109495832, 85577]⟩⟩) (.leaf ⟨322, 16, 774, 386, 16, 167, ⟨[[(411243118592, 0)],
    [(415538085888, 0)]], 3, 4⟩, ⟨[[(118692217645, 0), (0, 2796174631060), (24664700481, 0), (0, 305315881),
    (3848823, 0)], [(0, 199251233280), (0, 36217545), (0, 1179689), (0, 29036), (0, 537)], [(115490819, 0), (0,
    64764), (0, 2156), (0, 55), (0, 1)], [(0, 91811), (0, 54), (0, 2)]], 3, 4⟩, 1099511627776, 0, 973727611,
    ⟨[[(36473981113600, 0), (220717498146, 0), (570252946, 0), (392687, 0), (179, 0)], [(105958331150, 0),
    (539865831, 0), (652146, 0), (0, 777), (0, 14)], [(0, 34918065), (0, 521972), (0, 1835), (0, 8)], [(0, 9265),
    (424, 0), (1, 0)]], 3, 4⟩, 68719476736, 517084710,
    617237521337380190536192743398350994602400665602723383203878517994102913984910859954456633609, ⟨1, 0,
    -148448864447321, [198697971836, 116470089, 91028]⟩⟩)) (.sy (.leaf ⟨353, 16, 774, 381, 16, 164, ⟨[[(400505700352,
    0)], [(415538085888, 0)]], 3, 4⟩, ⟨[[(95640430921, 0), (0, 3074964814035), (30504387352, 0), (0, 416794603),
    (5995213, 0)], [(0, 178498372003), (0, 32135679), (0, 992753), (0, 23884), (0, 501)], [(94417418, 0), (0, 52250),
    (0, 1652), (0, 41), (0, 1)], [(0, 68440), (0, 39), (0, 1)]], 3, 4⟩, 1099511627776, 0, 683326616,
    ⟨[[(40193903217886, 0), (243664407444, 0), (612684949, 0), (378907, 0), (0, 374)], [(104777737369, 0),
    (520135307, 0), (553888, 0), (0, 1426), (0, 14)], [(0, 36409785), (0, 500992), (0, 1831), (0, 7)], [(0, 1875),
    (382, 0), (1, 0)]], 3, 4⟩, 68719476736, 568316581,
    332326531047395904018298038875810928275754217063432500460490937907164336291987080350972285514, ⟨1, 0,
    -130504666250359, [178015669257, 95195545, 67876]⟩⟩) (.leaf ⟨353, 16, 774, 390, 16, 175, ⟨[[(400505700352, 0)],
    [(415538085888, 0)]], 3, 4⟩, ⟨[[(0, 299643988621), (0, 2933723518011), (25728532464, 0), (0, 322853535),
    (3979090, 0)], [(0, 190720960668), (0, 50264657), (0, 1649411), (0, 41002), (0, 766)], [(100341413, 0), (0,
    82596), (0, 2795), (0, 72), (0, 1)], [(0, 73341), (0, 64), (0, 2)]], 3, 4⟩, 1099511627776, 0, 712067800,
    ⟨[[(36559666592471, 0), (210791113634, 0), (522501352, 0), (307322, 0), (459, 0)], [(96846002639, 0), (470576347,
    0), (525909, 0), (0, 411), (0, 11)], [(0, 29050109), (0, 421338), (0, 1301), (0, 6)], [(0, 7539), (328, 0), (1,
    0)]], 3, 4⟩, 68719476736, 433385034,
    550556575561241005855749040211053946700025149352272586187378014278108567689921539029400331562, ⟨1, 0,
    -139258028011053, [189955744634, 101580612, 72428]⟩⟩))) (.sx (.sy (.leaf ⟨322, 16, 774, 392, 16, 176,
    ⟨[[(411243118592, 0)], [(415538085888, 0)]], 3, 4⟩, ⟨[[(0, 409603629034), (0, 2666542143912), (20962319925, 0),
    (0, 242988216), (2626635, 0)], [(0, 210270489603), (0, 56923396), (0, 1930114), (0, 46517), (0, 766)],
    [(121209597, 0), (0, 102768), (0, 3573), (0, 89), (0, 2)], [(0, 97183), (0, 88), (0, 3)]], 3, 4⟩, 1099511627776,
    0, 1018313362, ⟨[[(33485324747444, 0), (194447707415, 0), (498982541, 0), (308729, 0), (769, 0)], [(98505965027,
    0), (494576692, 0), (603018, 0), (0, 71), (0, 9)], [(0, 27928810), (0, 450298), (0, 1401), (0, 5)], [(0, 14925),
    (360, 0), (2, 0)]], 3, 4⟩, 68719476736, 425777014,
    660312302223852987651830550465098431192819563956649219331613558133481580123040426913037780872, ⟨1, 0,
    -156449102651069, [209406245767, 122746920, 95934]⟩⟩) (.leaf ⟨322, 16, 774, 393, 16, 183, ⟨[[(411243118592, 0)],
    [(415538085888, 0)]], 3, 4⟩, ⟨[[(0, 285260638912), (0, 2536200128821), (17763786898, 0), (0, 199082600),
    (1800686, 0)], [(0, 219072431734), (0, 89231817), (0, 3066357), (0, 70328), (0, 1041)], [(125233510, 0), (0,
    162840), (0, 5746), (0, 136), (0, 2)], [(0, 101740), (0, 144), (0, 5)]], 3, 4⟩, 1099511627776, 0, 1055623104,
    ⟨[[(30854122413564, 0), (173706764771, 0), (450599923, 0), (219058, 0), (1299, 0)], [(91684263514, 0),
    (459440367, 0), (549929, 0), (481, 0), (0, 14)], [(0, 21871749), (0, 398346), (0, 1042), (0, 11)], [(0, 19731),
    (327, 0), (0, 2)]], 3, 4⟩, 68719476736, 485260819,
    661137698606410130037364344943202358341854102275927014747139202291041812496309620545814783060, ⟨1, 0,
    -162671510142873, [217734903269, 127628900, 99749]⟩⟩)) (.sy (.leaf ⟨353, 16, 774, 394, 16, 184, ⟨[[(400505700352,
    0)], [(415538085888, 0)]], 3, 4⟩, ⟨[[(0, 262141321185), (0, 2793403311047), (21722589480, 0), (0, 258697267),
    (2668809, 0)], [(0, 200919424269), (0, 79071637), (0, 2704153), (0, 65819), (0, 1095)], [(104856527, 0), (0,
    131698), (0, 4663), (0, 118), (0, 2)], [(0, 77622), (0, 106), (0, 4)]], 3, 4⟩, 1099511627776, 0, 739997064,
    ⟨[[(33461319516547, 0), (185497890459, 0), (460816267, 0), (219290, 0), (1039, 0)], [(89783013074, 0),
    (432153054, 0), (479525, 0), (171, 0), (0, 7)], [(0, 22899959), (0, 366359), (0, 979), (0, 3)], [(0, 12292),
    (278, 0), (1, 0)]], 3, 4⟩, 68719476736, 366310264,
    600916744710971957683853201798327628732528735688170656173720672203860220414813581943722506361, ⟨1, 0,
    -146419869451622, [199724897215, 106804758, 76153]⟩⟩) (.leaf ⟨353, 16, 774, 396, 16, 192, ⟨[[(400505700352, 0)],
    [(415538085888, 0)]], 3, 4⟩, ⟨[[(0, 365566192240), (0, 2669843442477), (18329747735, 0), (0, 215965902),
    (1783567, 0)], [(0, 210268094822), (0, 124848842), (0, 4329600), (0, 100302), (0, 1505)], [(108386277, 0), (0,
    211092), (0, 7591), (0, 183), (0, 3)], [(0, 81845), (0, 178), (0, 7)]], 3, 4⟩, 1099511627776, 0, 769363829,
    ⟨[[(30867869984531, 0), (165080408320, 0), (415923335, 0), (121628, 0), (1552, 0)], [(83616755360, 0),
    (401015566, 0), (423717, 0), (672, 0), (0, 16)], [(0, 17781035), (0, 326691), (0, 655), (0, 12)], [(0, 16210),
    (270, 0), (0, 3)]], 3, 4⟩, 68719476736, 459608412,
    471629908692809227223288344550911754816911873556687805782912928956473288092402184368597485735, ⟨1, 0,
    -152785950732127, [208408588398, 111448443, 79464]⟩⟩)))
theorem c14 : checkC job ⟨6, 8, 8, 10, 9, 13⟩ 3 100 lims t14 447 41 1024 9 3 16 = true := by decide +kernel

def t15 : CTree :=
  .sy (.sx (.sy (.sx (.leaf ⟨384, 16, 774, 382, 16, 170, ⟨[[(389768282112, 0)], [(415538085888, 0)]], 3, 4⟩, ⟨[[(0,
    225264083858), (0, 3190582158971), (31523712364, 0), (0, 434383720), (6165158, 0)], [(0, 170294863049), (0,
    43040205), (0, 1339174), (0, 32614), (0, 692)], [(82449599, 0), (0, 64677), (0, 2078), (0, 53), (0, 1)], [(0,
    55318), (0, 45), (0, 2)]], 3, 4⟩, 1099511627776, 0, 516401008, ⟨[[(40267316555245, 0), (235190799845, 0),
    (572638144, 0), (315245, 0), (0, 74)], [(96473880168, 0), (461412361, 0), (465308, 0), (0, 1018), (0, 13)], [(0,
    30791407), (0, 412649), (0, 1367), (0, 6)], [(0, 1685), (302, 0), (1, 0)]], 3, 4⟩, 68719476736, 500559646,
    278183339587112134543897239534716277834432166443895091495303483239725163378436889798239209765, ⟨1, 0,
    -120774999456756, [169650038542, 83407099, 54675]⟩⟩) (.leaf ⟨415, 16, 774, 380, 16, 175, ⟨[[(379030863872, 0)],
    [(415538085888, 0)]], 3, 4⟩, ⟨[[(486634306314, 0), (0, 3288529941939), (32322511361, 0), (0, 450309783),
    (6279154, 0)], [(0, 162448494281), (0, 56198245), (0, 1764356), (0, 43618), (0, 939)], [(72369645, 0), (0,
    78670), (0, 2577), (0, 68), (0, 2)], [(0, 45325), (0, 52), (0, 2)]], 3, 4⟩, 1099511627776, 0, 400493902,
    ⟨[[(40121823542446, 0), (227493418303, 0), (542444865, 0), (259542, 0), (271, 0)], [(89014937870, 0), (414070027,
    0), (399334, 0), (0, 648), (0, 12)], [(0, 26026233), (0, 345423), (0, 1017), (0, 5)], [(0, 1809), (246, 0)]], 3,
    4⟩, 68719476736, 501893586,
    349766316970281687128129863342744623682122019993451491678494816910814960997351603512826995859, ⟨1, 0,
    -110554800838240, [161609300484, 73525614, 44602]⟩⟩)) (.sx (.leaf ⟨384, 16, 774, 389, 16, 181, ⟨[[(389768282112,
    0)], [(415538085888, 0)]], 3, 4⟩, ⟨[[(0, 25152609846), (0, 3039183337700), (26449920396, 0), (0, 337943512),
    (4039963, 0)], [(0, 181648757475), (0, 67388131), (0, 2232303), (0, 56184), (0, 1062)], [(87277715, 0), (0,
    102752), (0, 3547), (0, 94), (0, 2)], [(0, 59259), (0, 75), (0, 3)]], 3, 4⟩, 1099511627776, 0, 531933870,
    ⟨[[(36510664614668, 0), (203240286229, 0), (491646214, 0), (237069, 0), (775, 0)], [(88928095849, 0), (418261975,
    0), (435723, 0), (0, 110), (0, 10)], [(0, 24274156), (0, 349734), (0, 934), (0, 5)], [(0, 6529), (263, 0), (1,
    0)]], 3, 4⟩, 68719476736, 405767292,
    424741547904337288406396838694546127066136802160265591069183913117638665104532264067219088153, ⟨1, 0,
    -128589852362782, [180627393977, 88804029, 58213]⟩⟩) (.leaf ⟨415, 16, 774, 388, 16, 187, ⟨[[(379030863872, 0)],
    [(415538085888, 0)]], 3, 4⟩, ⟨[[(437217340498, 0), (0, 3146396783122), (27111216249, 0), (0, 354611311),
    (4069808, 0)], [(0, 174027479782), (0, 88668141), (0, 2971895), (0, 75931), (0, 1456)], [(76710553, 0), (0,
    126563), (0, 4477), (0, 122), (0, 2)], [(0, 48856), (0, 89), (0, 4)]], 3, 4⟩, 1099511627776, 0, 410271337,
    ⟨[[(36431235086812, 0), (195936772984, 0), (464489475, 0), (166843, 0), (1093, 0)], [(82133964768, 0),
    (374573171, 0), (359981, 0), (138, 0), (0, 8)], [(0, 20453251), (0, 295387), (0, 664), (0, 3)], [(0, 5853), (216,
    0), (1, 0)]], 3, 4⟩, 68719476736, 403559695,
    291701114895911203518719997090680767902682130441759577996522726848129254217134305897716189251, ⟨1, 0,
    -118135701467148, [172691081089, 78567371, 47660]⟩⟩))) (.sy (.sx (.leaf ⟨446, 16, 774, 379, 16, 180,
    ⟨[[(368293445632, 0)], [(415538085888, 0)]], 3, 4⟩, ⟨[[(312372910692, 0), (0, 3387802238270), (33078240733, 0),
    (0, 467361206), (6367744, 0)], [(0, 155758778055), (0, 72192993), (0, 2291645), (0, 57678), (0, 1261)],
    [(64108608, 0), (0, 94819), (0, 3179), (0, 87), (0, 2)], [(0, 37781), (0, 60), (0, 2)]], 3, 4⟩, 1099511627776, 0,
    320214133, ⟨[[(40162764780899, 0), (221013554111, 0), (515953880, 0), (204612, 0), (574, 0)], [(82910590383, 0),
    (374541397, 0), (341542, 0), (0, 366), (0, 12)], [(0, 22458525), (0, 294849), (0, 757), (0, 5)], [(0, 1746),
    (206, 0)]], 3, 4⟩, 68719476736, 486547733,
    410354712696234243578986103855522633468668533969318028210925736989195229496059197584138305536, ⟨1, 0,
    -100567472289288, [154685142479, 65489053, 36968]⟩⟩) (.leaf ⟨477, 16, 774, 376, 16, 184, ⟨[[(357556027392, 0)],
    [(415538085888, 0)]], 3, 4⟩, ⟨[[(242503177737, 0), (0, 3469824502501), (33597999959, 0), (0, 483223936),
    (6388366, 0)], [(0, 149202686541), (0, 90973615), (0, 2926392), (0, 75208), (0, 1675)], [(56909256, 0), (0,
    112847), (0, 3888), (0, 110), (0, 3)], [(0, 31802), (0, 69), (0, 3)]], 3, 4⟩, 1099511627776, 0, 261592707,
    ⟨[[(40180544747225, 0), (215867447191, 0), (497481916, 0), (152098, 0), (904, 0)], [(77565622570, 0), (342446108,
    0), (295155, 0), (0, 120), (0, 11)], [(0, 19514357), (0, 256223), (0, 560), (0, 4)], [(0, 1738), (177, 0)]], 3,
    4⟩, 68719476736, 507086106,
    446040851881042306982369662586395145235014286802298846072129662074843178844985205302672640293, ⟨1, 0,
    -90266578573231, [147856515357, 58533854, 30897]⟩⟩)) (.sx (.leaf ⟨446, 16, 774, 388, 16, 193, ⟨[[(368293445632,
    0)], [(415538085888, 0)]], 3, 4⟩, ⟨[[(0, 82874676255), (0, 3255785270380), (27696356697, 0), (0, 373329852),
    (4058429, 0)], [(0, 167576184058), (0, 114867039), (0, 3905166), (0, 101555), (0, 1980)], [(67982756, 0), (0,
    154732), (0, 5630), (0, 158), (0, 3)], [(0, 41004), (0, 105), (0, 5)]], 3, 4⟩, 1099511627776, 0, 325138582,
    ⟨[[(36526283558612, 0), (189788081362, 0), (441112508, 0), (101221, 0), (1352, 0)], [(76594053126, 0),
    (338311853, 0), (296096, 0), (308, 0), (0, 7)], [(0, 17605401), (0, 254487), (0, 472), (0, 2)], [(0, 5202), (182,
    0), (1, 0)]], 3, 4⟩, 68719476736, 380176111,
    211838336647699406138864954785303228207822129195811489101535664847859064293927122431551674567, ⟨1, 0,
    -107830678621292, [165856847213, 70218818, 39638]⟩⟩) (.leaf ⟨477, 16, 774, 384, 16, 197, ⟨[[(357556027392, 0)],
    [(415538085888, 0)]], 3, 4⟩, ⟨[[(0, 426323424774), (0, 3334000190426), (27902203948, 0), (0, 390740877),
    (3952205, 0)], [(0, 160461301633), (0, 145416308), (0, 5027851), (0, 133421), (0, 2648)], [(60025743, 0), (0,
    186256), (0, 6998), (0, 203), (0, 4)], [(0, 34625), (0, 124), (0, 6)]], 3, 4⟩, 1099511627776, 0, 262121476,
    ⟨[[(36586274845551, 0), (185612585471, 0), (429170495, 0), (36933, 0), (1669, 0)], [(71715960155, 0), (310396070,
    0), (246417, 0), (458, 0), (0, 5)], [(0, 15218972), (0, 224387), (0, 335), (0, 1)], [(0, 4750), (156, 0), (1,
    0)]], 3, 4⟩, 68719476736, 406241038,
    232662073543475795696328626490409925033136911300574557568709799881475031216960048082761302545, ⟨1, 0,
    -96644108581122, [158302899594, 62669398, 33080]⟩⟩)))) (.sx (.sx (.sy (.leaf ⟨384, 16, 774, 394, 16, 191,
    ⟨[[(389768282112, 0)], [(415538085888, 0)]], 3, 4⟩, ⟨[[(0, 203459006178), (0, 2907386874930), (22283781735, 0),
    (0, 275034411), (2661519, 0)], [(0, 192210430397), (0, 106834956), (0, 3693378), (0, 91004), (0, 1534)],
    [(91290192, 0), (0, 165918), (0, 6007), (0, 155), (0, 3)], [(0, 63142), (0, 128), (0, 5)]], 3, 4⟩, 1099511627776,
    0, 553271285, ⟨[[(33453602311847, 0), (178187252933, 0), (432913734, 0), (138407, 0), (1303, 0)], [(82497679910,
    0), (383510892, 0), (384461, 0), (343, 0), (0, 6)], [(0, 19021643), (0, 306346), (0, 695), (0, 2)], [(0, 10429),
    (222, 0), (1, 0)]], 3, 4⟩, 68719476736, 321406674,
    476434047737129885920807940516724079833335457482311947290980448111640010123549225440333791232, ⟨1, 0,
    -135694264095532, [190606808009, 93710328, 61429]⟩⟩) (.leaf ⟨384, 16, 774, 396, 16, 200, ⟨[[(389768282112, 0)],
    [(415538085888, 0)]], 3, 4⟩, ⟨[[(515651692719, 0), (0, 2793336056609), (18666240832, 0), (0, 234925050),
    (1707062, 0)], [(0, 202100699138), (0, 170063685), (0, 5965446), (0, 139934), (0, 2139)], [(94283826, 0), (0,
    269496), (0, 9914), (0, 244), (0, 4)], [(0, 67157), (0, 220), (0, 9)]], 3, 4⟩, 1099511627776, 0, 577149835,
    ⟨[[(30742569113500, 0), (157164530893, 0), (390974517, 0), (25933, 0), (1895, 0)], [(76524978592, 0), (354990861,
    0), (324482, 0), (917, 0), (0, 21)], [(0, 14334520), (0, 274837), (0, 334), (0, 16), (1, 0)], [(0, 13961), (244,
    0), (0, 5)]], 3, 4⟩, 68719476736, 506278209,
    694967487933813324608712106092607861107559645685472530440193749217860115446850975192212584282, ⟨1, 0,
    -142088234655008, [199588280638, 98125998, 64324]⟩⟩)) (.sy (.leaf ⟨415, 16, 774, 394, 16, 198, ⟨[[(379030863872,
    0)], [(415538085888, 0)]], 3, 4⟩, ⟨[[(0, 70883986604), (0, 3024254449133), (22741494598, 0), (0, 294025255),
    (2607646, 0)], [(0, 184960481578), (0, 141778646), (0, 4966992), (0, 124191), (0, 2126)], [(80216697, 0), (0,
    207319), (0, 7705), (0, 205), (0, 4)], [(0, 52461), (0, 155), (0, 7)]], 3, 4⟩, 1099511627776, 0, 426306411,
    ⟨[[(33434692115198, 0), (171210572107, 0), (409075073, 0), (59470, 0), (1545, 0)], [(76272267185, 0), (343167895,
    0), (305846, 0), (463, 0), (0, 5)], [(0, 15916687), (0, 260859), (0, 495), (0, 2)], [(0, 9092), (180, 0), (1,
    0)]], 3, 4⟩, 68719476736, 288395866,
    374825233374643535080275005756849494897629208674195641847517066663176664192495041226764482681, ⟨1, 0,
    -125084860376980, [182849379977, 83188981, 50463]⟩⟩) (.leaf ⟨415, 16, 774, 393, 16, 206, ⟨[[(379030863872, 0)],
    [(415538085888, 0)]], 3, 4⟩, ⟨[[(439293013948, 0), (0, 2893496655840), (18648272765, 0), (0, 255635612),
    (1546616, 0)], [(0, 193535666649), (0, 225536040), (0, 8022407), (0, 191092), (0, 3003)], [(81823677, 0), (0,
    338523), (0, 12788), (0, 324), (0, 6)], [(0, 55849), (0, 271), (0, 12)]], 3, 4⟩, 1099511627776, 0, 442744786,
    ⟨[[(30758488182861, 0), (151790025931, 0), (377904276, 0), (0, 62546), (2284, 0)], [(70770082705, 0), (320748269,
    0), (249074, 0), (1164, 0), (0, 29)], [(0, 11789414), (0, 239035), (0, 87), (0, 20), (1, 0)], [(0, 12195), (233,
    0), (0, 7)]], 3, 4⟩, 68719476736, 552686198,
    887583341453733141795475495335396569406774764579047091609302121884540719936238937610050948124, ⟨1, 0,
    -130138794129586, [190237233713, 86550152, 52502]⟩⟩))) (.sy (.sx (.leaf ⟨446, 16, 774, 390, 16, 203,
    ⟨[[(368293445632, 0)], [(415538085888, 0)]], 3, 4⟩, ⟨[[(240013841666, 0), (0, 3114064575885), (22841118342, 0),
    (0, 313421540), (2466730, 0)], [(0, 177157637956), (0, 183609038), (0, 6535542), (0, 166213), (0, 2895)],
    [(70274713, 0), (0, 255072), (0, 9766), (0, 267), (0, 5)], [(0, 44001), (0, 187), (0, 8)]], 3, 4⟩, 1099511627776,
    0, 334649176, ⟨[[(33389981171821, 0), (166057214757, 0), (396648105, 0), (0, 19273), (1833, 0)], [(70856723781,
    0), (312325196, 0), (244692, 0), (556, 0), (0, 4)], [(0, 13356273), (0, 227832), (0, 360), (0, 2)], [(0, 8115),
    (149, 0)]], 3, 4⟩, 68719476736, 300005365,
    511922046139194220115018992217284237571108979251808629276027619060994061739375298918595906380, ⟨1, 0,
    -113417760415142, [174450466240, 73857098, 41692]⟩⟩) (.leaf ⟨477, 16, 774, 387, 16, 208, ⟨[[(357556027392, 0)],
    [(415538085888, 0)]], 3, 4⟩, ⟨[[(0, 318032003321), (0, 3208060344045), (22782281411, 0), (0, 337101800),
    (2246633, 0)], [(0, 170567718248), (0, 235096740), (0, 8524994), (0, 221019), (0, 3927)], [(61878735, 0), (0,
    312859), (0, 12378), (0, 348), (0, 7)], [(0, 37605), (0, 228), (0, 11)]], 3, 4⟩, 1099511627776, 0, 269827841,
    ⟨[[(33475205060556, 0), (161591061897, 0), (386474577, 0), (0, 94230), (2065, 0)], [(66366801001, 0), (286309648,
    0), (193090, 0), (605, 0), (0, 4)], [(0, 11397262), (0, 202112), (0, 264), (0, 2)], [(0, 7260), (126, 0)]], 3,
    4⟩, 68719476736, 296454921,
    601667915819560631264811309876000436327423495916724953088910307446022975572875964470067662608, ⟨1, 0,
    -102040480126261, [167142147795, 66168705, 34927]⟩⟩)) (.sx (.leaf ⟨446, 16, 774, 390, 16, 212, ⟨[[(368293445632,
    0)], [(415538085888, 0)]], 3, 4⟩, ⟨[[(540161099660, 0), (0, 2999309550026), (18418887034, 0), (0, 281661670),
    (1292776, 0)], [(0, 186449794650), (0, 295230617), (0, 10677650), (0, 259299), (0, 4283)], [(71357452, 0), (0,
    423813), (0, 16504), (0, 436), (0, 9)], [(0, 47510), (0, 337), (0, 15)]], 3, 4⟩, 1099511627776, 0, 351593663,
    ⟨[[(30749605143092, 0), (146380042865, 0), (367805424, 0), (0, 155350), (2787, 0)], [(65749701416, 0),
    (291890504, 0), (182414, 0), (1543, 0), (0, 42)], [(0, 9661239), (0, 211935), (187, 0), (0, 28), (1, 0)], [(0,
    10994), (243, 0), (0, 9)]], 3, 4⟩, 68719476736, 631232753,
    946140149945792614804955480990937035405499863782855462240240910382062269926768936193927576715, ⟨1, 0,
    -118446134029606, [182184723364, 77131551, 43540]⟩⟩) (.leaf ⟨477, 16, 774, 386, 16, 217, ⟨[[(357556027392, 0)],
    [(415538085888, 0)]], 3, 4⟩, ⟨[[(0, 119652234024), (0, 3097944473624), (17834264831, 0), (0, 313378384), (888254,
    0)], [(0, 179795345547), (0, 380767500), (0, 14044964), (0, 350382), (0, 6437)], [(62044411, 0), (0, 527505), (0,
    21294), (0, 602), (0, 17)], [(0, 41152), (0, 420), (0, 20), (0, 1)]], 3, 4⟩, 1099511627776, 0, 290652016,
    ⟨[[(30839132331527, 0), (142165039755, 0), (363387732, 0), (0, 247135), (3401, 0)], [(61549070562, 0),
    (268839594, 0), (126055, 0), (2022, 0), (0, 61)], [(0, 8005917), (0, 192265), (463, 0), (0, 38), (1, 0)], [(0,
    10052), (261, 0), (0, 12), (1, 0)]], 3, 4⟩, 68719476736, 893481524,
    1079929131430317210630437246630759956742490339709808406042534963068540317184697220654869597212, ⟨1, 0,
    -106455693208647, [174374259959, 69031774, 36438]⟩⟩))))
theorem c15 : checkC job ⟨6, 8, 8, 10, 9, 13⟩ 3 100 lims t15 285 41 512 9 3 16 = true := by decide +kernel

def t16 : CTree :=
  .sx (.sy (.sx (.leaf ⟨508, 16, 774, 373, 16, 188, ⟨[[(346818609152, 0)], [(415538085888, 0)]], 3, 4⟩,
    ⟨[[(406887038247, 0), (0, 3553692526635), (34054838008, 0), (0, 500844617), (6367200, 0)], [(0, 143527401039),
    (0, 113330240), (0, 3703199), (0, 97460), (0, 2213)], [(50838595, 0), (0, 133586), (0, 4748), (0, 140), (0, 3)],
    [(0, 27148), (0, 79), (0, 3)]], 3, 4⟩, 1099511627776, 0, 219840515, ⟨[[(40152415126133, 0), (210641360032, 0),
    (480816239, 0), (96194, 0), (1262, 0)], [(72807275134, 0), (314437594, 0), (253937, 0), (110, 0), (0, 11)], [(0,
    17022945), (0, 225114), (0, 399), (0, 4)], [(0, 1785), (155, 0)]], 3, 4⟩, 68719476736, 523643143,
    455035356731010081652906353615352044335098896304088062340120471753146416139385602694318278949, ⟨1, 0,
    -80226628668175, [141860523810, 52736254, 26139]⟩⟩) (.leaf ⟨539, 16, 774, 371, 16, 192, ⟨[[(336081190912, 0)],
    [(415538085888, 0)]], 3, 4⟩, ⟨[[(0, 344723369578), (0, 3639756958570), (34434655938, 0), (0, 520697247),
    (6291605, 0)], [(0, 138595201995), (0, 139809010), (0, 4652493), (0, 125723), (0, 2915)], [(45643669, 0), (0,
    157512), (0, 5796), (0, 178), (0, 4)], [(0, 23476), (0, 91), (0, 4)]], 3, 4⟩, 1099511627776, 0, 189280816,
    ⟨[[(40297042973022, 0), (206309069906, 0), (466127237, 0), (42342, 0), (1567, 0)], [(68842261686, 0), (290279933,
    0), (217351, 0), (282, 0), (0, 10)], [(0, 15097028), (0, 200467), (0, 278), (0, 3)], [(0, 1724), (137, 0)]], 3,
    4⟩, 68719476736, 545993853,
    451036150292960857228900956012147817034013688002489293904555002939300396384873800329994286812, ⟨1, 0,
    -70401579853834, [136553630100, 47846402, 22353]⟩⟩)) (.sx (.leaf ⟨508, 16, 774, 381, 16, 202, ⟨[[(346818609152,
    0)], [(415538085888, 0)]], 3, 4⟩, ⟨[[(480785851769, 0), (0, 3432202965039), (28136044944, 0), (0, 413391385),
    (3797242, 0)], [(0, 155115452192), (0, 183115419), (0, 6456541), (0, 175239), (0, 3546)], [(53541849, 0), (0,
    224588), (0, 8744), (0, 263), (0, 6)], [(0, 29845), (0, 147), (0, 7)]], 3, 4⟩, 1099511627776, 0, 217854208,
    ⟨[[(36437830130811, 0), (179622982445, 0), (414923904, 0), (0, 39153), (1999, 0)], [(67103950247, 0), (284275845,
    0), (198235, 0), (584, 0), (0, 4)], [(0, 12994374), (0, 198692), (0, 228)], [(0, 4565), (133, 0), (1, 0)]], 3,
    4⟩, 68719476736, 392839573,
    221237761559783511311199441447800810666118083844945963276865803743860167853766599548880594218, ⟨1, 0,
    -86200952079634, [152424605370, 56663422, 28086]⟩⟩) (.leaf ⟨539, 16, 774, 376, 16, 205, ⟨[[(336081190912, 0)],
    [(415538085888, 0)]], 3, 4⟩, ⟨[[(0, 352071272980), (0, 3500032866671), (27952791870, 0), (0, 436052543),
    (3515797, 0)], [(0, 149087136021), (0, 226386149), (0, 8162221), (0, 227032), (0, 4688)], [(47454414, 0), (0,
    267629), (0, 10825), (0, 336), (0, 8)], [(0, 25855), (0, 174), (0, 9)]], 3, 4⟩, 1099511627776, 0, 184668793,
    ⟨[[(36574844785861, 0), (176766491845, 0), (410629336, 0), (0, 107583), (2307, 0)], [(63446399777, 0),
    (264702177, 0), (161218, 0), (667, 0), (0, 2)], [(0, 11400466), (0, 180304), (0, 157)], [(0, 4234), (116, 0), (1,
    0)]], 3, 4⟩, 68719476736, 409142379,
    245355248577001100188534677594138377076846274169937630462353211577060336398746948746118582933, ⟨1, 0,
    -75168353489771, [145799448804, 51086002, 23866]⟩⟩))) (.sy (.sx (.leaf ⟨570, 16, 774, 366, 16, 195,
    ⟨[[(325343772672, 0)], [(415538085888, 0)]], 3, 4⟩, ⟨[[(277857135607, 0), (0, 3709399987488), (34543179585, 0),
    (0, 540612145), (6113786, 0)], [(0, 133614995940), (0, 170178112), (0, 5782448), (0, 160821), (0, 3809)],
    [(40925696, 0), (0, 184262), (0, 7043), (0, 225), (0, 6)], [(0, 20445), (0, 105), (0, 5)]], 3, 4⟩, 1099511627776,
    0, 166406758, ⟨[[(40183092169550, 0), (201925055986, 0), (457698396, 0), (0, 22728), (2012, 0)], [(64967054650,
    0), (269839238, 0), (184877, 0), (487, 0), (0, 9)], [(0, 13224778), (0, 180629), (0, 172), (0, 3)], [(0, 1846),
    (123, 0)]], 3, 4⟩, 68719476736, 600035824,
    414428336010741028817044693441293018320678297791269852276096487020279907559504593549107059566, ⟨0, 0,
    -60443992140903, [131150927351, 43456238, 19199]⟩⟩) (.leaf ⟨601, 16, 774, 360, 16, 197, ⟨[[(314606354432, 0)],
    [(415538085888, 0)]], 3, 4⟩, ⟨[[(203391281743, 0), (0, 3762855157976), (34367589967, 0), (0, 561128019),
    (5817866, 0)], [(0, 128602010054), (0, 204695645), (0, 7120642), (0, 204217), (0, 4943)], [(36612583, 0), (0,
    214132), (0, 8526), (0, 284), (0, 8)], [(0, 17927), (0, 122), (0, 6)]], 3, 4⟩, 1099511627776, 0, 149944232,
    ⟨[[(40198852265430, 0), (199122519243, 0), (455291843, 0), (0, 90018), (2464, 0)], [(61658278340, 0), (253147619,
    0), (156612, 0), (656, 0), (0, 8)], [(0, 11721400), (0, 165367), (0, 93), (0, 2)], [(0, 1887), (112, 0)]], 3, 4⟩,
    68719476736, 686746242,
    344824778310314858309218601096992301750669910546043857526312976653636889907058324222907814474, ⟨0, 0,
    -50484173455842, [125667229533, 39493158, 16549]⟩⟩)) (.sx (.leaf ⟨570, 16, 774, 370, 16, 208, ⟨[[(325343772672,
    0)], [(415538085888, 0)]], 3, 4⟩, ⟨[[(195599593678, 0), (0, 3572015579849), (27603726825, 0), (0, 463805920),
    (3121209, 0)], [(0, 143876668612), (0, 277997481), (0, 10275878), (0, 293368), (0, 6184)], [(42143567, 0), (0,
    318721), (0, 13421), (0, 431), (0, 10)], [(0, 22735), (0, 208), (0, 11)]], 3, 4⟩, 1099511627776, 0, 161022218,
    ⟨[[(36489155382371, 0), (172805702614, 0), (408281859, 0), (0, 192681), (2648, 0)], [(59869546450, 0),
    (247040543, 0), (125006, 0), (724, 0)], [(0, 9820066), (0, 164758), (0, 109), (1, 0)], [(0, 4101), (100, 0), (1,
    0)]], 3, 4⟩, 68719476736, 425045516,
    259873818881056254449708046150169761918049351665194875997002112214287376403667344043026677760, ⟨0, 0,
    -64473591616963, [139894322508, 46353321, 20479]⟩⟩) (.leaf ⟨601, 16, 774, 365, 16, 211, ⟨[[(314606354432, 0)],
    [(415538085888, 0)]], 3, 4⟩, ⟨[[(0, 129329048879), (0, 3648954683042), (27049063981, 0), (0, 498080528),
    (2578404, 0)], [(0, 139386031779), (0, 339523429), (0, 12898032), (0, 378354), (0, 8144)], [(37432453, 0), (0,
    379656), (0, 16662), (0, 552), (0, 13)], [(0, 20295), (0, 249), (0, 14), (0, 1)]], 3, 4⟩, 1099511627776, 0,
    145185985, ⟨[[(36541286182373, 0), (169403208177, 0), (407159026, 0), (0, 274064), (2904, 0)], [(56845575550, 0),
    (231569834, 0), (93620, 0), (736, 0), (2, 0)], [(0, 8569125), (0, 151916), (0, 78), (2, 0)], [(0, 3916), (87, 0),
    (1, 0)]], 3, 4⟩, 68719476736, 436213523,
    278604866567581285213087315290921759093135620995812585654272343160402141661573995510034655034, ⟨0, 0,
    -54071881214125, [134597895591, 42299779, 17725]⟩⟩)))
theorem c16 : checkC job ⟨6, 8, 8, 10, 9, 13⟩ 3 100 lims t16 367 41 512 15 3 32 = true := by decide +kernel

def t17 : CTree :=
  .sx (.sy (.sx (.leaf ⟨508, 16, 774, 383, 16, 213, ⟨[[(346818609152, 0)], [(415538085888, 0)]], 3, 4⟩,
    ⟨[[(383936800249, 0), (0, 3307207257360), (22522434554, 0), (0, 366370396), (1919964, 0)], [(0, 165011080629),
    (0, 298285512), (0, 11047833), (0, 292598), (0, 5326)], [(54636368, 0), (0, 383149), (0, 15704), (0, 456), (0,
    9)], [(0, 32734), (0, 279), (0, 14)]], 3, 4⟩, 1099511627776, 0, 224619030, ⟨[[(33375847994074, 0), (156272114780,
    0), (378943752, 0), (0, 180285), (2323, 0)], [(62108842340, 0), (263485873, 0), (146368, 0), (659, 0), (0, 6)],
    [(0, 9533522), (0, 180828), (0, 181), (0, 3)], [(0, 6716), (110, 0), (0, 1)]], 3, 4⟩, 68719476736, 336691107,
    638975333646315610917544959657121775005040029565944478082207449367109809012412680688838192430, ⟨1, 0,
    -90895063331496, [160724955167, 59749054, 29615]⟩⟩) (.leaf ⟨539, 16, 774, 377, 16, 216, ⟨[[(336081190912, 0)],
    [(415538085888, 0)]], 3, 4⟩, ⟨[[(0, 448992900029), (0, 3381367208281), (21805760385, 0), (0, 399244117),
    (1434307, 0)], [(0, 158886323471), (0, 372267589), (0, 14118409), (0, 382813), (0, 7203)], [(47810470, 0), (0,
    464763), (0, 19769), (0, 594), (0, 13)], [(0, 28762), (0, 339), (0, 17), (0, 1)]], 3, 4⟩, 1099511627776, 0,
    191222312, ⟨[[(33494780987356, 0), (153420565541, 0), (379776436, 0), (0, 260957), (2582, 0)], [(58678321983, 0),
    (246305090, 0), (110405, 0), (704, 0), (0, 9)], [(0, 8174070), (0, 165390), (0, 119), (0, 5)], [(0, 6146), (98,
    0), (0, 1)]], 3, 4⟩, 68719476736, 411971798,
    719780943157174217394558829221271732049146793732516212135271619690018553845454532389127030664, ⟨1, 0,
    -79201777335563, [153622833862, 53827202, 25147]⟩⟩)) (.sx (.leaf ⟨508, 16, 774, 380, 16, 221, ⟨[[(346818609152,
    0)], [(415538085888, 0)]], 3, 4⟩, ⟨[[(0, 313906221302), (0, 3190708964987), (16831893643, 0), (0, 353074365),
    (209942, 0)], [(0, 173551631656), (0, 485155931), (0, 18325656), (0, 478170), (0, 11040)], [(53600076, 0), (0,
    654338), (0, 27680), (0, 899), (0, 42)], [(0, 36336), (0, 529), (0, 29), (0, 2)]], 3, 4⟩, 1099511627776, 0,
    268503862, ⟨[[(30864845602219, 0), (138181549011, 0), (364844317, 0), (0, 357587), (4511, 0)], [(57730850483, 0),
    (250067764, 0), (68282, 0), (2990, 0), (0, 96)], [(0, 6506979), (0, 179619), (911, 0), (0, 56), (2, 0)], [(0,
    9621), (319, 0), (0, 17), (1, 0)]], 3, 4⟩, 68719476736, 1305973880,
    1362903934780922437595112602667490136839477194791833422361747178401936229032000088807577407378, ⟨1, 0,
    -94308962423758, [166761573202, 61993150, 30728]⟩⟩) (.sy (.leaf ⟨539, 16, 774, 535, 16, 318, ⟨[[(336081190912,
    0)], [(415538085888, 0)]], 3, 4⟩, ⟨[[(0, 444588404104), (0, 2362166172028), (6084104114, 0), (0, 71210052), (0,
    14614)], [(0, 236859215783), (0, 386827763), (0, 7472850), (0, 101358), (0, 1247)], [(66630226, 0), (0, 504053),
    (0, 11054), (0, 189), (0, 5)], [(0, 45213), (0, 402), (0, 11)]], 3, 4⟩, 1099511627776, 0, 247360528,
    ⟨[[(31478718044506, 0), (97073505376, 0), (181694830, 0), (0, 140419), (1079, 0)], [(55345708584, 0), (165666881,
    0), (24088, 0), (926, 0), (0, 22)], [(0, 5916927), (0, 115760), (376, 0), (0, 17)], [(0, 8223), (182, 0), (0,
    7)]], 3, 4⟩, 68719476736, 162104047,
    716557508831206357703742591412250195540426548851934869735446486073154826279155219887857456765, ⟨1, 0,
    -116602616632913, [226166949852, 79245603, 37022]⟩⟩) (.leaf ⟨539, 16, 774, 525, 16, 320, ⟨[[(336081190912, 0)],
    [(415538085888, 0)]], 3, 4⟩, ⟨[[(190078501835, 0), (0, 2311341168724), (4816769099, 0), (0, 74372346), (0,
    265919)], [(0, 240979207654), (0, 491935898), (0, 9752798), (0, 157437), (0, 4250)], [(63555447, 0), (0, 667872),
    (0, 16515), (0, 495), (0, 28)], [(0, 48450), (0, 608), (0, 26), (0, 2)]], 3, 4⟩, 1099511627776, 0, 271836258,
    ⟨[[(30221878855745, 0), (91584319109, 0), (186482261, 0), (0, 227572), (2617, 0)], [(53146634545, 0), (164768575,
    0), (0, 48686), (3146, 0), (0, 71)], [(0, 4257120), (0, 139015), (1667, 0), (0, 54), (1, 0)], [(0, 12532), (528,
    0), (0, 21), (1, 0)]], 3, 4⟩, 68719476736, 379118248,
    1021253216285787624744878952976053765731590335811457043403362796494274933872026857100905331247, ⟨1, 0,
    -117335966423057, [227589383499, 79744003, 37255]⟩⟩)))) (.sy (.sx (.leaf ⟨570, 16, 774, 370, 16, 219,
    ⟨[[(325343772672, 0)], [(415538085888, 0)]], 3, 4⟩, ⟨[[(99256716521, 0), (0, 3462647827542), (20789693871, 0),
    (0, 441036332), (754339, 0)], [(0, 153707078088), (0, 462107997), (0, 17988388), (0, 500861), (0, 9950)],
    [(41737382, 0), (0, 564261), (0, 24951), (0, 782), (0, 20)], [(0, 25775), (0, 415), (0, 22), (0, 1)]], 3, 4⟩,
    1099511627776, 0, 172002945, ⟨[[(33420235414120, 0), (149454228490, 0), (383390020, 0), (0, 358155), (2932, 0)],
    [(55317021825, 0), (230924022, 0), (75446, 0), (846, 0), (0, 18)], [(0, 6800849), (0, 152381), (0, 20), (0, 10),
    (1, 0)], [(0, 5810), (98, 0), (0, 3)]], 3, 4⟩, 68719476736, 624496452,
    806116994282576808344135448258244636825692601777235723115277894814477484417421799678139910988, ⟨0, 0,
    -67883252712091, [147292579948, 48804698, 21562]⟩⟩) (.leaf ⟨601, 16, 774, 362, 16, 221, ⟨[[(314606354432, 0)],
    [(415538085888, 0)]], 3, 4⟩, ⟨[[(161662012924, 0), (0, 3536580343357), (19308471462, 0), (0, 492347842), (0,
    223817)], [(0, 148709657579), (0, 568731645), (0, 22777514), (0, 654970), (0, 14386)], [(36047785, 0), (0,
    683082), (0, 31483), (0, 1052), (0, 35)], [(0, 23479), (0, 509), (0, 29), (0, 1)]], 3, 4⟩, 1099511627776, 0,
    173434826, ⟨[[(33413581622108, 0), (146290754951, 0), (392069438, 0), (0, 459748), (3399, 0)], [(52387758185, 0),
    (218395046, 0), (44257, 0), (1128, 0), (0, 35)], [(0, 5659083), (0, 142576), (123, 0), (0, 18), (1, 0)], [(0,
    5539), (108, 0), (0, 5)]], 3, 4⟩, 68719476736, 821359848,
    843563336744642210538085986986879983487301630194320711102498619868868476635228293509758598205, ⟨0, 0,
    -56634529612898, [140976942776, 44304507, 18565]⟩⟩)) (.sx (.sy (.leaf ⟨570, 16, 774, 527, 16, 324,
    ⟨[[(325343772672, 0)], [(415538085888, 0)]], 3, 4⟩, ⟨[[(84784752180, 0), (0, 2442746061651), (5491753869, 0), (0,
    82558337), (0, 165779)], [(0, 231092026487), (0, 487274785), (0, 9729393), (0, 144388), (0, 2642)], [(57122441,
    0), (0, 626812), (0, 14786), (0, 328), (0, 14)], [(0, 41726), (0, 518), (0, 18), (0, 1)]], 3, 4⟩, 1099511627776,
    0, 214214375, ⟨[[(31433638832319, 0), (93711726632, 0), (183884251, 0), (0, 186578), (1560, 0)], [(52144154460,
    0), (155288934, 0), (0, 7783), (1562, 0), (0, 38)], [(0, 4648204), (0, 112868), (737, 0), (0, 28), (1, 0)], [(0,
    8479), (258, 0), (0, 11)]], 3, 4⟩, 68719476736, 235525643,
    719884248039990485645390352892447211442665970469636613909089018236857420306158021503298306048, ⟨0, 0,
    -100430017711039, [217912310061, 72204211, 31899]⟩⟩) (.leaf ⟨570, 16, 774, 515, 16, 325, ⟨[[(325343772672, 0)],
    [(415538085888, 0)]], 3, 4⟩, ⟨[[(545984879853, 0), (0, 2393359085987), (3948826962, 0), (0, 93354028), (0,
    916220)], [(0, 235125284672), (0, 624978849), (0, 13372627), (0, 296312), (0, 13161)], [(52894225, 0), (0,
    862520), (0, 26899), (0, 1308), (0, 92)], [(0, 45916), (0, 916), (0, 61), (0, 5)]], 3, 4⟩, 1099511627776, 0,
    279454859, ⟨[[(30195068919184, 0), (88319318304, 0), (192795897, 0), (0, 332170), (4440, 0)], [(50027578734, 0),
    (156413254, 0), (0, 136202), (5496, 0), (0, 122)], [(0, 2882095), (0, 156216), (2868, 0), (0, 86), (2, 0)], [(0,
    14986), (794, 0), (0, 32), (1, 0)]], 3, 4⟩, 68719476736, 634931962,
    1495999074470368631450798850534067850489043889918422327888089367670602805882531496416702426977, ⟨0, 0,
    -100739986901505, [218584878919, 72427064, 31998]⟩⟩)) (.sy (.leaf ⟨601, 16, 774, 516, 16, 328, ⟨[[(314606354432,
    0)], [(415538085888, 0)]], 3, 4⟩, ⟨[[(516576313169, 0), (0, 2517928992242), (4639851204, 0), (0, 98398609), (0,
    524028)], [(0, 225291792552), (0, 608931615), (0, 12742662), (0, 224741), (0, 6741)], [(47815567, 0), (0,
    782610), (0, 20888), (0, 683), (0, 41)], [(0, 39408), (0, 694), (0, 32), (0, 2)]], 3, 4⟩, 1099511627776, 0,
    204094281, ⟨[[(31399371423336, 0), (90771498492, 0), (189723146, 0), (0, 250994), (2498, 0)], [(49261407562, 0),
    (147346068, 0), (0, 53556), (2769, 0), (0, 67)], [(0, 3483135), (0, 117294), (1357, 0), (0, 46), (1, 0)], [(0,
    9406), (390, 0), (0, 17)]], 3, 4⟩, 68719476736, 351697754,
    828126737061070726635483241573093051124435273721799090938366313098328699017965522596776640512, ⟨0, 0,
    -84054867479777, [209232747649, 65755106, 27553]⟩⟩) (.leaf ⟨601, 16, 774, 501, 16, 327, ⟨[[(314606354432, 0)],
    [(415538085888, 0)]], 3, 4⟩, ⟨[[(360793929188, 0), (0, 2466065739868), (2644137737, 0), (0, 131321826), (0,
    2968096)], [(0, 228766087939), (0, 793380364), (0, 19639263), (0, 680227), (0, 42154)], [(42008198, 0), (0,
    1166633), (0, 52354), (0, 3792), (0, 298)], [(0, 45459), (0, 1607), (0, 161), (0, 17), (0, 1)]], 3, 4⟩,
    1099511627776, 0, 385670981, ⟨[[(30212001215271, 0), (85752963160, 0), (205207122, 0), (0, 504376), (7842, 0)],
    [(47257655375, 0), (151655692, 0), (0, 278425), (9611, 0), (0, 210)], [(0, 1503991), (0, 192251), (4799, 0), (0,
    139), (3, 0)], [(0, 19137), (1197, 0), (0, 48), (1, 0)]], 3, 4⟩, 68719476736, 1075395948,
    1828088633187506219189376142323534804235833214455101715986411862781895022158310065295390609568, ⟨0, 0,
    -83798602639899, [208594842931, 65554633, 27469]⟩⟩))))
theorem c17 : checkC job ⟨6, 8, 8, 10, 9, 13⟩ 3 100 lims t17 367 41 512 21 3 32 = true := by decide +kernel

def t18 : CTree :=
  .sy (.sx (.sy (.sx (.leaf ⟨632, 16, 774, 483, 16, 202, ⟨[[(303868936192, 0)], [(415538085888, 0)]], 3, 4⟩,
    ⟨[[(377693209789, 0), (0, 3843071127808), (37425287587, 0), (0, 463339156), (6319776, 0)], [(0, 122994754061),
    (0, 22416302), (0, 470334), (0, 3230), (0, 6)], [(36215084, 0), (0, 20196), (0, 425), (0, 3)], [(0, 14758), (0,
    8)]], 3, 4⟩, 1099511627776, 0, 116871705, ⟨[[(70765241909372, 0), (302349153045, 0), (448998326, 0), (2794, 0),
    (0, 1794)], [(89531958648, 0), (261270713, 0), (38657, 0), (0, 1957), (0, 50)], [(0, 31786434), (0, 196409), (0,
    732), (0, 26)], [(14884, 0), (90, 0), (0, 6)]], 3, 4⟩, 68719476736, 678560924,
    393422341243617114086366722806358904862723306022702347835154600468682733276209044236149981184, ⟨0, 0,
    -41462527214563, [122541000731, 36623132, 14594]⟩⟩) (.leaf ⟨663, 16, 774, 481, 16, 205, ⟨[[(293131517952, 0)],
    [(415538085888, 0)]], 3, 4⟩, ⟨[[(473217489278, 0), (0, 3902154333814), (37938971713, 0), (0, 470511687),
    (6413030, 0)], [(0, 119082148826), (0, 26281137), (0, 551632), (0, 3837), (0, 8)], [(33318825, 0), (0, 22595),
    (0, 476), (0, 4)], [(0, 13005), (0, 9)]], 3, 4⟩, 1099511627776, 0, 105144068, ⟨[[(70742908930835, 0),
    (297706005421, 0), (437099245, 0), (8495, 0), (0, 1578)], [(85350257326, 0), (245317232, 0), (46198, 0), (0,
    1630), (0, 44)], [(0, 28804863), (0, 173488), (0, 568), (0, 21)], [(13120, 0), (91, 0), (0, 5)]], 3, 4⟩,
    68719476736, 631037978,
    294810341839059245872388724281413900827953733712692471075578869888693147929921385203085869056, ⟨0, 0,
    -32122746162227, [118550321050, 33775020, 12830]⟩⟩)) (.sx (.leaf ⟨632, 16, 774, 503, 16, 219, ⟨[[(303868936192,
    0)], [(415538085888, 0)]], 3, 4⟩, ⟨[[(0, 525991656142), (0, 3728611512042), (32794816501, 0), (0, 371973751),
    (4347491, 0)], [(0, 133510740359), (0, 30808779), (0, 575380), (0, 3828), (0, 21)], [(39114184, 0), (0, 27801),
    (0, 525), (0, 4)], [(0, 16061), (0, 11)]], 3, 4⟩, 1099511627776, 0, 102263034, ⟨[[(65169488140944, 0),
    (263135357280, 0), (380088608, 0), (41659, 0), (20, 0)], [(84578377321, 0), (238582592, 0), (68621, 0), (0, 36),
    (0, 5)], [(0, 28185197), (0, 171701), (0, 16), (0, 2)], [(11830, 0), (182, 0)]], 3, 4⟩, 68719476736, 154552850,
    194755223159923329139284787806404309340077869302732042756112994144074088518648901445277914610, ⟨0, 0,
    -44951947821730, [132853857228, 39705277, 15822]⟩⟩) (.leaf ⟨663, 16, 774, 500, 16, 222, ⟨[[(293131517952, 0)],
    [(415538085888, 0)]], 3, 4⟩, ⟨[[(0, 498485769094), (0, 3782445227418), (33192528273, 0), (0, 377414744),
    (4405089, 0)], [(0, 129150435535), (0, 36088724), (0, 675191), (0, 4560), (0, 26)], [(35915627, 0), (0, 31087),
    (0, 590), (0, 4)], [(0, 14149), (0, 12)]], 3, 4⟩, 1099511627776, 0, 89075376, ⟨[[(65163080611370, 0),
    (259371984837, 0), (370801604, 0), (37728, 0), (87, 0)], [(80642749707, 0), (224035801, 0), (66889, 0), (21, 0),
    (0, 4)], [(0, 25562225), (0, 153613), (12, 0), (0, 2)], [(10304, 0), (160, 0)]], 3, 4⟩, 68719476736, 131389708,
    223113091267333505161926292727880380950179279223129417572300164814878728210930928083116550671, ⟨0, 0,
    -34786583648851, [128381323284, 36575876, 13894]⟩⟩))) (.sy (.sx (.leaf ⟨694, 16, 774, 480, 16, 208,
    ⟨[[(282394099712, 0)], [(415538085888, 0)]], 3, 4⟩, ⟨[[(0, 368211515576), (0, 3961604739535), (38444929547, 0),
    (0, 477742243), (6506113, 0)], [(0, 115535086120), (0, 30608007), (0, 642742), (0, 4535), (0, 10)], [(30770378,
    0), (0, 25170), (0, 530), (0, 4)], [(0, 11538), (0, 9)]], 3, 4⟩, 1099511627776, 0, 95953154, ⟨[[(70971279113619,
    0), (293900471473, 0), (425836341, 0), (9138, 0), (0, 1482)], [(81742537949, 0), (230936408, 0), (49525, 0), (0,
    1459), (0, 41)], [(0, 26343976), (0, 154684), (0, 475), (0, 19)], [(11712, 0), (84, 0), (0, 4)]], 3, 4⟩,
    68719476736, 597238155,
    335988752477238918134771662743008292553284854934829855732443563828194006773997723347591364608, ⟨0, 0,
    -22952940005918, [114915913263, 31278147, 11351]⟩⟩) (.leaf ⟨725, 16, 774, 476, 16, 210, ⟨[[(271656681472, 0)],
    [(415538085888, 0)]], 3, 4⟩, ⟨[[(0, 261339002414), (0, 4002407233769), (38757666367, 0), (0, 482740853),
    (6567706, 0)], [(0, 111776305772), (0, 35263887), (0, 740914), (0, 5313), (0, 13)], [(28377554, 0), (0, 27798),
    (0, 587), (0, 5)], [(0, 10251), (0, 10)]], 3, 4⟩, 1099511627776, 0, 88075073, ⟨[[(70943634201733, 0),
    (290826554930, 0), (419091170, 0), (14959, 0), (0, 1253)], [(78253985701, 0), (218800388, 0), (56850, 0), (0,
    1176), (0, 36)], [(0, 24059998), (0, 138365), (0, 352), (0, 16)], [(10451, 0), (85, 0), (0, 3)]], 3, 4⟩,
    68719476736, 565746020,
    424624720595562853941967189430333109250355010921162198634872115523647122268577106947515351040, ⟨0, 0,
    -13866151612706, [111063233704, 28937789, 10053]⟩⟩)) (.sx (.leaf ⟨694, 16, 774, 497, 16, 225, ⟨[[(282394099712,
    0)], [(415538085888, 0)]], 3, 4⟩, ⟨[[(0, 273888818868), (0, 3836777350336), (33580807593, 0), (0, 382925501),
    (4462197, 0)], [(0, 125202624007), (0, 41996354), (0, 787344), (0, 5409), (0, 33)], [(33100244, 0), (0, 34617),
    (0, 660), (0, 5)], [(0, 12550), (0, 13)]], 3, 4⟩, 1099511627776, 0, 78589870, ⟨[[(65110902258386, 0),
    (255551692046, 0), (361982840, 0), (33023, 0), (155, 0)], [(77024673187, 0), (210806720, 0), (65199, 0), (69, 0),
    (0, 3)], [(0, 23253843), (0, 138125), (33, 0), (0, 1)], [(9009, 0), (141, 0)]], 3, 4⟩, 68719476736, 114994568,
    253139086453781438684761982504851463099803713353687128605034143921217172717402327801353447483, ⟨0, 0,
    -24828901448709, [124308079251, 33834534, 12279]⟩⟩) (.leaf ⟨725, 16, 774, 494, 16, 228, ⟨[[(271656681472, 0)],
    [(415538085888, 0)]], 3, 4⟩, ⟨[[(122329276786, 0), (0, 3891667223965), (33958485243, 0), (0, 388517195),
    (4518701, 0)], [(0, 121617080068), (0, 48579521), (0, 912940), (0, 6393), (0, 40)], [(30604753, 0), (0, 38404),
    (0, 736), (0, 6)], [(0, 11204), (0, 14)]], 3, 4⟩, 1099511627776, 0, 70247972, ⟨[[(65020813557578, 0),
    (251694393088, 0), (353630493, 0), (27430, 0), (217, 0)], [(73690016694, 0), (198724393, 0), (63498, 0), (105,
    0), (0, 1)], [(0, 21213048), (0, 124795), (48, 0)], [(7903, 0), (125, 0)]], 3, 4⟩, 68719476736, 105603532,
    271620809581927997752794287420640612360619795023205368367468903408012991136394992823029465088, ⟨0, 0,
    -15054678893795, [120582939451, 31418171, 10915]⟩⟩)))) (.sx (.sy (.leaf ⟨324, 16, 387, 380, 16, 174, ⟨[[(0,
    125627793408)], [(415538085888, 0)]], 3, 4⟩, ⟨[[(0, 20448309464), (0, 2680265404734), (21376995998, 0), (0,
    226142840), (2428152, 0)], [(0, 207536055142), (0, 65236938), (0, 1113835), (0, 7923), (0, 75)], [(117625622, 0),
    (0, 115427), (0, 2016), (0, 16)], [(0, 95578), (0, 93), (0, 2)]], 3, 4⟩, 1099511627776, 0, 984352131,
    ⟨[[(60148881385847, 0), (312303412665, 0), (599557465, 0), (58342, 0), (334, 0)], [(155921829370, 0), (578652057,
    0), (212119, 0), (0, 172), (18, 0)], [(0, 94316238), (0, 821300), (0, 269), (18, 0)], [(61758, 0), (1573, 0),
    (10, 0)]], 3, 4⟩, 68719476736, 1222048074,
    379664441195530140955291526435455149060513680852369229530273042886669394799380767338188532683, ⟨0, 0,
    -31439665470411, [206060344020, 120221904, 93522]⟩⟩) (.leaf ⟨324, 16, 387, 383, 16, 182, ⟨[[(0, 125627793408)],
    [(415538085888, 0)]], 3, 4⟩, ⟨[[(0, 174090202975), (0, 2558696492183), (18596176448, 0), (0, 184402571),
    (1847940, 0)], [(0, 217531207928), (0, 83191163), (0, 1335000), (0, 10820), (0, 135)], [(122229407, 0), (0,
    148076), (0, 2467), (0, 23)], [(0, 100628), (0, 122), (0, 2)]], 3, 4⟩, 1099511627776, 0, 1027695686,
    ⟨[[(55942729460906, 0), (282744705592, 0), (546005502, 0), (44595, 0), (0, 57)], [(147957845893, 0), (547314970,
    0), (220756, 0), (0, 1073), (14, 0)], [(0, 83056533), (0, 767380), (0, 974), (15, 0)], [(42148, 0), (1205, 0),
    (10, 0)]], 3, 4⟩, 68719476736, 811403047,
    328569221070755663140395190226759699008368910828192656807179849386078616661987459786785922073, ⟨0, 0,
    -32885167331120, [215534382826, 125749348, 97821]⟩⟩)) (.sy (.leaf ⟨355, 16, 387, 382, 16, 182, ⟨[[(0,
    136365211648)], [(415538085888, 0)]], 3, 4⟩, ⟨[[(0, 35223342944), (0, 2809958594939), (22249076305, 0), (0,
    237346054), (2531802, 0)], [(0, 198746293980), (0, 90083733), (0, 1550068), (0, 11526), (0, 119)], [(101472352,
    0), (0, 146194), (0, 2600), (0, 23)], [(0, 76752), (0, 110), (0, 2)]], 3, 4⟩, 1099511627776, 0, 715693065,
    ⟨[[(60152454859624, 0), (297905444348, 0), (552124556, 0), (24778, 0), (419, 0)], [(142433368860, 0), (502814687,
    0), (188237, 0), (0, 156), (17, 0)], [(0, 78174811), (0, 656192), (0, 165), (15, 0)], [(47143, 0), (1156, 0), (8,
    0)]], 3, 4⟩, 68719476736, 916832012,
    394527524130081267016982408631076819388533981587694923360120542386434372356959339340341651564, ⟨0, 0,
    -16006547077454, [196712423942, 104745700, 74367]⟩⟩) (.leaf ⟨355, 16, 387, 385, 16, 191, ⟨[[(0, 136365211648)],
    [(415538085888, 0)]], 3, 4⟩, ⟨[[(530922465304, 0), (0, 2693502352168), (19382084527, 0), (0, 194637181),
    (1924874, 0)], [(0, 209202995031), (0, 115490783), (0, 1877378), (0, 16121), (0, 216)], [(105465826, 0), (0,
    189064), (0, 3242), (0, 34), (0, 1)], [(0, 81327), (0, 146), (0, 3)]], 3, 4⟩, 1099511627776, 0, 749093640,
    ⟨[[(55768273076442, 0), (267948088728, 0), (500649118, 0), (9846, 0), (51, 0)], [(134864651710, 0), (473367545,
    0), (197643, 0), (0, 929), (9, 0)], [(0, 68330090), (0, 610697), (0, 733), (9, 0)], [(31494, 0), (873, 0), (6,
    0)]], 3, 4⟩, 68719476736, 666969629,
    403167421363301782867345674444452516139469048428152547125818434034582733532660110383570760180, ⟨0, 0,
    -16798079625240, [206439961390, 109925432, 78044]⟩⟩)))
theorem c18 : checkC job ⟨6, 8, 8, 10, 9, 13⟩ 3 100 lims t18 449 41 512 3 3 32 = true := by decide +kernel

def t19 : CTree :=
  .sy (.sy (.sx (.sx (.leaf ⟨756, 16, 774, 472, 16, 212, ⟨[[(260919263232, 0)], [(415538085888, 0)]], 3, 4⟩,
    ⟨[[(52816276888, 0), (0, 4043638874362), (39061350022, 0), (0, 487811863), (6629039, 0)], [(0, 108343029791), (0,
    40407939), (0, 849546), (0, 6202), (0, 17)], [(26252221, 0), (0, 30595), (0, 647), (0, 5)], [(0, 9161), (0,
    11)]], 3, 4⟩, 1099511627776, 0, 82003234, ⟨[[(70862208775479, 0), (287628789154, 0), (412624975, 0), (20563, 0),
    (0, 989)], [(75016255729, 0), (207625646, 0), (63742, 0), (0, 894), (0, 31)], [(0, 22026539), (0, 124209), (0,
    242), (0, 13)], [(9354, 0), (85, 0), (0, 2)]], 3, 4⟩, 68719476736, 528997616,
    531930459613750370209174291410965870009055212136799597900790704184517005514402510263243767808, ⟨0, 0,
    -4995298428051, [107526315988, 26868145, 8952]⟩⟩) (.leaf ⟨787, 16, 774, 469, 16, 214, ⟨[[(250181844992, 0)],
    [(415538085888, 0)]], 3, 4⟩, ⟨[[(0, 546919583479), (0, 4085344730967), (39355013481, 0), (0, 492965733),
    (6690046, 0)], [(0, 105198582637), (0, 46072579), (0, 969396), (0, 7219), (0, 21)], [(24353345, 0), (0, 33570),
    (0, 711), (0, 6)], [(0, 8232), (0, 11)]], 3, 4⟩, 1099511627776, 0, 76975323, ⟨[[(71019137075961, 0),
    (285139939527, 0), (406498095, 0), (21902, 0), (0, 839)], [(72202488543, 0), (197426005, 0), (67655, 0), (0,
    735), (0, 28)], [(0, 20322217), (0, 112301), (0, 178), (0, 11)], [(8471, 0), (81, 0), (0, 2)]], 3, 4⟩,
    68719476736, 506112272,
    633835499304313170925911948064462326478505211286000535606368841205156205045124877136896720896, ⟨0, 0,
    3680382903905, [104267868990, 25028293, 8010]⟩⟩)) (.sy (.leaf ⟨417, 16, 387, 534, 16, 247, ⟨[[(0, 157840048128)],
    [(415538085888, 0)]], 3, 4⟩, ⟨[[(80926714932, 0), (0, 2431127594012), (11987012093, 0), (0, 77488261), (557986,
    0)], [(0, 229644243801), (0, 59376828), (0, 644101), (0, 2525), (0, 3)], [(99772937, 0), (0, 81924), (0, 891),
    (0, 4)], [(0, 64290), (0, 52), (0, 1)]], 3, 4⟩, 1099511627776, 0, 501183402, ⟨[[(72518798208387, 0),
    (250375693730, 0), (307261019, 0), (4531, 0), (0, 747)], [(138322097818, 0), (323396909, 0), (97198, 0), (0,
    1385), (0, 40)], [(0, 74059722), (0, 345926), (0, 740), (0, 34), (0, 1)], [(61198, 0), (409, 0), (0, 13)]], 3,
    4⟩, 68719476736, 419194694,
    579073394087823552545999298118983509223586939708780207742020994100405749986626996720919117824, ⟨0, 0,
    18629979023876, [227272785620, 103024835, 62269]⟩⟩) (.leaf ⟨417, 16, 387, 534, 16, 253, ⟨[[(0, 157840048128)],
    [(415538085888, 0)]], 3, 4⟩, ⟨[[(0, 170146725591), (0, 2350957563823), (10961795747, 0), (0, 67444573), (433612,
    0)], [(0, 235611875797), (0, 69018692), (0, 707148), (0, 2690), (0, 6)], [(101659274, 0), (0, 95344), (0, 993),
    (0, 5)], [(0, 66194), (0, 61), (0, 1)]], 3, 4⟩, 1099511627776, 0, 512981177, ⟨[[(69397287035159, 0),
    (236846289051, 0), (292297385, 0), (18713, 0), (20, 0)], [(134244117637, 0), (312931397, 0), (115033, 0), (0,
    63), (0, 13)], [(0, 69742000), (0, 331342), (77, 0), (0, 11)], [(54437, 0), (605, 0), (0, 4)]], 3, 4⟩,
    68719476736, 235231942,
    369699812681363447562326739846763375721256698010077366874221138729862184000422290918983179433, ⟨0, 0,
    19082529121622, [232793582032, 105527462, 63782]⟩⟩))) (.sx (.leaf ⟨386, 16, 387, 378, 16, 179, ⟨[[(0,
    147102629888)], [(415538085888, 0)]], 3, 4⟩, ⟨[[(0, 488281224388), (0, 3060468108839), (26563063655, 0), (0,
    305713054), (3543045, 0)], [(0, 179890737398), (0, 92128706), (0, 1738717), (0, 12583), (0, 85)], [(84234684, 0),
    (0, 137347), (0, 2658), (0, 23)], [(0, 58843), (0, 94), (0, 2)]], 3, 4⟩, 1099511627776, 0, 511384834,
    ⟨[[(65227918489995, 0), (320790489605, 0), (577133567, 0), (41890, 0), (805, 0)], [(138814591038, 0), (474140122,
    0), (207873, 0), (596, 0), (0, 2)], [(0, 74879933), (0, 559742), (412, 0), (1, 0), (0, 1)], [(53530, 0), (1092,
    0), (2, 0)]], 3, 4⟩, 68719476736, 1640063215,
    403708448762911895051382396554430882333370978706637254864941174641518887637222246475762821647, ⟨0, 0,
    -533012353589, [177931681548, 87135985, 56896]⟩⟩) (.leaf ⟨417, 16, 387, 377, 16, 185, ⟨[[(0, 157840048128)],
    [(415538085888, 0)]], 3, 4⟩, ⟨[[(0, 165726499968), (0, 3171871146008), (27286443167, 0), (0, 317201349),
    (3652912, 0)], [(0, 172782926892), (0, 120536518), (0, 2291112), (0, 17466), (0, 132)], [(73647042, 0), (0,
    167274), (0, 3292), (0, 31)], [(0, 48846), (0, 109), (0, 2)]], 3, 4⟩, 1099511627776, 0, 392845341,
    ⟨[[(65132061237137, 0), (309192968069, 0), (545330601, 0), (10346, 0), (983, 0)], [(128516142957, 0), (422346298,
    0), (196008, 0), (646, 0), (6, 0)], [(0, 63571117), (0, 464048), (445, 0), (6, 0)], [(42720, 0), (866, 0), (3,
    0)]], 3, 4⟩, 68719476736, 1364208200,
    376786016213525502957950315972557486499374205223699109699956872779956151799120556040834822027, ⟨0, 0,
    13953628013834, [170224556032, 77164350, 46639]⟩⟩))) (.sx (.sy (.leaf ⟨386, 16, 387, 382, 16, 189, ⟨[[(0,
    147102629888)], [(415538085888, 0)]], 3, 4⟩, ⟨[[(0, 139058011578), (0, 2926790397779), (22953367167, 0), (0,
    247632802), (2616714, 0)], [(0, 190593250894), (0, 120836346), (0, 2100550), (0, 16504), (0, 185)], [(87963809,
    0), (0, 181545), (0, 3304), (0, 32)], [(0, 62811), (0, 128), (0, 3)]], 3, 4⟩, 1099511627776, 0, 534379982,
    ⟨[[(60178938585349, 0), (286112788138, 0), (517009428, 0), (0, 7159), (466, 0)], [(131180494474, 0), (442998600,
    0), (173616, 0), (0, 188), (15, 0)], [(0, 65728980), (0, 536200), (0, 109), (13, 0)], [(36969, 0), (875, 0), (6,
    0)]], 3, 4⟩, 68719476736, 776349200,
    359021628013987039914636932871329354742919980922141347702324713763751929374455200333296124767, ⟨0, 0,
    -562789580046, [187871998953, 92003917, 60074]⟩⟩) (.leaf ⟨386, 16, 387, 384, 16, 198, ⟨[[(0, 147102629888)],
    [(415538085888, 0)]], 3, 4⟩, ⟨[[(71931566062, 0), (0, 2803438603263), (19908465904, 0), (0, 203407753), (1972579,
    0)], [(0, 200511903268), (0, 155060781), (0, 2563375), (0, 23610), (0, 341)], [(90878837, 0), (0, 235849), (0,
    4196), (0, 50), (0, 1)], [(0, 66718), (0, 173), (0, 4)]], 3, 4⟩, 1099511627776, 0, 558170283, ⟨[[(55880728311496,
    0), (257843570727, 0), (471834699, 0), (0, 22575), (174, 0)], [(124377114833, 0), (417418318, 0), (183147, 0),
    (0, 781), (5, 0)], [(0, 57511410), (0, 500930), (0, 530), (6, 0)], [(24833, 0), (671, 0), (4, 0)]], 3, 4⟩,
    68719476736, 577299037,
    512976056972140086308132376714783309122503254248709704192676407324764863777720671479869517525, ⟨0, 0,
    -589589083858, [196818284617, 96385056, 62935]⟩⟩)) (.sy (.leaf ⟨417, 16, 387, 380, 16, 195, ⟨[[(0,
    157840048128)], [(415538085888, 0)]], 3, 4⟩, ⟨[[(0, 159073333868), (0, 3031262100473), (23479809394, 0), (0,
    257137823), (2680433, 0)], [(0, 182975984367), (0, 158167529), (0, 2785824), (0, 23391), (0, 288)], [(76437530,
    0), (0, 221867), (0, 4159), (0, 45), (0, 1)], [(0, 52272), (0, 149), (0, 3)]], 3, 4⟩, 1099511627776, 0,
    408328593, ⟨[[(60182600928272, 0), (276269207406, 0), (491705326, 0), (0, 38494), (496, 0)], [(121604030763, 0),
    (394858015, 0), (166226, 0), (0, 241), (12, 0)], [(0, 55840929), (0, 446509), (0, 78), (10, 0)], [(29580, 0),
    (680, 0), (5, 0)]], 3, 4⟩, 68719476736, 732526872,
    298204516460677182426648235965254119140384792192644076167175210330546317217218501418973700528, ⟨0, 0,
    14707878176744, [179425883385, 81335396, 49160]⟩⟩) (.leaf ⟨417, 16, 387, 383, 16, 205, ⟨[[(0, 157840048128)],
    [(415538085888, 0)]], 3, 4⟩, ⟨[[(0, 326007188481), (0, 2917459005607), (20363166379, 0), (0, 212992333),
    (2006259, 0)], [(0, 193468230444), (0, 204385527), (0, 3452116), (0, 34513), (0, 539)], [(78789161, 0), (0,
    291613), (0, 5432), (0, 73), (0, 1)], [(0, 56036), (0, 207), (0, 5)]], 3, 4⟩, 1099511627776, 0, 427931915,
    ⟨[[(55971003120973, 0), (248088948427, 0), (447092666, 0), (0, 54230), (311, 0)], [(115453975509, 0), (370314555,
    0), (173521, 0), (0, 630), (1, 0)], [(0, 48890625), (0, 416741), (0, 367), (3, 0)], [(19940, 0), (531, 0), (3,
    0)]], 3, 4⟩, 68719476736, 530922323,
    520409906272946363136319613745340319930942626521089482630427744484251305516405252700628870120, ⟨0, 0,
    15462128339654, [188627210738, 85506442, 51681]⟩⟩)))
theorem c19 : checkC job ⟨6, 8, 8, 10, 9, 13⟩ 3 100 lims t19 531 41 512 3 3 32 = true := by decide +kernel

end PyX.Kron.S2a
