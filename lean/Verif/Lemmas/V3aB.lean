import Verif.Lemmas.V3aJob

/-!
# The volume from pressure and enthalpy in subregion 3a, part B of the certificate
-/

namespace PyX.Kron.V3a

set_option Elab.async false

def t26 : CTree :=
  .sx (.sx (.sy (.sx (.sy (.out ⟨1710, 16, 6458, 4448, 16, 4214, ⟨[[(10675488359759872, 0), (0, 3727608694607803),
    (27356386637, 0)], [(7082238768320294, 0), (0, 1378865254424), (26916978, 0)], [(3308430018595, 0), (0,
    402723911), (0, 5840)]], 2, 2⟩, ⟨[[(0, 20011182268743680), (0, 1828379890333488), (0, 8059491427)], [(0,
    30095378917482898), (200945851280, 0), (11215522, 0)], [(5464512461883, 0), (67709814, 0), (3852, 0)]], 2, 2⟩,
    72057594037927936, 40528337291959, 26933836202657, ⟨[], 0, 0⟩, 0, 0, 0, lc0⟩ 2 1 10997856570962) (.sx (.out
    ⟨1848, 16, 7090, 6236, 16, 5919, ⟨[[(6168812686508032, 0), (0, 4046484321477411), (30188750706, 0)],
    [(3476325325443111, 0), (0, 737168930395), (15330103, 0)], [(821166041350, 0), (0, 109606114), (0, 1609)]], 2,
    2⟩, ⟨[[(0, 35642335777456128), (0, 2583167492800572), (0, 12558150917)], [(0, 21144768829133327), (148138247385,
    0), (8197168, 0)], [(1954103492916, 0), (26485988, 0), (1498, 0)]], 2, 2⟩, 72057594037927936, 9829183681264,
    15171909413304, ⟨[], 0, 0⟩, 0, 0, 0, lc0⟩ 2 1 8199773973703) (.leaf ⟨2789, 16, 7170, 1747, 16, 6369, ⟨[[(0,
    16687177737568256), (0, 4123651866489013), (31177533163, 0), (336362, 0), (10, 0)], [(3587947244323902, 0), (0,
    755017120728), (15358472, 0), (332, 0)], [(893705825826, 0), (0, 116060645), (0, 1815)], [(511891080, 0), (0,
    41180), (0, 1)]], 3, 4⟩, ⟨[[(15883567247278080, 0), (0, 2640774153620757), (0, 12513983701), (0, 736855), (0,
    18)], [(0, 21502644151058728), (153977344865, 0), (8523838, 0), (269, 0)], [(1955680656453, 0), (24459943, 0),
    (1405, 0)], [(0, 368999487), (0, 21226), (0, 1)]], 3, 4⟩, 72057594037927936, 26035653528, 8984614805,
    ⟨[[(17737589603985, 0), (9490493932, 0), (2084537, 0), (0, 5913), (0, 21)], [(0, 6102616690), (0, 7627881),
    (1257, 0), (16, 0)], [(5075895, 0), (5320, 0), (0, 4)], [(0, 4562), (0, 1)]], 3, 4⟩, 17592186044416, 536237,
    12764332519270972951671318573208656927148960568845258682829568845104742703409177474807031529439509226560240758416486857581939878,
    lc0⟩))) (.leaf ⟨1367, 16, 3492, 873, 16, 3201, ⟨[[(0, 10421390650933248), (0, 4079118745747350), (62091604938,
    0), (1350887, 0), (79, 0)], [(3799821067108516, 0), (0, 1514961460133), (57949344, 0), (2442, 0)],
    [(1995420072049, 0), (0, 478214348), (0, 15806), (0, 1)], [(2154523640, 0), (0, 309235), (0, 22)]], 3, 4⟩,
    ⟨[[(24675607678484480, 0), (0, 2638708544336737), (0, 22991002339), (0, 2824204), (0, 137)], [(0,
    21409761839304466), (306574893444, 0), (34111826, 0), (2160, 0)], [(3782948654578, 0), (79894774, 0), (9451, 0),
    (1, 0)], [(0, 1426365377), (0, 164697), (0, 16)]], 3, 4⟩, 72057594037927936, 216277120316, 74868458400,
    ⟨[[(17537123543136, 0), (18529147887, 0), (8958540, 0), (0, 38391), (0, 276)], [(0, 12014789078), (0, 30467222),
    (5522, 0), (216, 0), (2, 0)], [(20177571, 0), (44512, 0), (0, 58)], [(0, 37186), (0, 32)]], 3, 4⟩,
    17592186044416, 8662723,
    15958779537108145732106405913079403040136050429827276818926965694915801833084807304212007865587211827584905315663211963342357111,
    lc0⟩)) (.sx (.leaf ⟨1400, 16, 3657, 857, 16, 3161, ⟨[[(6365922416427008, 0), (0, 4142359904822697), (64533504589,
    0), (1465226, 0), (83, 0)], [(3055234722677114, 0), (0, 1481916676576), (66186109, 0), (2964, 0)],
    [(1581794065746, 0), (0, 474010095), (0, 15337), (0, 1)], [(1918065230, 0), (0, 357010), (0, 26)]], 3, 4⟩, ⟨[[(0,
    34958295414300672), (0, 2644743466071441), (0, 28650640320), (0, 3168783), (0, 151)], [(0, 21306805101449527),
    (329811004972, 0), (36077464, 0), (2268, 0)], [(3969101552482, 0), (111619288, 0), (12731, 0), (1, 0)], [(0,
    1542686985), (0, 181864), (0, 18)]], 3, 4⟩, 72057594037927936, 209295315342, 70138607736, ⟨[[(17818766669383, 0),
    (19641436588, 0), (9623034, 0), (0, 40305), (0, 304)], [(0, 12575027790), (0, 32201071), (5961, 0), (195, 0), (2,
    0)], [(21568784, 0), (43531, 0), (0, 65)], [(0, 39326), (0, 8)]], 3, 4⟩, 17592186044416, 8797321,
    14159146527074816735436829128046549498176293736458247796492131765119660701683620457673261637056003196865011721735625923175093358,
    lc0⟩) (.leaf ⟨1378, 16, 3595, 852, 16, 3191, ⟨[[(10246306979840000, 0), (0, 4134164328151708), (66143613116, 0),
    (1560609, 0), (88, 0)], [(3144319148542610, 0), (0, 1497776616875), (63662537, 0), (2808, 0)], [(1802867157297,
    0), (0, 509646935), (0, 18268), (0, 1)], [(2052449183, 0), (0, 341924), (0, 25)]], 3, 4⟩, ⟨[[(14653056926285824,
    0), (0, 2655675114256327), (0, 27371564357), (0, 3101066), (0, 148)], [(0, 21180609024012526), (341438657219, 0),
    (37405557, 0), (2365, 0)], [(3813585219866, 0), (89697266, 0), (10621, 0), (1, 0)], [(0, 1508488135), (0,
    181027), (0, 18)]], 3, 4⟩, 72057594037927936, 230481829732, 77031827685, ⟨[[(17543548519428, 0), (19134589550,
    0), (10719163, 0), (0, 26254), (0, 195)], [(0, 12290080666), (0, 32359100), (0, 257), (118, 0), (1, 0)],
    [(21508524, 0), (46219, 0), (0, 62)], [(0, 40779), (0, 16)]], 3, 4⟩, 17592186044416, 8288034,
    8953968754151832513263283684209479559337715399790662779690894937384183968381802073695297514118334594996994131292762648980484440,
    lc0⟩))) (.sy (.leaf ⟨1229, 16, 3132, 616, 16, 2308, ⟨[[(1990721029029888, 0), (0, 3745965113609761),
    (58903832179, 0), (1344816, 0), (78, 0)], [(7315050398104971, 0), (0, 2832151946251), (99929031, 0), (4067, 0)],
    [(8709023158458, 0), (0, 1920512773), (0, 70749), (0, 5)], [(17395548237, 0), (0, 2112234), (0, 142)]], 3, 4⟩,
    ⟨[[(25337079804534784, 0), (0, 1888448799571142), (0, 15003391172), (0, 1936207), (0, 94)], [(0,
    30210635761291502), (453812180807, 0), (50635197, 0), (3236, 0)], [(10153713724038, 0), (141989283, 0), (18629,
    0), (2, 0)], [(0, 7780333365), (0, 919829), (0, 90)]], 3, 4⟩, 72057594037927936, 3350145447442, 766521595071,
    ⟨[[(17157544747454, 0), (25050452341, 0), (20405761, 0), (0, 58727), (0, 587)], [(0, 12621720525), (0, 46678692),
    (0, 8063), (344, 0), (4, 0)], [(23588020, 0), (79281, 0), (0, 103)], [(0, 49492), (0, 77)]], 3, 4⟩,
    17592186044416, 17275500,
    14532272760004745069613506872952260897135190870637130291770145961567360117021636314144498028387187753477114382611327439784563326,
    lc0⟩) (.leaf ⟨1254, 16, 3264, 603, 16, 2309, ⟨[[(0, 11078755991339008), (0, 3841107470021293), (63623736489, 0),
    (1572187, 0), (89, 0)], [(6168482844368885, 0), (0, 2843627968207), (110900965, 0), (4747, 0)], [(8052024310441,
    0), (0, 2079903418), (0, 82657), (0, 6)], [(16985024661, 0), (0, 2358057), (0, 165)]], 3, 4⟩,
    ⟨[[(28883059136552960, 0), (0, 1905850063092455), (0, 18073470415), (0, 2133905), (0, 102)], [(0,
    29982627744272134), (507394408371, 0), (55768678, 0), (3556, 0)], [(10234331187998, 0), (162039384, 0), (21221,
    0), (2, 0)], [(0, 8269116854), (0, 1015238), (0, 99)]], 3, 4⟩, 72057594037927936, 3604615140900, 798115164258,
    ⟨[[(17153495578696, 0), (25718382084, 0), (22605732, 0), (0, 40023), (0, 376)], [(0, 12729470666), (0, 48620609),
    (0, 11624), (187, 0), (2, 0)], [(24558753, 0), (81016, 0), (0, 146)], [(0, 52746), (0, 56), (1, 0)]], 3, 4⟩,
    17592186044416, 15706664,
    10330286399482935661875963716723632143621912301106771053774456724725684702406496928032648546978558276476624972741510775328728244,
    lc0⟩))) (.sy (.leaf ⟨978, 16, 2478, 386, 16, 1509, ⟨[[(0, 8505628582297600), (0, 3111365651598078), (51336262993,
    0), (1247545, 0), (73, 0)], [(13667040204885976, 0), (0, 4902572896971), (141547251, 0), (5159, 0)],
    [(39313205760310, 0), (0, 7259822892), (0, 298976), (0, 23)], [(139684541900, 0), (0, 11547027), (0, 681)]], 3,
    4⟩, ⟨[[(4170450406141952, 0), (0, 1215778115601089), (0, 7689833905), (0, 1129346), (0, 55)], [(0,
    37947378245356081), (602908942928, 0), (67915765, 0), (4411, 0)], [(22951079472206, 0), (0, 62548254), (6030, 0),
    (1, 0)], [(0, 35453293939), (0, 4339585), (0, 429)]], 3, 4⟩, 72057594037927936, 53053570007970, 9024169486882,
    ⟨[[(16449692049204, 0), (36093739898, 0), (54000153, 0), (0, 76553), (0, 995)], [(0, 14076173552), (0, 86199312),
    (0, 77168), (656, 0), (5, 0)], [(32774321, 0), (200147, 0), (0, 300), (0, 1)], [(0, 89616), (0, 342), (3, 0)]],
    3, 4⟩, 17592186044416, 47585282,
    11865369189416403985272781573969067722890660977323921967425341574116959753725024591009749129905405848482563697843259515103384655,
    lc0⟩) (.leaf ⟨1017, 16, 2635, 379, 16, 1515, ⟨[[(0, 1271613374799872), (0, 3252644099242362), (56706938654, 0),
    (1488634, 0), (84, 0)], [(11954576460672869, 0), (0, 5057747340185), (159305689, 0), (6198, 0)],
    [(37845392662957, 0), (0, 8057938185), (0, 356202), (0, 26)], [(142180910256, 0), (0, 13049751), (0, 813)]], 3,
    4⟩, ⟨[[(4343631506907136, 0), (0, 1229249317858454), (0, 9513985291), (0, 1249491), (0, 60)], [(0,
    37776641968387346), (677220387438, 0), (75179174, 0), (4865, 0)], [(23012529878457, 0), (0, 55560533), (8403, 0),
    (2, 0)], [(0, 37893655579), (0, 4811592), (0, 476)]], 3, 4⟩, 72057594037927936, 58440942992086, 9564315047224,
    ⟨[[(16450496949486, 0), (36944191705, 0), (56975385, 0), (0, 63512), (0, 529)], [(0, 13938707055), (0, 88206320),
    (0, 70090), (587, 0), (0, 1)], [(33066144, 0), (203292, 0), (0, 489), (0, 1)], [(0, 91664), (0, 322), (5, 0)]],
    3, 4⟩, 17592186044416, 40851252,
    6422668969368434035993120326886432612032075730339489546047163832837971101457640576286533828920384242447886856417404586570406142,
    lc0⟩))
theorem c26 : checkR job con0 true ⟨7, 9, 7, 9, 13, 17⟩ 1 9016 t26 369 21 320 62745 251 64000 = true := by decide +kernel

def t27 : CTree :=
  .sy (.sx (.sy (.leaf ⟨811, 16, 1943, 394, 16, 1561, ⟨[[(0, 8828127242723328), (0, 2697920711118684), (41489867846,
    0), (869648, 0), (56, 0)], [(18420269619225743, 0), (0, 4538253993542), (82912801, 0), (1683, 0)],
    [(53396990695919, 0), (0, 6174638032), (0, 223005), (0, 19)], [(154105931911, 0), (0, 6137918), (0, 185)]], 3,
    4⟩, ⟨[[(9640519577374720, 0), (0, 1224584852641679), (0, 2361694759), (0, 796641), (0, 41)], [(0,
    37974458182029818), (471203051739, 0), (56118174, 0), (3747, 0)], [(20159600513985, 0), (0, 491497871), (0,
    39315), (0, 2)], [(0, 25284563324), (0, 2930073), (0, 291)]], 3, 4⟩, 72057594037927936, 47340452110093,
    9124719551154, ⟨[[(15585393399681, 0), (30264649647, 0), (46422152, 0), (0, 27422), (0, 466)], [(0, 13711651347),
    (0, 81230037), (0, 116997), (501, 0), (3, 0)], [(33497322, 0), (227759, 0), (26, 0), (0, 2)], [(0, 100818), (0,
    602), (2, 0)]], 3, 4⟩, 17592186044416, 45104758,
    13001747505161652270923541739881035059407051116547703799429404623419237199306032157051827759054070720310028584494138193746704294,
    lc0⟩) (.leaf ⟨837, 16, 2053, 387, 16, 1567, ⟨[[(5730123174985728, 0), (0, 2805920196655500), (45314126045, 0),
    (1042222, 0), (64, 0)], [(17078237234445547, 0), (0, 4705796443765), (90532536, 0), (2112, 0)], [(53082900297178,
    0), (0, 6776121156), (0, 266632), (0, 21)], [(159522798884, 0), (0, 6697556), (0, 227)]], 3, 4⟩,
    ⟨[[(5399990428360704, 0), (0, 1232298028769981), (0, 3639519885), (0, 886334), (0, 45)], [(0, 37868283115717425),
    (532511403036, 0), (62282670, 0), (4144, 0)], [(19979250999555, 0), (0, 534278063), (0, 42018), (0, 2)], [(0,
    26934641073), (0, 3250837), (0, 325)]], 3, 4⟩, 72057594037927936, 51534903585398, 9711706730849,
    ⟨[[(15589539862219, 0), (30929935281, 0), (49008930, 0), (0, 23172), (0, 323)], [(0, 13564228021), (0, 83345843),
    (0, 121755), (479, 0), (1, 0)], [(33774246, 0), (236848, 0), (0, 34), (0, 2)], [(0, 104167), (0, 622), (2, 0)]],
    3, 4⟩, 17592186044416, 43280701,
    9540524994940001032263642335245559568390769346791189886269414306642141078548720047612589549290459969201674457304372719576633663,
    lc0⟩)) (.sy (.leaf ⟨711, 16, 1678, 386, 16, 1618, ⟨[[(0, 12155023498231808), (0, 2504333952042493), (38491100349,
    0), (782744, 0), (52, 0)], [(20548276885424753, 0), (0, 4391930621947), (54972163, 0), (41, 0)],
    [(65137640194064, 0), (0, 5880280588), (0, 198707), (0, 17)], [(169674771038, 0), (0, 3379312), (64, 0)]], 3, 4⟩,
    ⟨[[(5039645742759936, 0), (0, 1249894574577962), (0, 97538541), (0, 667071), (0, 35)], [(0, 37730583870077172),
    (431129017906, 0), (53301986, 0), (3640, 0)], [(18093376067485, 0), (0, 834984354), (0, 73168), (0, 4)], [(0,
    18246314618), (0, 2116055), (0, 211)]], 3, 4⟩, 72057594037927936, 46361721767532, 9629275280169,
    ⟨[[(14810116597617, 0), (26376454888, 0), (42381457, 0), (1214, 0), (0, 149)], [(0, 13143200871), (0, 78612264),
    (0, 149406), (303, 0), (1, 0)], [(34389762, 0), (259241, 0), (269, 0), (0, 3)], [(0, 115185), (0, 873), (1, 0)]],
    3, 4⟩, 17592186044416, 53290936,
    9145804348903354802518095384287547535298048120184144978795669398525375959355355132346637972879129306152515743972311691389379102,
    lc0⟩) (.leaf ⟨731, 16, 1769, 379, 16, 1624, ⟨[[(9439732314865664, 0), (0, 2598753878084830), (41907014881, 0),
    (940759, 0), (60, 0)], [(19352934368630238, 0), (0, 4571855084274), (58131372, 0), (196, 0)], [(65503013459346,
    0), (0, 6423611097), (0, 238021), (0, 20)], [(177104849613, 0), (0, 3495834), (66, 0)]], 3, 4⟩, ⟨[[(0,
    17280968231849984), (0, 1255152164836365), (0, 1160825384), (0, 742970), (0, 38)], [(0, 37639314227783619),
    (489296634463, 0), (59282325, 0), (4032, 0)], [(17720730961524, 0), (0, 914923239), (0, 79715), (0, 4)], [(0,
    19435453214), (0, 2348192), (0, 236)]], 3, 4⟩, 72057594037927936, 50219708800429, 10286208261956,
    ⟨[[(14822088465551, 0), (26987404453, 0), (44817452, 0), (73, 0), (0, 144)], [(0, 13031487446), (0, 81158381),
    (0, 158109), (368, 0), (1, 0)], [(34881460, 0), (274946, 0), (259, 0), (0, 4)], [(0, 120831), (0, 949), (1, 0)]],
    3, 4⟩, 17592186044416, 56267721,
    6493743043384681221782397449519778320451482087229351269178860992374098477180710746192892054750148038140367614691734068794467564,
    lc0⟩))) (.sx (.leaf ⟨517, 16, 1314, 293, 16, 1227, ⟨[[(16485373361577984, 0), (0, 3502025894254711),
    (122621996078, 0), (6391730, 0), (747, 0)], [(8696250742096614, 0), (0, 5844265353867), (245578260, 0), (13687,
    0), (2, 0)], [(30606556484927, 0), (0, 9236766926), (0, 815000), (0, 125)], [(98784172428, 0), (0, 9062208), (0,
    720)]], 3, 4⟩, ⟨[[(0, 1497001079853056), (0, 1940908163399653), (0, 18166424862), (0, 6446776), (0, 627)], [(0,
    29308740638264442), (992420996155, 0), (226611070, 0), (29961, 0), (3, 0)], [(15309975665933, 0), (0, 940627677),
    (0, 144643), (0, 12)], [(0, 23158994893), (0, 5918162), (0, 1184)]], 3, 4⟩, 72057594037927936, 35513172738318,
    8703304537884, ⟨[[(15596305071593, 0), (41153745475, 0), (87600615, 0), (0, 55933), (0, 504)], [(0, 22805860363),
    (0, 191018235), (0, 347607), (2238, 0), (0, 4)], [(100246370, 0), (949821, 0), (0, 894), (0, 26)], [(0, 546870),
    (0, 4276), (33, 0)]], 3, 4⟩, 17592186044416, 456041304,
    7726775856653992105863758051382950800540854771198639422578761851044405289123597001324518188042384902428646854159691556694516213,
    lc0⟩) (.leaf ⟨464, 16, 1165, 286, 16, 1269, ⟨[[(0, 12024502078554112), (0, 3337518336827738), (116554772584, 0),
    (5974683, 0), (721, 0)], [(10499750940857690, 0), (0, 5905784897389), (155053136, 0), (2402, 0), (1, 0)],
    [(39857841104763, 0), (0, 8979225559), (0, 752914), (0, 119)], [(114925343872, 0), (0, 4478325), (161, 0)]], 3,
    4⟩, ⟨[[(0, 21267899726888960), (0, 1966373057080477), (0, 9293028252), (0, 5399614), (0, 529)], [(0,
    29095946311812078), (915460742952, 0), (215935281, 0), (29134, 0), (3, 0)], [(13271901312034, 0), (0,
    1629464887), (0, 281685), (0, 31)], [(0, 16678866129), (0, 4271448), (0, 864)]], 3, 4⟩, 72057594037927936,
    35382962162009, 9259302336748, ⟨[[(14820534947375, 0), (35912630487, 0), (81026216, 0), (0, 8606), (0, 479)],
    [(0, 21144532926), (0, 181240056), (0, 474952), (1868, 0), (6, 0)], [(96935793, 0), (1061050, 0), (1141, 0), (0,
    33)], [(0, 581149), (0, 6306), (15, 0)]], 3, 4⟩, 17592186044416, 616138601,
    6795459092203642888648305777982038024965314767378211465841132918513479800005551065862392623512617361747136328636565481757407244,
    lc0⟩))
theorem c27 : checkR job con0 true ⟨7, 9, 7, 9, 13, 17⟩ 1 9016 t27 411 21 320 31247 251 32000 = true := by decide +kernel

def t28 : CTree :=
  .sy (.sx (.sx (.sy (.leaf ⟨1173, 16, 3122, 376, 16, 1448, ⟨[[(0, 26853254447398912), (0, 3557805331211691),
    (60835658501, 0), (1572290, 0), (86, 0)], [(8601394798669620, 0), (0, 5052038055575), (233556677, 0), (10642, 0),
    (1, 0)], [(23110540803434, 0), (0, 7670820385), (0, 307460), (0, 22)], [(109368980070, 0), (0, 20131208), (0,
    1491)]], 3, 4⟩, ⟨[[(0, 35897255162605568), (0, 1215002422278321), (0, 14249322331), (0, 1521914), (0, 71)], [(0,
    37825709291055860), (698485420366, 0), (75535443, 0), (4779, 0)], [(27307770644633, 0), (642482778, 0), (77815,
    0), (6, 0)], [(0, 45807123535), (0, 5744740), (0, 559)]], 3, 4⟩, 72057594037927936, 52722263913719,
    7737985662607, ⟨[[(17432739172697, 0), (43003225098, 0), (59061540, 0), (0, 160358), (0, 2272)], [(0,
    14673833195), (0, 88653720), (0, 7059), (583, 0), (7, 0)], [(31866228, 0), (148340, 0), (0, 691), (4, 0)], [(0,
    74784), (0, 9), (4, 0)]], 3, 4⟩, 17592186044416, 81082485,
    12455295073822561806628709900294880848919613830772798252615540605917957933151588566584220476178567751746022626053610562957244915,
    lc0⟩) (.leaf ⟨1226, 16, 3333, 368, 16, 1452, ⟨[[(0, 25346819651354624), (0, 3731735491401329), (67618572731, 0),
    (1871756, 0), (100, 0)], [(6539503902746517, 0), (0, 5134237542441), (267395818, 0), (12633, 0), (1, 0)],
    [(20475685838526, 0), (0, 8537182188), (0, 365310), (0, 26)], [(105556149308, 0), (0, 23177201), (0, 1768)]], 3,
    4⟩, ⟨[[(0, 105877683245056), (0, 1233895053843073), (0, 16697245653), (0, 1674267), (0, 76)], [(0,
    37558883528940538), (780199476452, 0), (83305589, 0), (5256, 0)], [(27727074171890, 0), (727335624, 0), (87607,
    0), (7, 0)], [(0, 48971480265), (0, 6351698), (0, 617)]], 3, 4⟩, 72057594037927936, 58353943184662,
    8079037690335, ⟨[[(17411182911741, 0), (44057803786, 0), (62172555, 0), (0, 115872), (0, 806)], [(0,
    14538577374), (0, 90096142), (25496, 0), (378, 0), (0, 7)], [(32116865, 0), (143420, 0), (0, 1086), (3, 0)], [(0,
    76000), (40, 0), (7, 0)]], 3, 4⟩, 17592186044416, 59039971,
    14886821030539030802265742957958659357260404860000562312875744655961702244254011838399797699304952190836465473569123097455317271,
    lc0⟩)) (.sy (.leaf ⟨1061, 16, 2810, 372, 16, 1521, ⟨[[(0, 30749446653296640), (0, 3406702594800511),
    (63003448970, 0), (1775561, 0), (98, 0)], [(10084584384144113, 0), (0, 5217885197243), (180452308, 0), (7435,
    0)], [(35945741495321, 0), (0, 8996389065), (0, 424108), (0, 31)], [(144410601531, 0), (0, 14838244), (0, 971)]],
    3, 4⟩, ⟨[[(0, 5174939759992832), (0, 1244686776846958), (0, 11533747267), (0, 1379299), (0, 64)], [(0,
    37565288316041899), (759491537733, 0), (83186712, 0), (5361, 0)], [(23078006821679, 0), (0, 46020186), (11050,
    0), (2, 0)], [(0, 40593097824), (0, 5334417), (0, 527)]], 3, 4⟩, 72057594037927936, 64738435609984,
    10157592102591, ⟨[[(16449418360672, 0), (37842327161, 0), (59556402, 0), (0, 65692), (0, 183)], [(0,
    13803813341), (0, 90412154), (0, 54334), (732, 0), (0, 5)], [(33386378, 0), (208012, 0), (0, 725), (0, 3)], [(0,
    93645), (0, 316), (6, 0)]], 3, 4⟩, 17592186044416, 33940786,
    8181814369910101910011667252944609797983358597020002871052947930754256643516026939633369080842810550770740177412728946510398902,
    lc0⟩) (.leaf ⟨1109, 16, 3006, 365, 16, 1527, ⟨[[(28794875855437824, 0), (0, 3575165575591894), (70420980627, 0),
    (2118238, 0), (114, 0)], [(8035593185088215, 0), (0, 5381776086124), (205730435, 0), (8914, 0)],
    [(33503238659543, 0), (0, 10104809429), (0, 504995), (0, 35)], [(146243276819, 0), (0, 16976232), (0, 1161)]], 3,
    4⟩, ⟨[[(0, 25445819456016384), (0, 1262302537515777), (0, 13764784681), (0, 1519264), (0, 69)], [(0,
    37308963112182260), (850533765680, 0), (92006453, 0), (5902, 0)], [(23148884015710, 0), (0, 33634362), (13986,
    0), (2, 0)], [(0, 43579341267), (0, 5912958), (0, 583)]], 3, 4⟩, 72057594037927936, 72141381806467,
    10808279415852, ⟨[[(16471721773322, 0), (38977552801, 0), (62025756, 0), (0, 85276), (37, 0)], [(0, 13795004618),
    (0, 93799069), (0, 30116), (1093, 0), (0, 7)], [(34228986, 0), (217368, 0), (0, 1014), (0, 6)], [(0, 97167), (0,
    328), (8, 0)]], 3, 4⟩, 17592186044416, 31217066,
    8690536192864723531005383865037154694072513280311533763983746146248029119739796653299480258622096204151345494499930945941231330,
    lc0⟩))) (.sx (.leaf ⟨539, 16, 1437, 280, 16, 1231, ⟨[[(32138595081904128, 0), (0, 3689488582250680),
    (145934545800, 0), (8776315, 0), (967, 0)], [(6371555032675495, 0), (0, 6109195684667), (294683073, 0), (19855,
    0), (3, 0)], [(28158035849958, 0), (0, 11105412573), (0, 1114981), (0, 161)], [(102838195227, 0), (0, 10818942),
    (0, 1030)]], 3, 4⟩, ⟨[[(21109975827750912, 0), (0, 1970753817287616), (0, 28964086687), (0, 7824515), (0, 723)],
    [(0, 28843185608078208), (1248134196121, 0), (277144863, 0), (36239, 0), (3, 0)], [(14847978458757, 0), (0,
    1099096945), (0, 164963), (0, 14)], [(0, 26535626402), (0, 7258366), (0, 1451)]], 3, 4⟩, 72057594037927936,
    42040916287809, 9975340557814, ⟨[[(15587533237482, 0), (43528904911, 0), (99261479, 0), (0, 109081), (0, 566)],
    [(0, 23270174019), (0, 215445735), (0, 369332), (4374, 0), (0, 3)], [(112211810, 0), (1173882, 0), (0, 2130), (0,
    63)], [(0, 662704), (0, 5750), (54, 0), (1, 0)]], 3, 4⟩, 17592186044416, 573409871,
    8574236362984286295686324900874597739324698386304259206878632696033245828543808951721419812136464895813127080935267447913893444,
    lc0⟩) (.sy (.leaf ⟨809, 16, 2110, 357, 16, 1647, ⟨[[(0, 6107813869674496), (0, 2940464232311457), (56120157740,
    0), (1614727, 0), (93, 0)], [(15029630547966065, 0), (0, 5241304907486), (71830388, 0), (902, 0)],
    [(65860755879896, 0), (0, 8692659951), (0, 405853), (0, 31)], [(205134262204, 0), (0, 3951322), (65, 0)]], 3, 4⟩,
    ⟨[[(32037667853959168, 0), (0, 1282156899602167), (0, 5145208664), (0, 1012014), (0, 47)], [(0,
    37273665866644943), (708028324924, 0), (81538660, 0), (5447, 0)], [(16374988058791, 0), (0, 1203864515), (0,
    103333), (0, 6)], [(0, 23901889248), (0, 3228929), (0, 328)]], 3, 4⟩, 72057594037927936, 65950256782885,
    12743481139892, ⟨[[(14799214782897, 0), (28842740680, 0), (53891378, 0), (0, 10940), (0, 273)], [(0,
    12547163895), (0, 90381417), (0, 197054), (773, 0), (3, 0)], [(36381469, 0), (338857, 0), (299, 0), (0, 9)], [(0,
    137944), (0, 1277), (2, 0)]], 3, 4⟩, 17592186044416, 66337304,
    6854710039032524033595375763837048400605148726355348584929652517812968215254996128319178987892190496599231171574015236455720284,
    lc0⟩) (.leaf ⟨842, 16, 2254, 350, 16, 1656, ⟨[[(32453323130093568, 0), (0, 3079595281715922), (62701843530, 0),
    (1932267, 0), (108, 0)], [(13264116324990828, 0), (0, 5521167075009), (78395280, 0), (1249, 0)],
    [(65580506243536, 0), (0, 9746663231), (0, 485033), (0, 36)], [(217031835913, 0), (0, 4155257), (61, 0)]], 3, 4⟩,
    ⟨[[(28591835930337280, 0), (0, 1295151059140826), (0, 6779483336), (0, 1116528), (0, 51)], [(0,
    37098604994757888), (798481628972, 0), (90628325, 0), (6010, 0)], [(15829913337511, 0), (0, 1319152915), (0,
    112781), (0, 6)], [(0, 25748190514), (0, 3594753), (0, 365)]], 3, 4⟩, 72057594037927936, 73125807031548,
    13753466070685, ⟨[[(14806895429332, 0), (29677892086, 0), (58121210, 0), (0, 17971), (0, 384)], [(0,
    12479667965), (0, 95297082), (0, 218632), (987, 0), (5, 0)], [(37480586, 0), (371534, 0), (360, 0), (0, 11)],
    [(0, 145642), (0, 1434), (2, 0)]], 3, 4⟩, 17592186044416, 69962790,
    8096667506888700685113757584471045129699980996254407571808335523922458754973633833781339330960059397100788816804529717480661766,
    lc0⟩)))) (.sx (.sx (.sy (.leaf ⟨1284, 16, 3567, 360, 16, 1456, ⟨[[(9449286470795264, 0), (0, 3919504283902994),
    (75549607313, 0), (2228044, 0), (117, 0)], [(4314156722649125, 0), (0, 5196797386614), (307627741, 0), (14998,
    0), (1, 0)], [(17224625672748, 0), (0, 9550272555), (0, 433723), (0, 29)], [(100021360539, 0), (0, 26806056), (0,
    2098)]], 3, 4⟩, ⟨[[(23846320960421888, 0), (0, 1255413160161419), (0, 19390290194), (0, 1838310), (0, 82)], [(0,
    37247878931012011), (870327265490, 0), (91847734, 0), (5776, 0)], [(28192585491402, 0), (822727015, 0), (98336,
    0), (7, 0)], [(0, 52464811116), (0, 7021309), (0, 681)]], 3, 4⟩, 72057594037927936, 64923938844528,
    8443381068064, ⟨[[(17402942670992, 0), (45274672100, 0), (63499219, 0), (0, 119884), (261, 0)], [(0,
    14491700293), (0, 92336004), (80239, 0), (701, 0), (0, 16)], [(32707983, 0), (143170, 0), (0, 1570), (0, 1)],
    [(0, 78196), (60, 0), (9, 0)]], 3, 4⟩, 17592186044416, 39761232,
    13239776477484567964578743837625338334657283270338034780968477281808741192815352669110537672001859980939550552673834735860350266,
    lc0⟩) (.leaf ⟨1349, 16, 3829, 353, 16, 1461, ⟨[[(30871916175736832, 0), (0, 4124099987062545), (84895581627, 0),
    (2654152, 0), (136, 0)], [(1915932716805248, 0), (0, 5234367003732), (355748016, 0), (17821, 0), (1, 0)],
    [(13222005981805, 0), (0, 10743732737), (0, 515090), (0, 34)], [(92335525529, 0), (0, 31155951), (0, 2494)]], 3,
    4⟩, ⟨[[(0, 20109932299841536), (0, 1280696053911132), (0, 22362482147), (0, 2016030), (0, 88)], [(0,
    36913410263951177), (970365613222, 0), (101301112, 0), (6347, 0)], [(28729637187565, 0), (930297458, 0), (110146,
    0), (8, 0)], [(0, 56359497540), (0, 7764763), (0, 751)]], 3, 4⟩, 72057594037927936, 72649782973001,
    8845729984819, ⟨[[(17435668776743, 0), (46725976305, 0), (63296930, 0), (0, 167839), (910, 0)], [(0,
    14565120334), (0, 95411361), (149063, 0), (1422, 0), (0, 21)], [(33561021, 0), (146827, 0), (0, 2069), (0, 6)],
    [(0, 80583), (59, 0), (11, 0)]], 3, 4⟩, 17592186044416, 31449230,
    12244223827588627372403569447099105647211687347002929638169424485949881605570642977150435580009676771523785547812931954426349070,
    lc0⟩)) (.sy (.leaf ⟨1165, 16, 3229, 357, 16, 1534, ⟨[[(15448324317675520, 0), (0, 3762658084446788),
    (79261648636, 0), (2530948, 0), (133, 0)], [(5786576776562320, 0), (0, 5551630690124), (236245353, 0), (10696,
    0), (1, 0)], [(30398130778788, 0), (0, 11428645307), (0, 602191), (0, 41)], [(147612105641, 0), (0, 19558237),
    (0, 1390)]], 3, 4⟩, ⟨[[(31203180807753728, 0), (0, 1283162026620169), (0, 16234147080), (0, 1670973), (0, 75)],
    [(0, 37027007992550747), (951853096896, 0), (101778542, 0), (6496, 0)], [(23241842227181, 0), (0, 18108393),
    (17232, 0), (2, 0)], [(0, 46913358316), (0, 6556826), (0, 644)]], 3, 4⟩, 72057594037927936, 80934265267506,
    11533487224044, ⟨[[(16438249417885, 0), (39995226591, 0), (64902861, 0), (0, 121341), (68, 0)], [(0,
    13635417878), (0, 97523344), (0, 10765), (1672, 0), (0, 7)], [(34596916, 0), (232948, 0), (0, 1238), (0, 10)],
    [(0, 99031), (0, 385), (9, 0)]], 3, 4⟩, 17592186044416, 35571954,
    8466546471184279858434663303199645202455602605710157441922568458363516185190341613459229827548999469438581652695079510346945474,
    lc0⟩) (.leaf ⟨1229, 16, 3483, 350, 16, 1541, ⟨[[(0, 7101075766460416), (0, 3970660362945238), (89830441677, 0),
    (3029619, 0), (155, 0)], [(3301335548439774, 0), (0, 5723439542448), (273177784, 0), (12848, 0), (1, 0)],
    [(26431392687723, 0), (0, 13014396315), (0, 719405), (0, 48)], [(148241174679, 0), (0, 22686309), (0, 1669)]], 3,
    4⟩, ⟨[[(1722259450933248, 0), (0, 1306698425101004), (0, 18951966081), (0, 1834050), (0, 80)], [(0,
    36689349903193167), (1063934745990, 0), (112529940, 0), (7144, 0)], [(23343417264160, 0), (913738, 0), (20795,
    0), (2, 0)], [(0, 50602376623), (0, 7268450), (0, 712)]], 3, 4⟩, 72057594037927936, 91433694748688,
    12327586685011, ⟨[[(16450627685853, 0), (41323609695, 0), (68082710, 0), (0, 173364), (0, 74)], [(0,
    13602143872), (0, 102365224), (8667, 0), (2372, 0), (0, 5)], [(35203431, 0), (251382, 0), (0, 1430), (0, 15)],
    [(0, 100614), (0, 447), (9, 0)]], 3, 4⟩, 17592186044416, 38975607,
    5495736583545241833125087630170276449671581994006441347810207967804924535215215948891127673871196672275277895315951777038435500,
    lc0⟩))) (.sx (.sy (.leaf ⟨1028, 16, 2838, 352, 16, 1604, ⟨[[(0, 8217268346830848), (0, 3530865705781813),
    (77371021618, 0), (2549429, 0), (135, 0)], [(8125585139126804, 0), (0, 5804640878596), (157727751, 0), (5949,
    0)], [(47023334847627, 0), (0, 11866015383), (0, 646322), (0, 45)], [(194747472557, 0), (0, 11528335), (0,
    616)]], 3, 4⟩, ⟨[[(0, 19888212291497984), (0, 1300431936162846), (0, 12521197111), (0, 1460908), (0, 65)], [(0,
    36916723800554338), (959643673604, 0), (104576585, 0), (6772, 0)], [(18776312419444, 0), (0, 801107067), (0,
    59319), (0, 3)], [(0, 38418498574), (0, 5495539), (0, 547)]], 3, 4⟩, 72057594037927936, 86097985569530,
    13759233867087, ⟨[[(15598393646687, 0), (35165565662, 0), (65333319, 0), (0, 83290), (0, 406)], [(0,
    12972949575), (0, 100550256), (0, 131453), (1720, 0), (2, 0)], [(36565501, 0), (321325, 0), (0, 501), (0, 14)],
    [(0, 123013), (0, 918), (6, 0)]], 3, 4⟩, 17592186044416, 47976687,
    3813251834310502115564154952384922072087239134425732873664067460790522245540394994549346911943147156596975014318347721221708561,
    lc0⟩) (.leaf ⟨1085, 16, 3068, 345, 16, 1614, ⟨[[(0, 7596774393085952), (0, 3730882531644846), (88019213339, 0),
    (3061997, 0), (159, 0)], [(5677832289329864, 0), (0, 6098805122154), (180817161, 0), (7267, 0)],
    [(44212378365757, 0), (0, 13567087010), (0, 775296), (0, 53)], [(204099185243, 0), (0, 13174312), (0, 753)]], 3,
    4⟩, ⟨[[(0, 17729664861212672), (0, 1322333993909028), (0, 14914096467), (0, 1605558), (0, 70)], [(0,
    36634733434142281), (1076587123305, 0), (115970445, 0), (7460, 0)], [(18473324495743, 0), (0, 868091124), (0,
    63859), (0, 3)], [(0, 41577327933), (0, 6110263), (0, 606)]], 3, 4⟩, 72057594037927936, 97472418085830,
    14858330070033, ⟨[[(15597965421879, 0), (36313670039, 0), (70662859, 0), (0, 111418), (0, 664)], [(0,
    12884207576), (0, 106281889), (0, 147245), (2175, 0), (6, 0)], [(37162470, 0), (349695, 0), (0, 482), (0, 17)],
    [(0, 124871), (0, 1022), (6, 0)]], 3, 4⟩, 17592186044416, 48971133,
    4336491700120615813750871137610775381881713109145007085283045776227722133657782926891032862937563580850387898469726448437145541,
    lc0⟩)) (.sy (.leaf ⟨881, 16, 2419, 343, 16, 1666, ⟨[[(24105019479138304, 0), (0, 3235843059003581), (70594456734,
    0), (2315608, 0), (126, 0)], [(11281956181194048, 0), (0, 5839768306284), (86399345, 0), (1673, 0)],
    [(64994087576922, 0), (0, 11012553609), (0, 580722), (0, 42)], [(230696429686, 0), (0, 4398155), (56, 0)]], 3,
    4⟩, ⟨[[(29507170003562496, 0), (0, 1310695240803585), (0, 8591095819), (0, 1229309), (0, 54)], [(0,
    36895612643470293), (899558266926, 0), (100713004, 0), (6627, 0)], [(15229897763847, 0), (0, 1445852034), (0,
    123198), (0, 7)], [(0, 27814786348), (0, 4004017), (0, 406)]], 3, 4⟩, 72057594037927936, 81677291653988,
    14884605650677, ⟨[[(14804797919753, 0), (30534997500, 0), (63054427, 0), (0, 24947), (0, 536)], [(0,
    12369000294), (0, 100544756), (0, 247433), (1205, 0), (7, 0)], [(38324594, 0), (405883, 0), (480, 0), (0, 13)],
    [(0, 151046), (0, 1591), (2, 0)]], 3, 4⟩, 17592186044416, 70587482,
    8703415249261520837204216876853481643525905273689456665275486823449803243360519678364189094718377442198615949458454501165853671,
    lc0⟩) (.leaf ⟨927, 16, 2611, 336, 16, 1677, ⟨[[(16301317091262464, 0), (0, 3414215208098504), (80172378592, 0),
    (2783009, 0), (147, 0)], [(9036918438994642, 0), (0, 6208188956380), (96265736, 0), (2195, 0)], [(64021907161519,
    0), (0, 12550964483), (0, 697546), (0, 49)], [(246638203614, 0), (0, 4693098), (47, 0)]], 3, 4⟩,
    ⟨[[(32641717506519040, 0), (0, 1328995358825786), (0, 10595909185), (0, 1350792), (0, 58)], [(0,
    36658250159116446), (1012480852906, 0), (111894587, 0), (7304, 0)], [(14567715544480, 0), (0, 1585193815), (0,
    134701), (0, 7)], [(0, 30128131351), (0, 4461504), (0, 451)]], 3, 4⟩, 72057594037927936, 91998604691890,
    16142463143466, ⟨[[(14801912460017, 0), (31495744705, 0), (69091767, 0), (0, 31295), (0, 735)], [(0,
    12255114664), (0, 106589738), (0, 286082), (1416, 0), (10, 0)], [(39061138, 0), (443165, 0), (665, 0), (0, 15)],
    [(0, 154612), (0, 1748), (1, 0)]], 3, 4⟩, 17592186044416, 70600212,
    6981926588294999114963557784954466574139661475805992623338875966394119422606351083999154079694653638441571811564580153083114456,
    lc0⟩))))
theorem c28 : checkR job con0 true ⟨7, 9, 7, 9, 13, 17⟩ 1 9016 t28 195 21 160 31749 251 32000 = true := by decide +kernel

def t29 : CTree :=
  .sy (.sy (.out ⟨178, 16, 284, 845, 16, 747, ⟨[[(0, 16365420311152640), (0, 1249743991594652), (26358554661, 0)],
    [(33544386925967202, 0), (0, 4435344895202), (101084971, 0)], [(114601792593729, 0), (0, 7488801597), (0,
    12927)]], 2, 2⟩, ⟨[[(0, 15221370066092032), (0, 1345104682677794), (16773740799, 0)], [(0, 35069999116423034),
    (0, 188045482798), (35050768, 0)], [(41758232156225, 0), (0, 950956094), (0, 5720)]], 2, 2⟩, 72057594037927936,
    3419507144092454, 88497522734581, ⟨[], 0, 0⟩, 0, 0, 0, lc0⟩ 2 1 77742876740823) (.out ⟨178, 16, 299, 838, 16,
    749, ⟨[[(6664823307833344, 0), (0, 1288094280042839), (27344895959, 0)], [(32998702652787157, 0), (0,
    4563224147612), (105340364, 0)], [(116695107834793, 0), (0, 7887716585), (5689, 0)]], 2, 2⟩, ⟨[[(0,
    20686443929288704), (0, 1332040962598681), (16386144332, 0)], [(0, 35249745982611450), (0, 153567523428),
    (34673195, 0)], [(41387827368672, 0), (0, 972000487), (0, 31786)]], 2, 2⟩, 72057594037927936, 3571218743295393,
    105991634727810, ⟨[], 0, 0⟩, 0, 0, 0, lc0⟩ 2 1 59423936991036)) (.sx (.sy (.out ⟨287, 16, 520, 1274, 16, 1145,
    ⟨[[(0, 15394086953099264), (0, 2112839631455025), (44995663333, 0)], [(24769781377377054, 0), (0, 3735579351430),
    (89420007, 0)], [(44170692070542, 0), (0, 3300733714), (13980, 0)]], 2, 2⟩, ⟨[[(34576950691807232, 0), (0,
    2009718165257227), (23865139806, 0)], [(0, 27654442331786630), (0, 75226584224), (27876519, 0)],
    [(15768514072215, 0), (0, 345215101), (0, 25358)]], 2, 2⟩, 72057594037927936, 712138484689510, 40099942955836,
    ⟨[], 0, 0⟩, 0, 0, 0, lc0⟩ 2 1 56162938411208) (.out ⟨286, 16, 546, 1267, 16, 1151, ⟨[[(0, 11903362336223232), (0,
    2171353625656024), (46650700919, 0)], [(24062701698569643, 0), (0, 3829347164758), (91288805, 0)],
    [(44643090327071, 0), (0, 3451302063), (13511, 0)]], 2, 2⟩, ⟨[[(12044382526652416, 0), (0, 1996478559910083),
    (23356618829, 0)], [(0, 27830128076822912), (0, 46675799255), (29816825, 0)], [(15669458389270, 0), (0,
    378998257), (0, 38498)]], 2, 2⟩, 72057594037927936, 737032105606247, 44500222625694, ⟨[], 0, 0⟩, 0, 0, 0, lc0⟩ 2
    1 38418098834453)) (.sy (.sx (.out ⟨375, 16, 653, 1752, 16, 1589, ⟨[[(0, 33113831839481856), (0,
    2805197165663249), (60054937774, 0)], [(17443585579939870, 0), (0, 2479736753363), (56510403, 0)],
    [(16189252342242, 0), (0, 1092418522), (1193, 0)]], 2, 2⟩, ⟨[[(15241004557615104, 0), (0, 2792827089813203),
    (34304117779, 0)], [(0, 18504366259600640), (0, 68736883318), (18287854, 0)], [(5409242401724, 0), (0,
    142213275), (0, 7812)]], 2, 2⟩, 72057594037927936, 130704345497361, 10571996998505, ⟨[], 0, 0⟩, 0, 0, 0, lc0⟩ 2 1
    31296290920760) (.sy (.out ⟨543, 16, 909, 2605, 16, 2370, ⟨[[(12621210532241408, 0), (0, 2037238748639802),
    (21804287780, 0)], [(26723257182611429, 0), (0, 1800625486058), (19747368, 0)], [(25077206469320, 0), (0,
    781228666), (0, 857)]], 2, 2⟩, ⟨[[(0, 13270746977599488), (0, 2091684134379027), (13149114634, 0)], [(0,
    26906390110780757), (0, 63903614916), (6599417, 0)], [(8095795873790, 0), (0, 114850794), (0, 2106)]], 2, 2⟩,
    72057594037927936, 182060798517478, 4120853848455, ⟨[], 0, 0⟩, 0, 0, 0, lc0⟩ 2 1 19665798747788) (.leaf ⟨673, 16,
    948, 799, 16, 2545, ⟨[[(7305052370829312, 0), (0, 2101896303037395), (22577007815, 0), (0, 106782), (2, 0)],
    [(26932278362709157, 0), (0, 1857297085504), (20398139, 0), (0, 149)], [(25743941253950, 0), (0, 815390616), (0,
    406)], [(20016348680, 0), (0, 162369), (0, 9)]], 3, 4⟩, ⟨[[(0, 8237270724722688), (0, 2125751484631604),
    (13292563270, 0), (0, 101444), (1, 0)], [(0, 27548393245603462), (0, 58584994237), (6744305, 0), (14, 0)],
    [(8220031255596, 0), (0, 120031124), (0, 2982), (0, 1)], [(166261033, 0), (0, 75441), (4, 0)]], 3, 4⟩,
    72057594037927936, 1552092953872, 461165645965, ⟨[[(13321978816674, 0), (9314316262, 0), (4932861, 0), (0, 8007),
    (0, 67)], [(0, 9446798322), (0, 20320764), (0, 9772), (97, 0), (1, 0)], [(16535524, 0), (44997, 0), (0, 15), (0,
    1)], [(0, 32805), (0, 87)]], 3, 4⟩, 17592186044416, 10417570,
    10989345276871794075019518613233330370212384987737725286352741250954274838456166615822474766328997217865924324569228015362657652,
    lc0⟩))) (.sx (.sy (.out ⟨557, 16, 1010, 2573, 16, 2353, ⟨[[(0, 13233565247266816), (0, 2134618903325392),
    (22984014444, 0)], [(25548401719095244, 0), (0, 1885109180226), (21429821, 0)], [(24404221618533, 0), (0,
    843843760), (803, 0)]], 2, 2⟩, ⟨[[(12625380438507520, 0), (0, 2048861920624531), (12473430107, 0)], [(0,
    27435827927755102), (0, 40594133969), (6929241, 0)], [(7928874145221, 0), (0, 110595479), (0, 4171)]], 2, 2⟩,
    72057594037927936, 187530788708141, 4660702284912, ⟨[], 0, 0⟩, 0, 0, 0, lc0⟩ 2 1 17923568918045) (.leaf ⟨701, 16,
    1055, 780, 16, 2526, ⟨[[(15496635796381696, 0), (0, 2205699773305465), (23854157697, 0), (0, 98410), (4, 0)],
    [(25703821126925041, 0), (0, 1946800068866), (22027576, 0), (0, 254)], [(25049276825875, 0), (0, 880541970),
    (932, 0)], [(20607962260, 0), (0, 230535), (0, 4)]], 3, 4⟩, ⟨[[(0, 9293353217302528), (0, 2082036503970502),
    (12597359793, 0), (0, 104548), (0, 2)], [(0, 28069508083899624), (0, 34301305424), (7274345, 0), (150, 0)],
    [(8048588590020, 0), (0, 117828741), (0, 5221), (0, 1)], [(0, 302607626), (0, 76971), (3, 0)]], 3, 4⟩,
    72057594037927936, 1705713058290, 473581559760, ⟨[[(13628609751123, 0), (10211784889, 0), (5825844, 0), (0,
    9119), (0, 80)], [(0, 9664221802), (0, 22147830), (0, 11149), (113, 0), (1, 0)], [(16839691, 0), (47622, 0), (0,
    25), (0, 1)], [(0, 32915), (0, 85)]], 3, 4⟩, 17592186044416, 9811511,
    10075450218135660391270212376864451917887209581835573693478931433995556189858002979477281465336530525641571862178758820145330377,
    lc0⟩)) (.leaf ⟨451, 16, 657, 528, 16, 1729, ⟨[[(27748636710375424, 0), (0, 2866507555680484), (61935711396, 0),
    (0, 558088), (28, 0)], [(17703814672807098, 0), (0, 2532168367547), (55445750, 0), (0, 1125)], [(17415930669105,
    0), (0, 1130430907), (388, 0), (1, 0)], [(13784234307, 0), (0, 240756), (0, 17)]], 3, 4⟩, ⟨[[(0,
    20241919829319680), (0, 2861381387450402), (35506970045, 0), (0, 542147), (0, 2)], [(0, 18742952247048344), (0,
    65725682299), (18588627, 0), (396, 0)], [(5521730299165, 0), (0, 170566288), (0, 11824), (0, 3)], [(75858826, 0),
    (0, 94507), (11, 0)]], 3, 4⟩, 72057594037927936, 1131925127686, 351479338013, ⟨[[(13329671078753, 0),
    (14062136474, 0), (12185615, 0), (0, 15358), (0, 229)], [(0, 14067907501), (0, 46566359), (0, 46914), (316, 0),
    (4, 0)], [(37078845, 0), (158216, 0), (37, 0), (0, 3)], [(0, 111267), (0, 480), (1, 0)]], 3, 4⟩, 17592186044416,
    67167362,
    5451253728216531536690303204890519251105041044481193914168623400003749756207538216062026630339961244131160853651064032181047704,
    lc0⟩))))
theorem c29 : checkR job con0 true ⟨7, 9, 7, 9, 13, 17⟩ 1 9016 t29 453 21 320 14243 251 16000 = true := by decide +kernel

def t30 : CTree :=
  .sy (.sx (.sy (.sx (.out ⟨368, 16, 547, 1772, 16, 1590, ⟨[[(16307663852511232, 0), (0, 2641456843190705),
    (55824961170, 0)], [(19421765432247610, 0), (0, 2330175171302), (47252365, 0)], [(17435886237174, 0), (0,
    943625758), (0, 12895)]], 2, 2⟩, ⟨[[(0, 14290626864496640), (0, 2875120549829627), (37661822525, 0)], [(0,
    17492909768698353), (0, 130731727436), (18748199, 0)], [(5609135593099, 0), (0, 164892590), (1845, 0)]], 2, 2⟩,
    72057594037927936, 125034478997779, 16528553857301, ⟨[], 0, 0⟩, 0, 0, 0, lc0⟩ 2 1 35100457223813) (.sy (.out
    ⟨521, 16, 741, 2675, 16, 2407, ⟨[[(17093876447092736, 0), (0, 1866397259157540), (19628540505, 0)],
    [(28795503392089082, 0), (0, 1639907429520), (15461793, 0)], [(25964645757196, 0), (0, 637966912), (0, 7001)]],
    2, 2⟩, ⟨[[(0, 28813710650114048), (0, 2187945948728596), (14659242817, 0)], [(0, 25735577013145323), (0,
    113531157603), (7304102, 0)], [(8640942066645, 0), (0, 136368531), (1433, 0)]], 2, 2⟩, 72057594037927936,
    168276999280646, 13428019658589, ⟨[], 0, 0⟩, 0, 0, 0, lc0⟩ 2 1 22894611247903) (.sx (.out ⟨730, 16, 1073, 3556,
    16, 3214, ⟨[[(14288236467077120, 0), (0, 2649580142423799), (28010284658, 0)], [(19869724736199381, 0), (0,
    1166229214637), (11398708, 0)], [(9081078586233, 0), (0, 233216116), (0, 1969)]], 2, 2⟩, ⟨[[(5019996341075968,
    0), (0, 2900521504517816), (19196583041, 0)], [(0, 17338796764295031), (0, 69111238500), (4694189, 0)],
    [(2850858545251, 0), (0, 44249037), (260, 0)]], 2, 2⟩, 72057594037927936, 31635972131764, 4448088724287, ⟨[], 0,
    0⟩, 0, 0, 0, lc0⟩ 2 1 17494076742564) (.leaf ⟨874, 16, 1066, 1119, 16, 3455, ⟨[[(0, 27912778110468096), (0,
    2681365802470147), (28299495567, 0), (0, 116527), (0, 3)], [(20514818500210959, 0), (0, 1178089025805),
    (11143587, 0), (74, 0)], [(9425736895026, 0), (0, 231735207), (0, 2354)], [(3250316190, 0), (1950, 0), (0, 3)]],
    3, 4⟩, ⟨[[(0, 27003642076594176), (0, 2972591277568881), (19855728848, 0), (0, 185217), (7, 0)], [(0,
    17505246675336110), (0, 74636633850), (4831952, 0), (0, 116)], [(2942023027279, 0), (0, 47096895), (355, 0)],
    [(201266897, 0), (0, 14156), (1, 0)]], 3, 4⟩, 72057594037927936, 109640706155, 40965419420, ⟨[[(12680566997431,
    0), (5739138796, 0), (1966104, 0), (0, 2340), (0, 14)], [(0, 6379989393), (0, 8943436), (0, 2712), (21, 0)],
    [(7952409, 0), (14543, 0), (0, 2)], [(0, 11596), (0, 23)]], 3, 4⟩, 17592186044416, 2375443,
    7097013057107316920842314410549509126154674035744552452624044376768762434338274339249046155453822576800409418522245087936487610,
    lc0⟩)))) (.sx (.sy (.out ⟨531, 16, 820, 2639, 16, 2388, ⟨[[(34386517990653952, 0), (0, 1948536736025894),
    (20708617904, 0)], [(27809792224672500, 0), (0, 1719823049037), (17786221, 0)], [(25602817960739, 0), (0,
    713562937), (0, 3529)]], 2, 2⟩, ⟨[[(0, 29254759935639552), (0, 2137971902009846), (13859752805, 0)], [(0,
    26342358627108370), (0, 87791221342), (6756964, 0)], [(8331275270768, 0), (0, 123442636), (0, 206)]], 2, 2⟩,
    72057594037927936, 175729783292436, 8660893738764, ⟨[], 0, 0⟩, 0, 0, 0, lc0⟩ 2 1 21396073869768) (.leaf ⟨649, 16,
    854, 819, 16, 2564, ⟨[[(0, 17027949424263168), (0, 2007752243606043), (21415385384, 0), (0, 101510)],
    [(28068400255725800, 0), (0, 1772539193558), (18505802, 0), (0, 31)], [(26290480384670, 0), (0, 746427907), (0,
    2869), (1, 0)], [(19333508822, 0), (0, 86447), (0, 14)]], 3, 4⟩, ⟨[[(0, 3882871293075456), (0, 2172092902206613),
    (13996243559, 0), (0, 113505), (3, 0)], [(0, 26980327958991838), (0, 82915914287), (6755660, 0), (0, 90)],
    [(8455862393467, 0), (0, 126779055), (0, 895)], [(633479329, 0), (0, 78993), (4, 0)]], 3, 4⟩, 72057594037927936,
    1393302601284, 456121988068, ⟨[[(13026341461726, 0), (8500503273, 0), (4148652, 0), (0, 7195), (0, 57)], [(0,
    9221845641), (0, 18546115), (0, 7901), (86, 0), (1, 0)], [(16148119, 0), (41729, 0), (0, 12), (0, 1)], [(0,
    32474), (0, 86)]], 3, 4⟩, 17592186044416, 11102498,
    12034205907250138700301419981599230634230668955735540618388749929776676506781815500693043715342986906971512067378715794926429609,
    lc0⟩)) (.leaf ⟨432, 16, 548, 547, 16, 1729, ⟨[[(0, 7474694737637376), (0, 2688251781296759), (57142538026, 0),
    (0, 515228), (0, 16)], [(19791582604517797, 0), (0, 2367490522212), (46628361, 0), (200, 0)], [(18602640747277,
    0), (0, 964958997), (0, 13527), (3, 0)], [(13174954540, 0), (0, 39259), (0, 45)]], 3, 4⟩, ⟨[[(0,
    7175990349430784), (0, 2944148874680866), (38758677080, 0), (0, 658943), (45, 0)], [(0, 17695944637063445), (0,
    131316975948), (18357149, 0), (0, 753)], [(5795389618163, 0), (0, 183996949), (41, 0), (0, 2)], [(699954275, 0),
    (0, 105109), (13, 0)]], 3, 4⟩, 72057594037927936, 940195881442, 322402003980, ⟨[[(12748966282304, 0),
    (11880826491, 0), (8938172, 0), (0, 13476), (0, 177)], [(0, 13032946875), (0, 38198284), (0, 32561), (257, 0),
    (3, 0)], [(33320804, 0), (129280, 0), (41, 0), (0, 2)], [(0, 99277), (0, 420), (1, 0)]], 3, 4⟩, 17592186044416,
    68351128,
    6862415273353010207317907449585943064541168784156199888383139440070738757340269531205160504685670630202587886970594646385433024,
    lc0⟩))) (.sy (.sx (.leaf ⟨425, 16, 502, 557, 16, 1729, ⟨[[(0, 26588224561618944), (0, 2609908905983379),
    (54764601864, 0), (0, 401754), (0, 32)], [(20763203020726565, 0), (0, 2284221388302), (40383988, 0), (921, 0)],
    [(19044903282949, 0), (0, 863162534), (0, 24375), (4, 0)], [(12743704427, 0), (84342, 0), (0, 59)]], 3, 4⟩,
    ⟨[[(30249319489372160, 0), (0, 2990236136893129), (40654682262, 0), (0, 800874), (57, 0)], [(0,
    17126245937079778), (0, 166576337542), (19959409, 0), (0, 1082)], [(5999517933647, 0), (0, 200248967), (4599, 0),
    (0, 2)], [(1013801196, 0), (0, 114521), (11, 0)]], 3, 4⟩, 72057594037927936, 834349247842, 313568680580,
    ⟨[[(12472276469471, 0), (10936352490, 0), (7659642, 0), (0, 12539), (0, 156)], [(0, 12539218965), (0, 34510431),
    (0, 25675), (241, 0), (3, 0)], [(31399878, 0), (114728, 0), (23, 0), (0, 2)], [(0, 92982), (0, 377)]], 3, 4⟩,
    17592186044416, 70626737,
    7495630320008645001074779484950266832469216707705315340409131340501270121796625628379073177460475406488511697604020876450564131,
    lc0⟩) (.leaf ⟨415, 16, 476, 552, 16, 1743, ⟨[[(0, 31112922783014912), (0, 2567139173119364), (53491404450, 0),
    (0, 336487), (0, 40)], [(21269800750480926, 0), (0, 2234104704075), (36040084, 0), (1254, 0)], [(19621088878105,
    0), (0, 803415150), (0, 30714), (5, 0)], [(12719168143, 0), (160458, 0), (0, 65)]], 3, 4⟩, ⟨[[(1393477693612032,
    0), (0, 3021866054356816), (41837959070, 0), (0, 856144), (59, 0)], [(0, 16751011168885208), (0, 185490500477),
    (20569612, 0), (0, 1230)], [(6193311491166, 0), (0, 216325525), (6044, 0), (0, 2)], [(1283161278, 0), (0,
    114157), (11, 0)]], 3, 4⟩, 72057594037927936, 793516224015, 317125691728, ⟨[[(12219733122007, 0), (10292807528,
    0), (7435130, 0), (0, 5625), (0, 87)], [(0, 12116374720), (0, 32704603), (0, 30447), (129, 0), (1, 0)],
    [(30218600, 0), (110688, 0), (84, 0), (0, 1)], [(0, 90156), (0, 380)]], 3, 4⟩, 17592186044416, 72687701,
    5129937781235906142767826914409085092475908629990677161919082132186591652238392972441230244441336508956631103135533293898946788,
    lc0⟩)) (.sx (.leaf ⟨421, 16, 520, 541, 16, 1743, ⟨[[(15866075114217472, 0), (0, 2646866614277202), (56055204913,
    0), (0, 474661), (0, 24)], [(20330553385112899, 0), (0, 2323519659762), (42926266, 0), (499, 0)],
    [(19273140942955, 0), (0, 916146814), (0, 18768), (4, 0)], [(13229962681, 0), (30958, 0), (0, 52)]], 3, 4⟩,
    ⟨[[(5380582187089920, 0), (0, 2973883096147704), (39850784147, 0), (0, 700179), (49, 0)], [(0,
    17344281891544299), (0, 148516208277), (18577880, 0), (0, 948)], [(5947692003444, 0), (0, 198642094), (1692, 0),
    (0, 2)], [(967058671, 0), (0, 103099), (13, 0)]], 3, 4⟩, 72057594037927936, 905960058929, 320103242209,
    ⟨[[(12483718079355, 0), (11181423357, 0), (8674875, 0), (0, 5595), (0, 97)], [(0, 12574406459), (0, 36210941),
    (0, 37832), (130, 0), (2, 0)], [(32085470, 0), (125355, 0), (114, 0), (0, 1)], [(0, 96627), (0, 431)]], 3, 4⟩,
    17592186044416, 70367004,
    5117786901354981105808377418686954224900730005378670588482470904469947175292556528236255079242640150229893231718648141342386365,
    lc0⟩) (.leaf ⟨411, 16, 493, 535, 16, 1757, ⟨[[(3188632129339392, 0), (0, 2603482604635138), (54818758477, 0), (0,
    422938), (0, 33)], [(20877417592749797, 0), (0, 2275554721899), (38927889, 0), (827, 0)], [(19896732848631, 0),
    (0, 860335963), (0, 24535), (5, 0)], [(13240612013, 0), (103037, 0), (0, 58)]], 3, 4⟩, ⟨[[(27229287587291136, 0),
    (0, 3004418374320771), (40961430140, 0), (0, 749679), (53, 0)], [(0, 16974350241588413), (0, 167075886528),
    (18942876, 0), (0, 1130)], [(6134914607487, 0), (0, 213226787), (3439, 0), (0, 2)], [(1238748854, 0), (0,
    102482), (14, 0)]], 3, 4⟩, 72057594037927936, 870978795488, 320929279488, ⟨[[(12221832644687, 0), (10493263505,
    0), (8171701, 0), (0, 1456), (0, 51)], [(0, 12105748626), (0, 34028917), (0, 38852), (59, 0), (1, 0)],
    [(30708624, 0), (119033, 0), (146, 0), (0, 1)], [(0, 93004), (0, 423)]], 3, 4⟩, 17592186044416, 74153965,
    4033528557695061387612877916286851350169456921066978306497599996831468138839481734624832781553039680992814320473037769155282163,
    lc0⟩)))) (.sx (.sy (.sx (.leaf ⟨441, 16, 600, 537, 16, 1729, ⟨[[(13195229682860032, 0), (0, 2776122487130190),
    (59537210149, 0), (0, 571965), (4, 0)], [(18789802320085586, 0), (0, 2451645118397), (51631027, 0), (0, 492)],
    [(18075176831078, 0), (0, 1053766829), (0, 5099), (2, 0)], [(13532448871, 0), (0, 147573), (0, 31)]], 3, 4⟩,
    ⟨[[(947905356095488, 0), (0, 2901270444260658), (37089214667, 0), (0, 565362), (25, 0)], [(0, 18233375606302555),
    (0, 98282907710), (17791691, 0), (0, 267)], [(5637241669540, 0), (0, 173940454), (0, 5504), (0, 3)], [(388768665,
    0), (0, 97383), (13, 0)]], 3, 4⟩, 72057594037927936, 1040035117092, 332455942531, ⟨[[(13030779434835, 0),
    (12914573144, 0), (10461673, 0), (0, 14079), (0, 199)], [(0, 13519420227), (0, 42174412), (0, 40118), (275, 0),
    (3, 0)], [(35112109, 0), (143714, 0), (51, 0), (0, 3)], [(0, 104907), (0, 454), (1, 0)]], 3, 4⟩, 17592186044416,
    66429504,
    6154285252005816010774002505283937749852273795303861205320393392227191460047710520386965189987469013268374455991845595394283492,
    lc0⟩) (.leaf ⟨429, 16, 569, 531, 16, 1743, ⟨[[(14973176584355840, 0), (0, 2732110678309164), (58506730177, 0),
    (0, 557567), (0, 5)], [(19328207796633387, 0), (0, 2409563429096), (48387850, 0), (0, 244)], [(18809442980384,
    0), (0, 1013449088), (0, 9030), (3, 0)], [(13648376545, 0), (0, 82966), (0, 37)]], 3, 4⟩, ⟨[[(0,
    15323657615761408), (0, 2929240288161566), (38134024668, 0), (0, 586350), (32, 0)], [(0, 17901111860158619), (0,
    114316341209), (17540396, 0), (0, 511)], [(5748901619212, 0), (0, 187328425), (0, 3826), (0, 3)], [(655778523,
    0), (0, 92307), (15, 0)]], 3, 4⟩, 72057594037927936, 1010420119765, 330551398944, ⟨[[(12754656810402, 0),
    (12146049351, 0), (10103552, 0), (0, 5500), (0, 108)], [(0, 13036427942), (0, 39980221), (0, 45668), (135, 0),
    (2, 0)], [(33859240, 0), (140109, 0), (137, 0), (0, 1)], [(0, 102504), (0, 475)]], 3, 4⟩, 17592186044416,
    68256080,
    4589216376197812019637410304285830091226912596206460528607544311776562971022047056299296719641837557870258837451766053031065369,
    lc0⟩)) (.leaf ⟨312, 16, 438, 383, 16, 1295, ⟨[[(0, 6154357762273280), (0, 2020384316336080), (43616952241, 0),
    (0, 415404), (10, 0)], [(26757273433542787, 0), (0, 3569568242357), (73668415, 0), (0, 1217)], [(53746900894360,
    0), (0, 3116881584), (0, 10120), (6, 0)], [(81130712490, 0), (0, 869028), (0, 147)]], 3, 4⟩,
    ⟨[[(15117553190121472, 0), (0, 2146765237620390), (27438502218, 0), (0, 397675), (9, 0)], [(0,
    27030549073786316), (0, 132239362834), (25833133, 0), (0, 57)], [(16699309410320, 0), (0, 560109383), (0, 28042),
    (0, 10)], [(2852145049, 0), (0, 478286), (91, 0)]], 3, 4⟩, 72057594037927936, 12418969768138, 3785706865312,
    ⟨[[(12882322094421, 0), (17260800494, 0), (20870295, 0), (0, 5400), (0, 287)], [(0, 18327942107), (0, 80006984),
    (0, 139524), (316, 0), (7, 0)], [(66869033, 0), (394768, 0), (643, 0), (0, 6)], [(0, 283589), (0, 1867), (0,
    1)]], 3, 4⟩, 17592186044416, 425842987,
    4908357366048129008816716374060846097099913388647355640466870916520625503971789249357602639594816962639667506934771678190226163,
    lc0⟩)) (.sy (.leaf ⟨291, 16, 370, 391, 16, 1321, ⟨[[(0, 14987984199671808), (0, 1877929042868208), (39997192914,
    0), (0, 363648), (0, 13)], [(28436873600554935, 0), (0, 3300560695933), (60805191, 0), (284, 0)],
    [(55940609833770, 0), (0, 2652738529), (0, 45098), (11, 0)], [(77518846708, 0), (95560, 0), (0, 266)]], 3, 4⟩,
    ⟨[[(0, 24642274028318720), (0, 2226077051171883), (29730190983, 0), (0, 476940), (30, 0)], [(0,
    26021918967953716), (0, 210684190490), (26131123, 0), (0, 1284)], [(17916915480530, 0), (0, 619109237), (0,
    2716), (0, 8)], [(6367831394, 0), (0, 528630), (99, 0)]], 3, 4⟩, 72057594037927936, 10593019706367,
    3757519342565, ⟨[[(12353623412205, 0), (14736829701, 0), (16311478, 0), (493, 0), (0, 132)], [(0, 17467182798),
    (0, 68933312), (0, 116118), (117, 0), (3, 0)], [(63944244, 0), (349428, 0), (661, 0), (0, 2)], [(0, 277499), (0,
    1781), (0, 3)]], 3, 4⟩, 17592186044416, 570036047,
    4619327587662508743662695495445338094983101222419207335835046382511430065217019053497314352084131105498961906410414460545064516,
    lc0⟩) (.leaf ⟨290, 16, 386, 377, 16, 1328, ⟨[[(0, 9841456637009920), (0, 1917535899915052), (41138616028, 0), (0,
    398741), (0, 5)], [(27954046546594645, 0), (0, 3379555001791), (63343806, 0), (0, 417)], [(56959980211722, 0),
    (0, 2806214356), (0, 30553), (10, 0)], [(80855969371, 0), (0, 149834), (0, 219)]], 3, 4⟩, ⟨[[(17391402246152192,
    0), (0, 2208214001330583), (29207016633, 0), (0, 427988), (20, 0)], [(0, 26259665022309870), (0, 186307409016),
    (24615066, 0), (0, 886)], [(17697711642013, 0), (0, 631311743), (0, 15432), (0, 9)], [(6161185541, 0), (0,
    423477), (116, 0)]], 3, 4⟩, 72057594037927936, 11469557893058, 3806935828689, ⟨[[(12346168152518, 0),
    (15045696397, 0), (17613506, 0), (6130, 0), (0, 72)], [(0, 17308642704), (0, 71151143), (0, 131567), (0, 4), (2,
    0)], [(63904554, 0), (367148, 0), (800, 0), (0, 1)], [(0, 279840), (0, 1902), (0, 4)]], 3, 4⟩, 17592186044416,
    552005520,
    3711705587472626102875182891825876939910927011838733067819718890393356652699715244291281770771050816038480209953516360198731841,
    lc0⟩)))
theorem c30 : checkR job con0 true ⟨7, 9, 7, 9, 13, 17⟩ 1 9016 t30 495 21 320 14243 251 16000 = true := by decide +kernel

def t31 : CTree :=
  .sy (.sx (.sy (.sx (.out ⟨383, 16, 782, 1733, 16, 1586, ⟨[[(30020998029987840, 0), (0, 2987474268335578),
    (64802014528, 0)], [(15243746255506362, 0), (0, 2626553608334), (62965597, 0)], [(14527576137071, 0), (0,
    1205460807), (3055, 0)]], 2, 2⟩, ⟨[[(0, 25912143289876480), (0, 2719011474802224), (30742430061, 0)], [(0,
    19409538682162749), (0, 4594119615), (23379154, 0)], [(5373417337821, 0), (0, 138191502), (0, 18235)]], 2, 2⟩,
    72057594037927936, 129537235991618, 20378102310617, ⟨[], 0, 0⟩, 0, 0, 0, lc0⟩ 2 1 29689217726599) (.sy (.out
    ⟨572, 16, 1124, 2543, 16, 2336, ⟨[[(13209675496521728, 0), (0, 2240021259786194), (24297772546, 0)],
    [(24260176614270245, 0), (0, 1973430988977), (22942369, 0)], [(23563261598838, 0), (0, 903811095), (1213, 0)]],
    2, 2⟩, ⟨[[(0, 35967385192988672), (0, 2008608610833536), (11758119808, 0)], [(0, 27925007914706146), (0,
    16417570289), (7839240, 0)], [(7823048923066, 0), (0, 110104873), (0, 6261)]], 2, 2⟩, 72057594037927936,
    191840978486292, 9351812342852, ⟨[], 0, 0⟩, 0, 0, 0, lc0⟩ 2 1 17325056065131) (.leaf ⟨733, 16, 1176, 762, 16,
    2508, ⟨[[(0, 4050121511092224), (0, 2318190704273216), (25301480931, 0), (0, 73060), (7, 0)],
    [(24352049094294302, 0), (0, 2040868200060), (23519782, 0), (0, 335)], [(24178963421062, 0), (0, 944534858),
    (877, 0)], [(21092063240, 0), (0, 292859)]], 3, 4⟩, ⟨[[(9886793390456832, 0), (0, 2041832685157605),
    (11838318586, 0), (0, 127447), (0, 5)], [(0, 28559829727093175), (0, 8528683830), (8450734, 0), (320, 0)],
    [(7940888260239, 0), (0, 119537321), (0, 7464), (0, 1)], [(0, 785306392), (0, 86423)]], 3, 4⟩, 72057594037927936,
    1863275808188, 493395032651, ⟨[[(13942688977356, 0), (11187480449, 0), (6812996, 0), (0, 10654), (0, 96)], [(0,
    9869941035), (0, 23978771), (0, 11770), (137, 0), (1, 0)], [(17072638, 0), (49583, 0), (0, 41), (0, 1)], [(0,
    32896), (0, 81)]], 3, 4⟩, 17592186044416, 9116192,
    9599043486040027996707909161683317596460270579012507998197781034095536079150488838027818419681851203165758279185323445757313910,
    lc0⟩))) (.sx (.sy (.sy (.out ⟨815, 16, 1720, 3251, 16, 2996, ⟨[[(0, 6912789320237056), (0, 1620421738403058),
    (8868612128, 0)], [(31729411870239104, 0), (0, 1422803728733), (8445075, 0)], [(31121873528425, 0), (0,
    662159437), (115, 0)]], 2, 2⟩, ⟨[[(0, 19997252545904640), (0, 1275067209996887), (3544506923, 0)], [(0,
    36663443129473000), (5035940709, 0), (2989808, 0)], [(10065037111366, 0), (0, 71169883), (0, 2560)]], 2, 2⟩,
    72057594037927936, 266396898491734, 15621754285714, ⟨[], 0, 0⟩, 0, 0, 0, lc0⟩ 2 1 18108758484407) (.out ⟨816, 16,
    1747, 3245, 16, 2999, ⟨[[(18845404981460992, 0), (0, 1636820982661264), (8995786788, 0)], [(31504184442940349,
    0), (0, 1436571457573), (8487657, 0)], [(31272809843264, 0), (0, 672509867), (0, 32)]], 2, 2⟩,
    ⟨[[(7066647702798336, 0), (0, 1272800266474355), (3510795123, 0)], [(0, 36696861960033597), (8098664776, 0),
    (3099694, 0)], [(10038692331446, 0), (0, 73900315), (0, 2735)]], 2, 2⟩, 72057594037927936, 269462635594782,
    15976837035127, ⟨[], 0, 0⟩, 0, 0, 0, lc0⟩ 2 1 13461317873648)) (.leaf ⟨769, 16, 1313, 745, 16, 2490, ⟨[[(0,
    18537315341721600), (0, 2440036581739795), (27004217733, 0), (0, 27095), (11, 0)], [(22868320795365943, 0), (0,
    2140322765917), (25097550, 0), (0, 377)], [(23123189517411, 0), (0, 1011232796), (0, 853), (0, 1)],
    [(21463762178, 0), (0, 353300), (3, 0)]], 3, 4⟩, ⟨[[(21790890235977728, 0), (0, 2004616270638857), (10914848991,
    0), (0, 175311), (0, 10)], [(0, 29011430505388837), (20397837671, 0), (10366382, 0), (528, 0)], [(7892724749236,
    0), (0, 123705552), (0, 9506), (0, 1)], [(0, 1297366657), (0, 106954), (0, 3)]], 3, 4⟩, 72057594037927936,
    2018082843765, 520006486443, ⟨[[(14273377414055, 0), (12266347103, 0), (7868777, 0), (0, 13146), (0, 120)], [(0,
    10088817508), (0, 25852273), (0, 11153), (173, 0), (1, 0)], [(17317277, 0), (51116, 0), (0, 64), (0, 1)], [(0,
    33015), (0, 77), (1, 0)]], 3, 4⟩, 17592186044416, 9681565,
    9857203627776756091650956668422255730005434271491272605691285710749363044258290372736974876609794238214229777726375033315692428,
    lc0⟩)) (.leaf ⟨476, 16, 790, 510, 16, 1726, ⟨[[(16469611447848960, 0), (0, 3063531236407237), (67614470021, 0),
    (0, 262305), (96, 0)], [(15335447682528606, 0), (0, 2695190052794), (61044165, 0), (0, 2013)], [(15765119788838,
    0), (0, 1268069389), (6, 0), (0, 3)], [(14021177421, 0), (0, 390903), (7, 0)]], 3, 4⟩, ⟨[[(0, 8607244358225920),
    (0, 2786142874882588), (31737590518, 0), (0, 811407), (0, 86)], [(0, 19655831660998900), (6606913929, 0),
    (25572718, 0), (2341, 0)], [(5399822895499, 0), (0, 181773545), (0, 25335), (0, 4)], [(0, 585210249), (0,
    119090), (0, 1)]], 3, 4⟩, 72057594037927936, 1303812074176, 406246768057, ⟨[[(13950535439102, 0), (16699689473,
    0), (16284705, 0), (0, 20217), (0, 321)], [(0, 15208087830), (0, 56170284), (0, 56473), (476, 0), (5, 0)],
    [(41081887, 0), (185506, 0), (0, 67), (0, 6)], [(0, 124955), (0, 517), (3, 0)]], 3, 4⟩, 17592186044416, 72427720,
    4766058958554654842094490667926026040045527595250004530328383527308275812029933217324921627951890827744079260312934803050750372,
    lc0⟩))) (.sy (.leaf ⟨337, 16, 519, 377, 16, 1270, ⟨[[(18907935433519104, 0), (0, 2174901240480735), (47417063890,
    0), (0, 356682), (40, 0)], [(24894151726722453, 0), (0, 3839744518495), (84346436, 0), (0, 2404)],
    [(50566577620700, 0), (0, 3516368986), (5688, 0)], [(83341839331, 0), (0, 1728519), (0, 36)]], 3, 4⟩,
    ⟨[[(8338336555937792, 0), (0, 2075225169859337), (25163201487, 0), (0, 433476), (0, 23)], [(0,
    27911189146254635), (0, 57254970180), (29840001, 0), (1599, 0)], [(15968794694777, 0), (0, 527981564), (0,
    53254), (0, 12)], [(0, 628107749), (0, 538430), (51, 0)]], 3, 4⟩, 72057594037927936, 14118894544491,
    3927099449247, ⟨[[(13474001508691, 0), (20276385969, 0), (26108658, 0), (0, 25472), (0, 668)], [(0, 19361232309),
    (0, 92321243), (0, 148616), (884, 0), (15, 0)], [(69998672, 0), (430009, 0), (302, 0), (0, 15)], [(0, 288472),
    (0, 1792), (5, 0)]], 3, 4⟩, 17592186044416, 352415082,
    6558241153347188700257079020965702990435604718255311145398169308990131630883361748027394370062434317394904831003428614069521269,
    lc0⟩) (.leaf ⟨338, 16, 545, 365, 16, 1277, ⟨[[(30315207014350848, 0), (0, 2234124209321992), (49299649052, 0),
    (0, 274226), (59, 0)], [(24139125104007272, 0), (0, 3945231806885), (84329202, 0), (0, 3108)], [(51247485337302,
    0), (0, 3687608409), (3084, 0), (0, 3)], [(86601497665, 0), (0, 1821798), (24, 0)]], 3, 4⟩, ⟨[[(0,
    18378058893393920), (0, 2061604417411575), (24599199521, 0), (0, 504633), (0, 45)], [(0, 28086136466397403), (0,
    25991888831), (33151185, 0), (2605, 0), (1, 0)], [(15775233986645, 0), (0, 594190612), (0, 73030), (0, 14)], [(0,
    890683808), (0, 491616), (47, 0)]], 3, 4⟩, 72057594037927936, 15109670091241, 4106892221381, ⟨[[(13484664916656,
    0), (20850852653, 0), (29001791, 0), (0, 5572), (0, 425)], [(0, 19269796593), (0, 96322260), (0, 181881), (511,
    0), (10, 0)], [(70488015, 0), (459603, 0), (612, 0), (0, 10)], [(0, 296835), (0, 2018), (2, 0)]], 3, 4⟩,
    17592186044416, 351051232,
    2856482136731493796591481686710616452517082210145081843055009814968131228083520900238433156156774566448651024151076798549003776,
    lc0⟩))) (.sy (.sx (.leaf ⟨371, 16, 649, 360, 16, 1253, ⟨[[(0, 27757105023905792), (0, 2416090583213541),
    (54353334729, 0), (3399, 0), (104, 0)], [(21984260947333641, 0), (0, 4243393596016), (95344763, 0), (0, 3465)],
    [(46906187454162, 0), (0, 4093549606), (0, 18447), (0, 13)], [(87310762062, 0), (0, 2621507), (94, 0)]], 3, 4⟩,
    ⟨[[(23020660910096384, 0), (0, 2000554285175528), (21580492641, 0), (0, 793698), (0, 99)], [(0,
    28848527094664539), (62365036846, 0), (45189070, 0), (5034, 0), (1, 0)], [(15527161558468, 0), (0, 588131329),
    (0, 93331), (0, 14)], [(0, 4648398004), (0, 806735), (0, 50)]], 3, 4⟩, 72057594037927936, 16814219040236,
    4406085854017, ⟨[[(14095076251131, 0), (24348637835, 0), (35303439, 0), (0, 38176), (0, 1014)], [(0,
    20131801272), (0, 108076265), (0, 171327), (1447, 0), (24, 0)], [(71974847, 0), (473042, 0), (0, 27), (0, 23)],
    [(0, 292324), (0, 1820), (9, 0)]], 3, 4⟩, 17592186044416, 311366110,
    7232676717182726186162315186098120539405260056907124679661040649471738981467278942218999255751119840785722574365816891798839869,
    lc0⟩) (.leaf ⟨340, 16, 573, 353, 16, 1285, ⟨[[(0, 27073035732709376), (0, 2297049294081556), (51501783528, 0),
    (0, 143852), (83, 0)], [(23318953894928616, 0), (0, 4061528088861), (83288750, 0), (0, 3866)], [(51934355756155,
    0), (0, 3877362363), (0, 4695), (0, 7)], [(90101345991, 0), (0, 1855715), (94, 0)]], 3, 4⟩, ⟨[[(0,
    24272916186611712), (0, 2050077491549648), (23907155841, 0), (0, 624346), (0, 71)], [(0, 28266442243015832),
    (9612787802, 0), (38198472, 0), (3846, 0), (1, 0)], [(15553547959084, 0), (0, 682839028), (0, 96256), (0, 16)],
    [(0, 1133096912), (0, 449970), (41, 0)]], 3, 4⟩, 72057594037927936, 16165752072263, 4327527326176,
    ⟨[[(13471246694078, 0), (21323633294, 0), (31479989, 0), (7827, 0), (0, 256)], [(0, 19024345126), (0, 99378779),
    (0, 207845), (259, 0), (7, 0)], [(70171498, 0), (483581, 0), (859, 0), (0, 7)], [(0, 301589), (0, 2221), (0,
    1)]], 3, 4⟩, 17592186044416, 351363773,
    2095340583744549693670785569721348236912931782701991035727877007089655370671805270474910256786946813910857956620974263562103181,
    lc0⟩)) (.sx (.leaf ⟨374, 16, 686, 348, 16, 1260, ⟨[[(11039295574224896, 0), (0, 2496090183125677), (57637395813,
    0), (252024, 0), (138, 0)], [(21010897435976250, 0), (0, 4386978787157), (95027653, 0), (0, 3967)],
    [(47401373628646, 0), (0, 4358407804), (0, 44427), (0, 19)], [(90927032293, 0), (0, 2643705), (154, 0)]], 3, 4⟩,
    ⟨[[(28233023201177600, 0), (0, 1990600443147447), (20332478685, 0), (0, 1030720), (0, 133)], [(0,
    28966068449817320), (112562800568, 0), (54276136, 0), (6721, 0), (1, 0)], [(15291461597205, 0), (0, 697143744),
    (0, 117310), (0, 17)], [(0, 5096813171), (0, 876940), (0, 81)]], 3, 4⟩, 72057594037927936, 18110712133753,
    4722340399377, ⟨[[(14103960370387, 0), (25121629838, 0), (39328918, 0), (0, 12155), (0, 670)], [(0, 20028391399),
    (0, 113347619), (0, 215395), (945, 0), (17, 0)], [(72890444, 0), (515618, 0), (438, 0), (0, 16)], [(0, 306702),
    (0, 2188), (4, 0)]], 3, 4⟩, 17592186044416, 318657499,
    6316783728602494072588528939271310699633644780187177081611095844592466255130567993454860522997801448205069113930442896724408210,
    lc0⟩) (.leaf ⟨341, 16, 604, 340, 16, 1292, ⟨[[(23025599291535360, 0), (0, 2366884664972137), (54203931446, 0),
    (48445, 0), (113, 0)], [(22452933912204062, 0), (0, 4196352681512), (81191876, 0), (0, 4692)], [(52690023136796,
    0), (0, 4098668072), (0, 19036), (0, 11)], [(94025131321, 0), (0, 1819292), (175, 0)]], 3, 4⟩,
    ⟨[[(22135371474747392, 0), (0, 2037625849079765), (22970190356, 0), (0, 799079), (0, 100)], [(0,
    28405358617767832), (51507124716, 0), (45318157, 0), (5358, 0), (1, 0)], [(15267082425851, 0), (0, 796749534),
    (0, 123395), (0, 19)], [(0, 1356730360), (0, 415554), (32, 0)]], 3, 4⟩, 72057594037927936, 17340595535747,
    4602548457608, ⟨[[(13470533116598, 0), (21948241766, 0), (34314342, 0), (16558, 0), (0, 155)], [(0, 18902970877),
    (0, 103858921), (0, 234812), (114, 0), (4, 0)], [(70927573, 0), (519084, 0), (1088, 0), (0, 5)], [(0, 314511),
    (0, 2510), (0, 3)]], 3, 4⟩, 17592186044416, 367720926,
    2641481225411726028789976749020884485351357823881697431464334674390374478542454090914952456653703295398435796796467169247376638,
    lc0⟩)))
theorem c31 : checkR job con0 true ⟨7, 9, 7, 9, 13, 17⟩ 1 9016 t31 453 21 320 14745 251 16000 = true := by decide +kernel

def t32 : CTree :=
  .sy (.sx (.sy (.leaf ⟨312, 16, 458, 370, 16, 1302, ⟨[[(0, 28966978617016320), (0, 2067170046124080), (44975768034,
    0), (0, 401867), (23, 0)], [(26124550303152875, 0), (0, 3656356570045), (74599423, 0), (0, 1959)],
    [(54563071754074, 0), (0, 3265406708), (0, 2300), (4, 0)], [(84345684089, 0), (0, 1031515), (0, 91)]], 3, 4⟩,
    ⟨[[(24527047673192448, 0), (0, 2130971846840350), (26990638133, 0), (0, 397089), (0, 7)], [(0,
    27236845331687159), (0, 106760932171), (26374149, 0), (617, 0)], [(16498435922132, 0), (0, 599564526), (0,
    44820), (0, 12)], [(2649890345, 0), (0, 384811), (100, 0)]], 3, 4⟩, 72057594037927936, 13320545887727,
    3895950861041, ⟨[[(12874129891645, 0), (17644517161, 0), (22724705, 0), (5085, 0), (0, 165)], [(0, 18152040741),
    (0, 82690666), (0, 161082), (108, 0), (4, 0)], [(66733467, 0), (415126, 0), (836, 0), (0, 3)], [(0, 286817), (0,
    2012), (0, 2)]], 3, 4⟩, 17592186044416, 417936268,
    3148209437835177535105527144344122688844960139538480770903222606867396813659716483977557158252215615403649682821731648400028533,
    lc0⟩) (.leaf ⟨312, 16, 480, 358, 16, 1309, ⟨[[(0, 26177716372103168), (0, 2119446313035660), (46545007348, 0),
    (0, 358849), (39, 0)], [(25475202512123221, 0), (0, 3755227897551), (74547204, 0), (0, 2776)], [(55465938637044,
    0), (0, 3421747961), (2838, 0), (2, 0)], [(87836242404, 0), (0, 1142442), (0, 27)]], 3, 4⟩, ⟨[[(0,
    36021610686373888), (0, 2115491770497875), (26515640237, 0), (0, 430399), (0, 25)], [(0, 27430376395774028), (0,
    80041501069), (28066527, 0), (1470, 0)], [(16271598540947, 0), (0, 657621243), (0, 64689), (0, 14)],
    [(2496097317, 0), (0, 281063), (110, 0)]], 3, 4⟩, 72057594037927936, 14261047374122, 4035374056538,
    ⟨[[(12889876513619, 0), (18122955127, 0), (24614873, 0), (11441, 0), (0, 98)], [(0, 18086231130), (0, 86025264),
    (0, 179930), (0, 1), (3, 0)], [(67245722, 0), (439352, 0), (980, 0), (0, 2)], [(0, 294389), (0, 2179), (0, 3)]],
    3, 4⟩, 17592186044416, 423367442,
    2717661810215340853452289335782800547917472467459218572436345963184363006395156026956238648556262619800375022455764077107292397,
    lc0⟩)) (.sy (.leaf ⟨289, 16, 403, 364, 16, 1335, ⟨[[(0, 12122855405346816), (0, 1959180819210490), (42320785318,
    0), (0, 416237), (6, 0)], [(27430515864735028, 0), (0, 3462515772310), (64912309, 0), (0, 1187)],
    [(57991073407775, 0), (0, 2954205474), (0, 17125), (9, 0)], [(84286060772, 0), (0, 354599), (0, 166)]], 3, 4⟩,
    ⟨[[(0, 9596191316328448), (0, 2190691733617903), (28737767733, 0), (0, 401622), (8, 0)], [(0, 26485962448906511),
    (0, 162992338740), (23790969, 0), (0, 352)], [(17467271960542, 0), (0, 657660167), (0, 30790), (0, 11)],
    [(6010851337, 0), (0, 299574), (135, 0)]], 3, 4⟩, 72057594037927936, 12350144329626, 3870253560637,
    ⟨[[(12351275537560, 0), (15395363250, 0), (18928648, 0), (9750, 0), (0, 38)], [(0, 17208582874), (0, 73665699),
    (0, 145439), (0, 71), (1, 0)], [(64158028, 0), (386647, 0), (911, 0)], [(0, 284476), (0, 2035), (0, 5)]], 3, 4⟩,
    17592186044416, 545013284,
    3400340604713029260092153292476634069112855297296904983122541245373589357685181166114734915229754051039708501394301976181817744,
    lc0⟩) (.leaf ⟨288, 16, 421, 351, 16, 1342, ⟨[[(0, 26824038238871552), (0, 2002623964228965), (43571376496, 0),
    (0, 410287), (19, 0)], [(26856788115719991, 0), (0, 3550223959128), (65345291, 0), (0, 2037)], [(59028617705296,
    0), (0, 3097473521), (0, 5108), (8, 0)], [(87826875053, 0), (0, 509748), (0, 104)]], 3, 4⟩, ⟨[[(0,
    33632003274022912), (0, 2173477608614443), (28284893250, 0), (0, 402839), (0, 7)], [(0, 26701088837707234), (0,
    139938447514), (23885074, 0), (341, 0)], [(17217716839059, 0), (0, 701080278), (0, 49187), (0, 13)],
    [(5926992232, 0), (0, 155189), (155, 0)]], 3, 4⟩, 72057594037927936, 13231422256054, 3954441706973,
    ⟨[[(12353096976949, 0), (15750776019, 0), (20297489, 0), (12508, 0), (0, 19)], [(0, 17093278682), (0, 76267831),
    (0, 159265), (0, 113), (1, 0)], [(64361172, 0), (407247, 0), (1018, 0)], [(0, 289906), (0, 2183), (0, 5)]], 3,
    4⟩, 17592186044416, 547766681,
    3576638592646330326353217246738209565494194360445977845359101246945208439291982477805181271374262998303068584383632408867306828,
    lc0⟩))) (.sx (.sy (.leaf ⟨312, 16, 504, 345, 16, 1316, ⟨[[(0, 8277139434823680), (0, 2176612901328378),
    (48375341061, 0), (0, 276963), (59, 0)], [(24788914660008411, 0), (0, 3866797573740), (73309498, 0), (0, 3681)],
    [(56436604846376, 0), (0, 3588686306), (4612, 0)], [(91625148814, 0), (0, 1189710), (48, 0)]], 3, 4⟩, ⟨[[(0,
    22510376855060480), (0, 2100382834279715), (25957720932, 0), (0, 503566), (0, 46)], [(0, 27610129678911860), (0,
    50770922385), (31208236, 0), (2531, 0), (1, 0)], [(16008465972861, 0), (0, 737735716), (0, 88159), (0, 17)],
    [(2396243870, 0), (0, 166880), (120, 0)]], 3, 4⟩, 72057594037927936, 15250118587109, 4202576207017,
    ⟨[[(12891111823206, 0), (18598558383, 0), (26601520, 0), (16245, 0), (0, 54)], [(0, 17954460240), (0, 89409766),
    (0, 198917), (0, 73), (2, 0)], [(67566146, 0), (465339, 0), (1125, 0), (0, 1)], [(0, 302466), (0, 2373), (0,
    5)]], 3, 4⟩, 17592186044416, 433498991,
    2690665120393861002058322982917721914842543136027774562911824610184306277118499759640802867805110603067488746211955790352372493,
    lc0⟩) (.leaf ⟨312, 16, 529, 332, 16, 1324, ⟨[[(0, 27606807907151872), (0, 2233787450446722), (50441853690, 0),
    (0, 144123), (84, 0)], [(23999981043375168, 0), (0, 3984475087933), (70514028, 0), (0, 4681)], [(57346247177605,
    0), (0, 3762808933), (2133, 0), (0, 3)], [(95563010655, 0), (0, 1155444), (136, 0)]], 3, 4⟩,
    ⟨[[(10937365454573568, 0), (0, 2087340484428037), (25270908273, 0), (0, 622964), (0, 70)], [(0,
    27795341314395240), (0, 17321137088), (36173777, 0), (3837, 0), (1, 0)], [(15708636850613, 0), (0, 844588204),
    (0, 115943), (0, 20)], [(2357718360, 0), (0, 42034), (130, 0)]], 3, 4⟩, 72057594037927936, 16264065001012,
    4413578727722, ⟨[[(12877713206488, 0), (19028750485, 0), (28597449, 0), (19856, 0), (0, 32)], [(0, 17763086019),
    (0, 92636218), (0, 218222), (0, 115), (1, 0)], [(67704703, 0), (492368, 0), (1278, 0), (0, 1)], [(0, 310854), (0,
    2594), (0, 6)]], 3, 4⟩, 17592186044416, 447542885,
    3891923661730315565596041120907123806721545614946569280505066099852189263634119493909262959939126331598592402699473877899394557,
    lc0⟩)) (.sy (.leaf ⟨286, 16, 440, 337, 16, 1349, ⟨[[(13393189751771136, 0), (0, 2047596002850033), (44929558948,
    0), (0, 373657), (36, 0)], [(26223121802592634, 0), (0, 3643702759581), (64450653, 0), (0, 2979)],
    [(60067106352283, 0), (0, 3237121991), (5129, 0), (6, 0)], [(91502037359, 0), (0, 603983), (0, 32)]], 3, 4⟩,
    ⟨[[(17261712103133184, 0), (0, 2156580451474467), (27803118525, 0), (0, 436584), (0, 25)], [(0,
    26904860082760052), (0, 116095417019), (25159733, 0), (1216, 0)], [(16939543130002, 0), (0, 764954133), (0,
    71108), (0, 16)], [(5920793797, 0), (11830, 0), (178, 0)]], 3, 4⟩, 72057594037927936, 14109250358186,
    4064705484415, ⟨[[(12351439320035, 0), (16144290188, 0), (21880331, 0), (15041, 0), (0, 9)], [(0, 17008538374),
    (0, 79477450), (0, 175789), (0, 143)], [(64983126, 0), (434252, 0), (1149, 0)], [(0, 299864), (0, 2390), (0,
    6)]], 3, 4⟩, 17592186044416, 568136918,
    4527258874608835493424837085709611801713250638916441650730910271734910579804409967140782487744513133731799911337683633066214670,
    lc0⟩) (.leaf ⟨285, 16, 461, 324, 16, 1357, ⟨[[(4540315883991040, 0), (0, 2098334789104082), (46549860185, 0), (0,
    298124), (56, 0)], [(25574834741190507, 0), (0, 3752398714956), (62139691, 0), (0, 4038)], [(61233428089252, 0),
    (0, 3382046456), (13153, 0), (4, 0)], [(95549983123, 0), (0, 624609), (51, 0)]], 3, 4⟩, ⟨[[(16088270756106240,
    0), (0, 2141636700228650), (27259690375, 0), (0, 507967), (0, 44)], [(0, 27116475101496265), (0, 90189830444),
    (27938484, 0), (2304, 0), (1, 0)], [(16633619651270, 0), (0, 853852128), (0, 97223), (0, 18)], [(6009128337, 0),
    (204292, 0), (204, 0)]], 3, 4⟩, 72057594037927936, 15016366960992, 4191688197012, ⟨[[(12349604117086, 0),
    (16528097376, 0), (23520613, 0), (17418, 0), (0, 7)], [(0, 16871823923), (0, 82513199), (0, 192970), (0, 165)],
    [(65281428, 0), (460547, 0), (1291, 0), (1, 0)], [(0, 308689), (0, 2603), (0, 7)]], 3, 4⟩, 17592186044416,
    585749786,
    5759631915167914882035123992060272063572184539238180840006472939313171611631906203218447612307515795015882230734649272774528009,
    lc0⟩)))
theorem c32 : checkR job con0 true ⟨7, 9, 7, 9, 13, 17⟩ 1 9016 t32 495 21 320 14745 251 16000 = true := by decide +kernel

def t33 : CTree :=
  .sy (.sx (.sy (.sx (.leaf ⟨405, 16, 451, 547, 16, 1757, ⟨[[(624740280721408, 0), (0, 2522544648453104),
    (52060076518, 0), (0, 260342), (0, 47)], [(21779132608744987, 0), (0, 2179757691777), (31358793, 0), (1607, 0)],
    [(20146879561896, 0), (0, 736744527), (0, 37498), (5, 0)], [(12651543125, 0), (238157, 0), (0, 72)]], 3, 4⟩,
    ⟨[[(0, 16903026440585216), (0, 3054384423706079), (43056442375, 0), (0, 917699), (61, 0)], [(0,
    16353829771204044), (0, 205905571116), (21305384, 0), (0, 1361)], [(6422677655432, 0), (0, 232528090), (7483, 0),
    (0, 1)], [(1557846135, 0), (0, 114665), (11, 0)]], 3, 4⟩, 72057594037927936, 753870580136, 317337737940,
    ⟨[[(11981352170781, 0), (9691043536, 0), (7040143, 0), (0, 1929), (0, 48)], [(0, 11741170600), (0, 30951662), (0,
    31877), (66, 0), (1, 0)], [(29173629, 0), (105899, 0), (113, 0), (0, 1)], [(0, 87568), (0, 374)]], 3, 4⟩,
    17592186044416, 79609848,
    3885844473394499533156370385905570583625822648904017090018699384994461201469977487685416637123241675789111242502639182930216916,
    lc0⟩) (.leaf ⟨397, 16, 428, 542, 16, 1771, ⟨[[(0, 8529874812493824), (0, 2481996402276295), (50587032473, 0), (0,
    173647), (0, 54)], [(22339013265801317, 0), (0, 2125971967385), (26392767, 0), (1981, 0)], [(20667839780714, 0),
    (0, 665021737), (0, 44790), (6, 0)], [(12570138284, 0), (317791, 0), (0, 78)]], 3, 4⟩, ⟨[[(0, 23474659347709952),
    (0, 3087861104042475), (44315576244, 0), (0, 984854), (62, 0)], [(0, 15931554007645007), (0, 227846169432),
    (22165047, 0), (0, 1474)], [(6688554968947, 0), (0, 248957135), (8867, 0), (0, 1)], [(1837861114, 0), (0,
    115894), (10, 0)]], 3, 4⟩, 72057594037927936, 710548405561, 318060151983, ⟨[[(11744042024980, 0), (9100413474,
    0), (6544789, 0), (7, 0), (0, 25)], [(0, 11324563769), (0, 29025920), (0, 31230), (30, 0)], [(27867250, 0),
    (99424, 0), (123, 0)], [(0, 83606), (0, 354)]], 3, 4⟩, 17592186044416, 85578059,
    3228370469148303189689184236779855677501343810424987367644668244872710198155476324969180549588709878595653726807808329050464656,
    lc0⟩)) (.sx (.leaf ⟨401, 16, 467, 530, 16, 1771, ⟨[[(26511380147019776, 0), (0, 2558141136552519), (53431190798,
    0), (0, 359599), (0, 41)], [(21427104535663171, 0), (0, 2223350891388), (34613616, 0), (1181, 0)],
    [(20469560609486, 0), (0, 797784233), (0, 30806), (5, 0)], [(13206241131, 0), (176693, 0), (0, 65)]], 3, 4⟩,
    ⟨[[(0, 12685691036139520), (0, 3035817837019321), (42096908925, 0), (0, 806871), (56, 0)], [(0,
    16583087256443535), (0, 187006816318), (19459079, 0), (0, 1296)], [(6357913970752, 0), (0, 227920337), (5227, 0),
    (0, 2)], [(1515227390, 0), (0, 103171), (14, 0)]], 3, 4⟩, 72057594037927936, 828489565339, 323412542241,
    ⟨[[(11985037816002, 0), (9870637473, 0), (7596739, 0), (441, 0), (0, 28)], [(0, 11722893395), (0, 32065964), (0,
    37769), (24, 0), (1, 0)], [(29610194, 0), (112858, 0), (156, 0)], [(0, 90186), (0, 410), (0, 1)]], 3, 4⟩,
    17592186044416, 80176043,
    3608264693900826743563117361528455222551458125961625917586645012349190597294283360538718939053455715367831853021996824232496584,
    lc0⟩) (.leaf ⟨392, 16, 442, 524, 16, 1785, ⟨[[(13638658986569728, 0), (0, 2510895504503549), (51890617827, 0),
    (0, 284432), (0, 48)], [(21974693049982193, 0), (0, 2166724724813), (29968088, 0), (1555, 0)], [(20988217536145,
    0), (0, 728792169), (0, 37546), (6, 0)], [(13126465651, 0), (251629, 0), (0, 72)]], 3, 4⟩, ⟨[[(30887613798522880,
    0), (0, 3068145719533686), (43263753748, 0), (0, 871049), (58, 0)], [(0, 16167335366316443), (0, 208333427660),
    (20128591, 0), (0, 1442)], [(6617565748786, 0), (0, 242877989), (6997, 0), (0, 1)], [(1796576937, 0), (0,
    105010), (13, 0)]], 3, 4⟩, 72057594037927936, 788023968451, 325117993564, ⟨[[(11740582307350, 0), (9250060455,
    0), (6981239, 0), (1388, 0), (0, 14)], [(0, 11299531428), (0, 29984581), (0, 35607), (4, 0)], [(28295791, 0),
    (105522, 0), (154, 0)], [(0, 86296), (0, 387), (0, 1)]], 3, 4⟩, 17592186044416, 84329624,
    3118901990142236054012184989264949758334326399185465388476156328636641716832731824460651141031203713718280171280973380665108092,
    lc0⟩))) (.sy (.sx (.leaf ⟨388, 16, 405, 537, 16, 1786, ⟨[[(26371138034208768, 0), (0, 2434196615004234),
    (48837064415, 0), (0, 75489), (0, 61)], [(22845230503682383, 0), (0, 2062827832826), (21004773, 0), (2365, 0)],
    [(21088995405055, 0), (0, 585393315), (0, 52350), (6, 0)], [(12417603359, 0), (397721, 0), (0, 84)]], 3, 4⟩,
    ⟨[[(4652256128450560, 0), (0, 3124116785796417), (45646242704, 0), (0, 1057418), (63, 0)], [(0,
    15489608018628980), (0, 251485297606), (23155733, 0), (0, 1568)], [(6995788284317, 0), (0, 265840317), (10152,
    0), (0, 1)], [(2124191812, 0), (0, 117706), (9, 0)]], 3, 4⟩, 72057594037927936, 661242766296, 320933969590,
    ⟨[[(11518443380315, 0), (8548843506, 0), (6035890, 0), (932, 0), (0, 13)], [(0, 10977985369), (0, 27310701), (0,
    29806), (10, 0)], [(26841052, 0), (93787, 0), (124, 0)], [(0, 80753), (0, 336)]], 3, 4⟩, 17592186044416,
    93519491,
    2446805288179908114307625279916567532226781055373699215960647610037425722967446418383227569365147468141059787407343609050676519,
    lc0⟩) (.leaf ⟨381, 16, 384, 533, 16, 1801, ⟨[[(25616047361658880, 0), (0, 2391074717532403), (47047559629, 0),
    (33346, 0), (0, 68)], [(23403446281193115, 0), (0, 2000318431740), (15305134, 0), (2764, 0)], [(21509437012557,
    0), (0, 501195873), (0, 60355), (7, 0)], [(12254036529, 0), (479322, 0), (0, 90)]], 3, 4⟩, ⟨[[(0,
    25512316071395328), (0, 3161487955080383), (47029022672, 0), (0, 1134013), (63, 0)], [(0, 15015300313628005), (0,
    276745568406), (24255609, 0), (0, 1640)], [(7341665530685, 0), (0, 283095930), (11289, 0), (0, 1)], [(2415466843,
    0), (0, 119782), (8, 0)]], 3, 4⟩, 72057594037927936, 612886310679, 326880972162, ⟨[[(11302786528953, 0),
    (8025626819, 0), (5522748, 0), (1279, 0), (0, 6)], [(0, 10621619516), (0, 25567498), (0, 27724), (1, 0)],
    [(25676597, 0), (87536, 0), (118, 0)], [(0, 77316), (0, 312)]], 3, 4⟩, 17592186044416, 101385666,
    1656834188158254054203896084052361589018620246898021031870098668707395589318456490467750235389508058203815272780571815365270590,
    lc0⟩)) (.sx (.leaf ⟨384, 16, 418, 519, 16, 1800, ⟨[[(0, 35625516508520448), (0, 2461814966901840), (50195494425,
    0), (0, 197477), (0, 56)], [(22515511360966857, 0), (0, 2105556112193), (24981236, 0), (1945, 0)],
    [(21449805619193, 0), (0, 653699488), (0, 44702), (6, 0)], [(13001067210, 0), (327537, 0), (0, 78)]], 3, 4⟩,
    ⟨[[(35907308101320704, 0), (0, 3103191904183442), (44493249993, 0), (0, 941925), (60, 0)], [(0,
    15732581261052389), (0, 231220793293), (20960254, 0), (0, 1568)], [(6918589614179, 0), (0, 258375874), (8697, 0),
    (0, 1)], [(2083856918, 0), (0, 107837), (12, 0)]], 3, 4⟩, 72057594037927936, 736581347616, 325638373354,
    ⟨[[(11505254445903, 0), (8654907862, 0), (6357976, 0), (1697, 0), (0, 7)], [(0, 10892999019), (0, 27939914), (0,
    32818), (0, 5)], [(26978004, 0), (97918, 0), (145, 0)], [(0, 82159), (0, 360), (0, 1)]], 3, 4⟩, 17592186044416,
    90541816,
    2415601346472851393593077198902296223520192471711480139247776574955331473007985029532557585764271503864393592212359188135341877,
    lc0⟩) (.leaf ⟨376, 16, 396, 515, 16, 1816, ⟨[[(19037428676874240, 0), (0, 2417092474212796), (48467233055, 0),
    (0, 99259), (0, 63)], [(23103586333555404, 0), (0, 2044953269119), (19698823, 0), (2350, 0)], [(21907302340924,
    0), (0, 574331471), (0, 52338), (6, 0)], [(12862369249, 0), (405117, 0), (0, 85)]], 3, 4⟩, ⟨[[(2714377487548416,
    0), (0, 3141041359876681), (45793286065, 0), (0, 1018708), (61, 0)], [(0, 15274488467146173), (0, 255752667588),
    (21947787, 0), (0, 1672)], [(7262300710720, 0), (0, 274538222), (10273, 0), (0, 1)], [(2377168079, 0), (0,
    111368), (11, 0)]], 3, 4⟩, 72057594037927936, 689240258691, 325553502310, ⟨[[(11298652805075, 0), (8136638444,
    0), (5810382, 0), (1725, 0), (0, 3)], [(0, 10576752430), (0, 26244379), (0, 30270), (0, 9)], [(25991531, 0),
    (91829, 0), (135, 0)], [(0, 79266), (0, 337), (0, 1)]], 3, 4⟩, 17592186044416, 99790022,
    1668139337787257637033105782406473002083652368034759512574146416847008800516214481778449237762655955595709261325866129759669501,
    lc0⟩)))) (.sx (.sy (.sx (.leaf ⟨397, 16, 483, 513, 16, 1785, ⟨[[(0, 8676177912754176), (0, 2590604674494986),
    (54642757029, 0), (0, 446967), (0, 32)], [(21016022190528418, 0), (0, 2262785629702), (37261958, 0), (720, 0)],
    [(20749289791682, 0), (0, 853221585), (0, 24235), (5, 0)], [(13734292298, 0), (120010, 0), (0, 58)]], 3, 4⟩,
    ⟨[[(0, 11340289099923456), (0, 3017804421963058), (41285728512, 0), (0, 708854), (47, 0)], [(0,
    16804017379485669), (0, 169750782860), (17740999, 0), (0, 1169)], [(6293946095951, 0), (0, 225866018), (2302, 0),
    (0, 2)], [(1478791864, 0), (0, 88358), (17, 0)]], 3, 4⟩, 72057594037927936, 903488125544, 329320685920,
    ⟨[[(11979128046005, 0), (10029058087, 0), (8093148, 0), (1994, 0), (0, 15)], [(0, 11679931006), (0, 33064091),
    (0, 42416), (0, 2)], [(29930410, 0), (119143, 0), (188, 0)], [(0, 92293), (0, 442), (0, 1)]], 3, 4⟩,
    17592186044416, 78533108,
    3250788872105206342323683388893219495052967644075895636452484505631182655472977206938528298815594562818468383837304154261369978,
    lc0⟩) (.leaf ⟨388, 16, 457, 507, 16, 1800, ⟨[[(0, 28839389478825984), (0, 2542487247561787), (53137406712, 0),
    (0, 385752), (0, 41)], [(21603827697820197, 0), (0, 2208059561635), (33023610, 0), (1099, 0)], [(21313152023544,
    0), (0, 788241340), (0, 30439), (5, 0)], [(13684634219, 0), (190410, 0), (0, 65)]], 3, 4⟩, ⟨[[(31156577218412544,
    0), (0, 3050761964183933), (42389427128, 0), (0, 768045), (51, 0)], [(0, 16403723798938496), (0, 190782930077),
    (18176473, 0), (0, 1352)], [(6551802202528, 0), (0, 239069325), (4490, 0), (0, 2)], [(1762206249, 0), (0, 90606),
    (17, 0)]], 3, 4⟩, 72057594037927936, 860202410452, 326943139447, ⟨[[(11733801950724, 0), (9383206563, 0),
    (7378323, 0), (2280, 0), (0, 7)], [(0, 11242851515), (0, 30802852), (0, 39105), (0, 11)], [(28545191, 0),
    (110791, 0), (177, 0)], [(0, 88085), (0, 415), (0, 1)]], 3, 4⟩, 17592186044416, 82787860,
    2749311793756402275675471338800811577907504885204147221449877651984369909380656026018627956395003489600199496677845403953410553,
    lc0⟩)) (.leaf ⟨271, 16, 340, 372, 16, 1363, ⟨[[(0, 1763179617218560), (0, 1818405287659278), (38515897601, 0),
    (0, 348205), (0, 19)], [(29229045705342080, 0), (0, 3183979433752), (52338430, 0), (575, 0)], [(59681478693056,
    0), (0, 2446086606), (0, 57604), (14, 0)], [(79761594343, 0), (569734, 0), (0, 298)]], 3, 4⟩, ⟨[[(0,
    5300857110888448), (0, 2275618276738640), (31018974222, 0), (0, 493222), (29, 0)], [(0, 25386687894892727), (0,
    247906868457), (24584098, 0), (0, 1635)], [(19168235964775, 0), (0, 701643891), (0, 187), (0, 8)], [(9609744625,
    0), (0, 427328), (127, 0)]], 3, 4⟩, 72057594037927936, 10412085418122, 3848913757247, ⟨[[(11860008098351, 0),
    (13100988604, 0), (14446432, 0), (7068, 0), (0, 16)], [(0, 16393556722), (0, 62712374), (0, 112780), (0, 68)],
    [(60849710, 0), (331186, 0), (750, 0)], [(0, 272544), (0, 1806), (0, 4)]], 3, 4⟩, 17592186044416, 756876716,
    3450375218105264389700865764600574234537197298921613161390607444337253716019409556232699691773800575008075775934999357670768738,
    lc0⟩)) (.sy (.sx (.leaf ⟨379, 16, 432, 502, 16, 1815, ⟨[[(0, 13959281364897792), (0, 2492366385348087),
    (51486179864, 0), (0, 311647), (0, 49)], [(22183972907924529, 0), (0, 2148765925167), (28457897, 0), (1496, 0)],
    [(21818202858359, 0), (0, 717381815), (0, 37140), (6, 0)], [(13586835507, 0), (261928, 0), (0, 72)]], 3, 4⟩,
    ⟨[[(13240215321350144, 0), (0, 3084696686098042), (43521689221, 0), (0, 834944), (54, 0)], [(0,
    15975598551586883), (0, 213110042038), (18797649, 0), (0, 1513)], [(6847502480600, 0), (0, 252744039), (6637, 0),
    (0, 2)], [(2050110099, 0), (0, 94282), (16, 0)]], 3, 4⟩, 72057594037927936, 813380250077, 329573034139,
    ⟨[[(11511205245776, 0), (8803434819, 0), (6727101, 0), (2245, 0), (0, 4)], [(0, 10887495930), (0, 28848793), (0,
    35918), (0, 14)], [(27448294, 0), (103620, 0), (165, 0)], [(0, 84896), (0, 390), (0, 1)]], 3, 4⟩, 17592186044416,
    90061650,
    2078428858360283141946240288548372917812537701134099772273585816834429628628226902804266396533315855361186077526276820163221953,
    lc0⟩) (.leaf ⟨370, 16, 408, 497, 16, 1831, ⟨[[(35397307380277248, 0), (0, 2440311242778558), (49687580510, 0),
    (0, 224864), (0, 57)], [(22751424974055436, 0), (0, 2084844195725), (23553647, 0), (1905, 0)], [(22261342082251,
    0), (0, 640983592), (0, 44270), (6, 0)], [(13440456230, 0), (334351, 0), (0, 78)]], 3, 4⟩, ⟨[[(27978305464578048,
    0), (0, 3121376016596700), (44714817265, 0), (0, 909102), (56, 0)], [(0, 15524738716034956), (0, 236916368057),
    (19610453, 0), (0, 1650)], [(7185811651439, 0), (0, 267199509), (8682, 0), (0, 1)], [(2343581354, 0), (0, 99116),
    (15, 0)]], 3, 4⟩, 72057594037927936, 762562695402, 329113851611, ⟨[[(11298119769011, 0), (8261408913, 0),
    (6126323, 0), (2097, 0), (0, 2)], [(0, 10569567039), (0, 27065922), (0, 32928), (0, 15)], [(26480901, 0), (97138,
    0), (152, 0)], [(0, 82162), (0, 367), (0, 1)]], 3, 4⟩, 17592186044416, 100009364,
    1426511776729584194895612622833087729794214958548027342269151475657829764849888663310907931936977754588788867289386968167809296,
    lc0⟩)) (.sx (.leaf ⟨373, 16, 446, 485, 16, 1829, ⟨[[(24610986477666304, 0), (0, 2520037900622530), (52598301663,
    0), (0, 413794), (0, 41)], [(21796842689670939, 0), (0, 2187870692632), (31305178, 0), (1012, 0)],
    [(22144563394893, 0), (0, 774679380), (0, 29579), (6, 0)], [(14145039960, 0), (200858, 0), (0, 65)]], 3, 4⟩,
    ⟨[[(0, 32171926872154112), (0, 3065067281052653), (42668339309, 0), (0, 740600), (46, 0)], [(0,
    16202048453221678), (0, 196858964025), (16737814, 0), (0, 1392)], [(6773929747949, 0), (0, 249322770), (3898, 0),
    (0, 2)], [(2022692089, 0), (0, 76552), (20, 0)]], 3, 4⟩, 72057594037927936, 887901024612, 332339479279,
    ⟨[[(11522631293731, 0), (8975938023, 0), (7142200, 0), (2725, 0), (0, 2)], [(0, 10928134704), (0, 29975621), (0,
    39349), (0, 21)], [(28128594, 0), (110735, 0), (187, 0)], [(0, 88528), (0, 428), (0, 1)]], 3, 4⟩, 17592186044416,
    92028143,
    1727718611623286438576818253826879304373366450581597570301588895316980361502957609148099466474662574141358084564157690798814537,
    lc0⟩) (.leaf ⟨365, 16, 421, 479, 16, 1845, ⟨[[(0, 4866141946597376), (0, 2466794404099020), (50837122646, 0), (0,
    340675), (0, 49)], [(22402765384183284, 0), (0, 2125519476545), (26864023, 0), (1433, 0)], [(22627913418974, 0),
    (0, 702500341), (0, 36267), (6, 0)], [(14022298686, 0), (268442, 0), (0, 72)]], 3, 4⟩, ⟨[[(31386080062156800, 0),
    (0, 3100670206345145), (43759180120, 0), (0, 809548), (49, 0)], [(0, 15758511888997525), (0, 220124919949),
    (17321580, 0), (0, 1565)], [(7107620502712, 0), (0, 261557828), (6454, 0), (0, 2)], [(2315526417, 0), (0, 82594),
    (19, 0)]], 3, 4⟩, 72057594037927936, 835322767909, 332942891524, ⟨[[(11291739993803, 0), (8378387858, 0),
    (6448097, 0), (2441, 0), (0, 1)], [(0, 10523199497), (0, 27801957), (0, 35509), (0, 19)], [(26771154, 0),
    (102051, 0), (169, 0)], [(0, 84121), (0, 395), (0, 1)]], 3, 4⟩, 17592186044416, 99209335,
    1092328034189534441636728100996335757199207955952235828443366641108109839266731730748824960094835104064371334495150048858493369,
    lc0⟩))))
theorem c33 : checkR job con0 true ⟨7, 9, 7, 9, 13, 17⟩ 1 9016 t33 537 21 320 14243 251 16000 = true := by decide +kernel

def t34 : CTree :=
  .sx (.sy (.sx (.leaf ⟨375, 16, 364, 529, 16, 1817, ⟨[[(0, 4680498076348416), (0, 2346979726595956), (45099050683,
    0), (152985, 0), (0, 74)], [(23959453241007342, 0), (0, 1933454026307), (9231324, 0), (3169, 0)],
    [(21880358561430, 0), (0, 411201512), (0, 68638), (7, 0)], [(12049992848, 0), (561534, 0), (0, 96)]], 3, 4⟩,
    ⟨[[(0, 19299087919882240), (0, 3201813832820331), (48495236806, 0), (0, 1214387), (62, 0)], [(0,
    14513134454411124), (0, 303836928765), (25465165, 0), (0, 1689)], [(7731302119488, 0), (0, 300905474), (12242,
    0)], [(2712324860, 0), (0, 121888), (6, 0)]], 3, 4⟩, 72057594037927936, 554867721171, 327888648392,
    ⟨[[(11086886322247, 0), (7514481576, 0), (5017083, 0), (1364, 0), (0, 3)], [(0, 10253361824), (0, 23811892), (0,
    25403), (0, 4)], [(24398968, 0), (81037, 0), (109, 0)], [(0, 74014), (0, 288)]], 3, 4⟩, 17592186044416,
    109538633,
    1038136855780932210272434340205227065726319330324516602951107591109446097850725193521768094922424624252102748863404708957976249,
    lc0⟩) (.leaf ⟨369, 16, 345, 525, 16, 1834, ⟨[[(8647629138350080, 0), (0, 2302084938867871), (42990784068, 0),
    (283053, 0), (0, 80)], [(24511967009486382, 0), (0, 1862260774927), (2786461, 0), (3579, 0)], [(22201831989032,
    0), (0, 315742761), (0, 77132), (7, 0)], [(11805163403, 0), (644045, 0), (0, 101)]], 3, 4⟩,
    ⟨[[(24109122556829696, 0), (0, 3245195702744920), (50050704723, 0), (0, 1297691), (61, 0)], [(0,
    13978438790425673), (0, 332844661906), (26769204, 0), (0, 1717)], [(8166014624321, 0), (0, 319269489), (12977,
    0)], [(3013893371, 0), (0, 123680), (4, 0)]], 3, 4⟩, 72057594037927936, 495051711319, 326998293988,
    ⟨[[(10881459299972, 0), (7040817299, 0), (4553273, 0), (1317, 0), (0, 1)], [(0, 9925591116), (0, 22221402), (0,
    23211), (0, 6)], [(23198746, 0), (75147, 0), (99, 0)], [(0, 72486), (0, 271)]], 3, 4⟩, 17592186044416, 119141458,
    903051253422050810915940396761966725840969903034200155071543800175302020619308232082895301722406556775532524621565011612220189,
    lc0⟩)) (.sx (.leaf ⟨370, 16, 375, 511, 16, 1832, ⟨[[(0, 30011746356310016), (0, 2371175875967498), (46586927481,
    0), (10548, 0), (0, 70)], [(23686371394005425, 0), (0, 1979992418706), (14049133, 0), (2763, 0)],
    [(22311982765160, 0), (0, 489352585), (0, 60300), (7, 0)], [(12680364488, 0), (483535, 0), (0, 90)]], 3, 4⟩,
    ⟨[[(0, 16148345878818816), (0, 3180048913133996), (47145762744, 0), (0, 1099955), (61, 0)], [(0,
    14780478136552357), (0, 281869929194), (23068192, 0), (0, 1751)], [(7645890026158, 0), (0, 291291755), (11671,
    0), (0, 1)], [(2674806469, 0), (0, 115195), (9, 0)]], 3, 4⟩, 72057594037927936, 633637219971, 328188722671,
    ⟨[[(11082988725667, 0), (7611222224, 0), (5257676, 0), (1624, 0), (0, 1)], [(0, 10202012723), (0, 24385212), (0,
    27420), (0, 10)], [(24688046, 0), (84650, 0), (122, 0)], [(0, 75131), (0, 308), (0, 1)]], 3, 4⟩, 17592186044416,
    108571606,
    1014893250768260017914929616222535895086890911968644592949703358003844703744051392683715885870262317516572796526295483152362774,
    lc0⟩) (.leaf ⟨363, 16, 355, 507, 16, 1849, ⟨[[(33982718400204800, 0), (0, 2324219044888284), (44553657306, 0),
    (131470, 0), (0, 76)], [(24261679142299002, 0), (0, 1910703551817), (8033793, 0), (3179, 0)], [(22663187915736,
    0), (0, 399087399), (0, 68512), (7, 0)], [(12454539020, 0), (562517, 0), (0, 96)]], 3, 4⟩, ⟨[[(892837036240896,
    0), (0, 3222033765858953), (48582555522, 0), (0, 1185299), (61, 0)], [(0, 14254641527436075), (0, 309801309821),
    (24318756, 0), (0, 1806)], [(8074507129948, 0), (0, 308818884), (12855, 0)], [(2977233947, 0), (0, 118976), (7,
    0)]], 3, 4⟩, 72057594037927936, 573235258981, 330021782518, ⟨[[(10887213193719, 0), (7146797999, 0), (4781158,
    0), (1488, 0), (0, 1)], [(0, 9914251669), (0, 22862075), (0, 25066), (0, 10)], [(23725197, 0), (79179, 0), (111,
    0)], [(0, 72943), (0, 287)]], 3, 4⟩, 17592186044416, 120989616,
    599897033608689815528525843728450187294182209473766990897865911223549299882695176940766087869056310917135987391180749348278761,
    lc0⟩))) (.sy (.sx (.leaf ⟨364, 16, 327, 522, 16, 1852, ⟨[[(0, 5035478779838464), (0, 2256590922859227),
    (40722487437, 0), (423118, 0), (0, 86)], [(25060545854683718, 0), (0, 1786807215786), (0, 4023011), (3990, 0)],
    [(22474500165194, 0), (0, 215146642), (0, 85765), (7, 0)], [(11518886720, 0), (726555, 0), (0, 105)]], 3, 4⟩,
    ⟨[[(33727958629105664, 0), (0, 3291740696360127), (51700642992, 0), (0, 1383045), (59, 0)], [(0,
    13406360592646683), (0, 363854413001), (28149792, 0), (0, 1721)], [(8647028417956, 0), (0, 338142580), (13466,
    0)], [(3318701727, 0), (0, 124780), (2, 0)]], 3, 4⟩, 72057594037927936, 430203674412, 329190621000,
    ⟨[[(10683216858399, 0), (6590122005, 0), (4114309, 0), (1206, 0)], [(0, 9615455610), (0, 20693169), (0, 21043),
    (0, 7)], [(21836595, 0), (68926, 0), (89, 0)], [(0, 73537), (0, 264)]], 3, 4⟩, 17592186044416, 127600032,
    2948256259279813944905108633076019696108427614271404945878107901781568854109135044386603406333318187959548756513670056161432548,
    lc0⟩) (.sx (.leaf ⟨482, 16, 420, 595, 16, 2133, ⟨[[(0, 6625187728072704), (0, 2970909688324985), (52027741345,
    0), (714531, 0), (0, 121)], [(17025381874227011, 0), (0, 1154747579828), (0, 6259543), (2872, 0)],
    [(7569496257369, 0), (0, 45626976), (0, 30846), (3, 0)], [(1884433419, 0), (131731, 0), (0, 18)]], 3, 4⟩,
    ⟨[[(9370634397114368, 0), (0, 3804780819970745), (60581766667, 0), (0, 1654896), (66, 0)], [(0,
    7400725041970161), (0, 222011782592), (16701059, 0), (0, 976)], [(2582820833951, 0), (0, 100747712), (3903, 0)],
    [(506935752, 0), (0, 17845)]], 3, 4⟩, 72057594037927936, 50257651319, 29344103671, ⟨[[(10543343641414, 0),
    (5490440231, 0), (2917210, 0), (743, 0)], [(0, 7044245050), (0, 12865318), (0, 11193), (0, 3)], [(11574042, 0),
    (31318, 0), (35, 0)], [(0, 32496), (0, 99)]], 3, 4⟩, 17592186044416, 16210179,
    5421871839610364006259818009403858386274977410838806761242480173174626297888438349719005231850892112421474406177808358605383902,
    lc0⟩) (.out ⟨419, 16, 402, 2103, 16, 1995, ⟨[[(34322299354546176, 0), (0, 2890073349871585), (49492970163, 0)],
    [(16913891144437541, 0), (0, 1108241868215), (0, 8564245)], [(7473624889404, 0), (0, 27150643), (0, 31753)]], 2,
    2⟩, ⟨[[(12066554112704512, 0), (0, 3745884739663366), (60191009577, 0)], [(0, 7052277476019540), (0,
    226434128527), (16723308, 0)], [(2600415979935, 0), (0, 101141004), (3824, 0)]], 2, 2⟩, 72057594037927936,
    31602027001710, 31753432411739, ⟨[], 0, 0⟩, 0, 0, 0, lc0⟩ 0 1608 68))) (.sx (.leaf ⟨358, 16, 336, 504, 16, 1867,
    ⟨[[(0, 4323139626221568), (0, 2276403624500223), (42367169178, 0), (262928, 0), (0, 83)], [(24828081867268315,
    0), (0, 1837163843483), (1659653, 0), (3595, 0)], [(22960834582381, 0), (0, 303863713), (0, 76889), (7, 0)],
    [(12184068031, 0), (641779, 0), (0, 101)]], 3, 4⟩, ⟨[[(0, 17188547969175552), (0, 3267097565955114),
    (50110253322, 0), (0, 1273827), (60, 0)], [(0, 13692149551596011), (0, 339650409652), (25681892, 0), (0, 1838)],
    [(8549390117498, 0), (0, 327104958), (13790, 0)], [(3283173999, 0), (0, 122260), (5, 0)]], 3, 4⟩,
    72057594037927936, 509080439006, 326080123052, ⟨[[(10688052432268, 0), (6681402392, 0), (4307088, 0), (1322, 0)],
    [(0, 9591518817), (0, 21231634), (0, 22568), (0, 9)], [(22472382, 0), (72846, 0), (100, 0)], [(0, 71018), (0,
    267)]], 3, 4⟩, 17592186044416, 131741510,
    668470957149594595907235967961401780869044944616386582139794806651468830935794835991586383249891013687825111532059654525834216,
    lc0⟩) (.leaf ⟨353, 16, 318, 501, 16, 1886, ⟨[[(344886976036864, 0), (0, 2227940945295486), (40027881799, 0),
    (404281, 0), (0, 88)], [(25385028936511159, 0), (0, 1759491272801), (0, 5061954), (4008, 0)], [(23205394124083,
    0), (0, 204002910), (0, 85348), (8, 0)], [(11867706545, 0), (721028, 0), (0, 105)]], 3, 4⟩, ⟨[[(2961574500548608,
    0), (0, 3315348568649850), (51734754123, 0), (0, 1364612), (59, 0)], [(0, 13087996121241027), (0, 371519406362),
    (27137427, 0), (0, 1845)], [(9071624182088, 0), (0, 346075470), (14452, 0)], [(3590617973, 0), (0, 124553), (3,
    0)]], 3, 4⟩, 72057594037927936, 437150607907, 325812939186, ⟨[[(10498099567344, 0), (6251218579, 0), (3881554,
    0), (1167, 0)], [(0, 9309275483), (0, 19769353), (0, 20366), (0, 8)], [(21197438, 0), (66853, 0), (89, 0)], [(0,
    72143), (0, 260)]], 3, 4⟩, 17592186044416, 143160289,
    2800281510297968726443006429108249249921539245822209331654213878178678419767957322889998159436596885249987388930765099567779077,
    lc0⟩)))
theorem c34 : checkR job con0 true ⟨7, 9, 7, 9, 13, 17⟩ 1 9016 t34 579 21 320 28235 251 32000 = true := by decide +kernel

def t35 : CTree :=
  .sx (.sy (.sx (.leaf ⟨364, 16, 386, 493, 16, 1847, ⟨[[(0, 29646721750786048), (0, 2392612370235979), (47864695174,
    0), (0, 126214), (0, 64)], [(23362047072855016, 0), (0, 2021533432891), (18354906, 0), (2327, 0)],
    [(22698831911094, 0), (0, 560865594), (0, 51879), (7, 0)], [(13279425205, 0), (408490, 0), (0, 85)]], 3, 4⟩,
    ⟨[[(0, 15371977018007552), (0, 3159172220120879), (45952932060, 0), (0, 989076), (58, 0)], [(0,
    15038517429824201), (0, 262164690468), (20594822, 0), (0, 1761)], [(7563942576863, 0), (0, 282422321), (10561,
    0), (0, 1)], [(2641127074, 0), (0, 104655), (13, 0)]], 3, 4⟩, 72057594037927936, 711069185779, 328165775672,
    ⟨[[(11082961276194, 0), (7721398709, 0), (5527379, 0), (1878, 0), (0, 1)], [(0, 10188274642), (0, 25094823), (0,
    29625), (0, 14)], [(25132306, 0), (89187, 0), (136, 0)], [(0, 77609), (0, 334), (0, 1)]], 3, 4⟩, 17592186044416,
    108384247,
    828241054660407119983184366427258126841125062760843968520663621501675532013077495081895065618920906717816857934327470492818754,
    lc0⟩) (.leaf ⟨357, 16, 365, 489, 16, 1865, ⟨[[(16031602488336384, 0), (0, 2343634772414553), (45896966766, 0),
    (0, 15521), (0, 71)], [(23961393307690898, 0), (0, 1953892133119), (12793834, 0), (2753, 0)], [(23078755740719,
    0), (0, 475664981), (0, 59792), (7, 0)], [(13071567021, 0), (483533, 0), (0, 90)]], 3, 4⟩, ⟨[[(0,
    5184856052871168), (0, 3201589230379306), (47293954454, 0), (0, 1074954), (59, 0)], [(0, 14528907981306493), (0,
    289242152866), (21759146, 0), (0, 1848)], [(7991226805510, 0), (0, 298797367), (12234, 0), (0, 1)], [(2944970386,
    0), (0, 110539), (11, 0)]], 3, 4⟩, 72057594037927936, 649312637065, 329784433941, ⟨[[(10885327756044, 0),
    (7237236757, 0), (5006838, 0), (1676, 0)], [(0, 9888754958), (0, 23456078), (0, 26901), (0, 13)], [(24127799, 0),
    (83032, 0), (123, 0)], [(0, 74672), (0, 309), (0, 1)]], 3, 4⟩, 17592186044416, 121292107,
    528300968362437636012775422516380404986140065872816636051342470375224499059860774160208843540797137277963767529296434625864435,
    lc0⟩)) (.sx (.leaf ⟨358, 16, 398, 475, 16, 1862, ⟨[[(0, 8829129203728384), (0, 2417574855254171), (49060746376,
    0), (0, 254606), (0, 57)], [(23047026110313509, 0), (0, 2063697694508), (22138811, 0), (1868, 0)],
    [(23101557135985, 0), (0, 626950875), (0, 43503), (6, 0)], [(13882428067, 0), (337916, 0), (0, 79)]], 3, 4⟩,
    ⟨[[(0, 17188831156867072), (0, 3139042431632897), (44909494135, 0), (0, 886237), (52, 0)], [(0,
    15288315935730981), (0, 244778736424), (18128497, 0), (0, 1712)], [(7484989498431, 0), (0, 274873518), (8861, 0),
    (0, 1)], [(2613356544, 0), (0, 89890), (18, 0)]], 3, 4⟩, 72057594037927936, 785773919651, 332704121495,
    ⟨[[(11086091592518, 0), (7844260176, 0), (5828696, 0), (2158, 0), (0, 1)], [(0, 10183158038), (0, 25885728), (0,
    32062), (0, 17)], [(25609006, 0), (94357, 0), (152, 0)], [(0, 80355), (0, 364), (0, 1)]], 3, 4⟩, 17592186044416,
    108472643,
    845526295992883741563249397568531253251233896137116794488628789198537173067846651395859471835876102503538387827956332536999890,
    lc0⟩) (.leaf ⟨351, 16, 376, 471, 16, 1880, ⟨[[(24068297865777152, 0), (0, 2366843827868367), (47149083961, 0),
    (0, 155248), (0, 65)], [(23676766900678238, 0), (0, 1997534094830), (17051191, 0), (2306, 0)], [(23513667691464,
    0), (0, 546543329), (0, 51122), (7, 0)], [(13692774759, 0), (408731, 0), (0, 85)]], 3, 4⟩, ⟨[[(0,
    33032668588523520), (0, 3180264142133739), (46129456208, 0), (0, 969642), (54, 0)], [(0, 14786837528889457), (0,
    270950366707), (19145846, 0), (0, 1830)], [(7907308910954, 0), (0, 289413236), (11056, 0), (0, 1)], [(2915944453,
    0), (0, 97889), (16, 0)]], 3, 4⟩, 72057594037927936, 723399186429, 329654277240, ⟨[[(10889224096870, 0),
    (7347411088, 0), (5268706, 0), (1903, 0)], [(0, 9879515669), (0, 24153652), (0, 29000), (0, 15)], [(24577884, 0),
    (87560, 0), (137, 0)], [(0, 77137), (0, 336), (0, 1)]], 3, 4⟩, 17592186044416, 120845523,
    1113474104264022606574591521484344093839397848781548123942852877526304313771093423431111946334273952494275304523488215670709038,
    lc0⟩))) (.sy (.sx (.leaf ⟨351, 16, 345, 485, 16, 1883, ⟨[[(28572490819301376, 0), (0, 2293540671024716),
    (43783751697, 0), (106502, 0), (0, 78)], [(24547040352329030, 0), (0, 1882001789396), (6875592, 0), (3177, 0)],
    [(23400273272379, 0), (0, 385687157), (0, 67914), (7, 0)], [(12815872195, 0), (559237, 0), (0, 95)]], 3, 4⟩,
    ⟨[[(21430845455859712, 0), (0, 3245295226932894), (48695709542, 0), (0, 1164656), (59, 0)], [(0,
    13975164886143040), (0, 317973855115), (23063190, 0), (0, 1908)], [(8460536826634, 0), (0, 316034891), (13646,
    0)], [(3251058870, 0), (0, 116116), (9, 0)]], 3, 4⟩, 72057594037927936, 583024890247, 327804354293,
    ⟨[[(10688810948150, 0), (6771679097, 0), (4517773, 0), (1480, 0)], [(0, 9583224488), (0, 21841862), (0, 24287),
    (0, 11)], [(23030150, 0), (76863, 0), (111, 0)], [(0, 71826), (0, 284)]], 3, 4⟩, 17592186044416, 134880996,
    542194145920625264662287381052200971643886114883824477118468690232233543924172988153218783199843467754461902090429008357397900,
    lc0⟩) (.leaf ⟨347, 16, 327, 482, 16, 1902, ⟨[[(12936007229874176, 0), (0, 2249401373491819), (41652658405, 0),
    (239761, 0), (0, 84)], [(25194403814353304, 0), (0, 1811528276378), (613929, 0), (3607, 0)], [(23735692770887,
    0), (0, 292133951), (0, 76376), (7, 0)], [(12549330108, 0), (637275, 0), (0, 100)]], 3, 4⟩,
    ⟨[[(12898272655478784, 0), (0, 3292102699246838), (50190434125, 0), (0, 1257747), (59, 0)], [(0,
    13380455618005528), (0, 348624636619), (24497521, 0), (0, 1942)], [(8977079371156, 0), (0, 334240290), (14772,
    0)], [(3559065736, 0), (0, 120855), (7, 0)]], 3, 4⟩, 72057594037927936, 513590455300, 323720712092,
    ⟨[[(10498892283515, 0), (6329575478, 0), (4061066, 0), (1296, 0)], [(0, 9264806633), (0, 20232992), (0, 21754),
    (0, 10)], [(21742781, 0), (70383, 0), (98, 0)], [(0, 69504), (0, 262)]], 3, 4⟩, 17592186044416, 146129275,
    589034938704631744977806887977655128214703991998933488640932941321805564408433897962286474911116588342477094598330128303650616,
    lc0⟩)) (.sx (.leaf ⟨345, 16, 355, 467, 16, 1898, ⟨[[(21486212778078208, 0), (0, 2314743777925914), (45100637207,
    0), (0, 43425), (0, 72)], [(24288579197612163, 0), (0, 1927110497329), (11602082, 0), (2744, 0)],
    [(23862627200957, 0), (0, 461533746), (0, 59015), (7, 0)], [(13452118763, 0), (480725, 0), (0, 90)]], 3, 4⟩,
    ⟨[[(0, 32857551285747712), (0, 3222725219903055), (47403754108, 0), (0, 1058165), (56, 0)], [(0,
    14241771057486059), (0, 298623710190), (20345523, 0), (0, 1920)], [(8371432477830, 0), (0, 305086955), (12982,
    0), (0, 1)], [(3220829716, 0), (0, 105902), (13, 0)]], 3, 4⟩, 72057594037927936, 657502850607, 328931544999,
    ⟨[[(10692960994343, 0), (6868996499, 0), (4742980, 0), (1669, 0)], [(0, 9568709095), (0, 22449609), (0, 26080),
    (0, 13)], [(23461691, 0), (80771, 0), (122, 0)], [(0, 73646), (0, 306), (0, 1)]], 3, 4⟩, 17592186044416,
    134709347,
    1132818766558737441384994881153299049719262783724893583518691527451197243568343724118528832997670740471235489925002913215252892,
    lc0⟩) (.leaf ⟨341, 16, 336, 463, 16, 1918, ⟨[[(0, 15646392122281984), (0, 2268197860688362), (43042950946, 0),
    (80110, 0), (0, 79)], [(24954022881112521, 0), (0, 1858083269208), (5818744, 0), (3184, 0)], [(24219456332799,
    0), (0, 373297189), (0, 67263), (7, 0)], [(13198157486, 0), (555318, 0), (0, 95)]], 3, 4⟩, ⟨[[(20331509663002624,
    0), (0, 3269910644301049), (48790856739, 0), (0, 1151844), (57, 0)], [(0, 13663520164357268), (0, 328245775656),
    (21727208, 0), (0, 1984)], [(8887136810017, 0), (0, 322196485), (14614, 0)], [(3529807499, 0), (0, 113334), (10,
    0)]], 3, 4⟩, 72057594037927936, 588110239639, 324211758462, ⟨[[(10494525876403, 0), (6399478681, 0), (4241679,
    0), (1452, 0)], [(0, 9216962484), (0, 20681644), (0, 23192), (0, 11)], [(22094119, 0), (73479, 0), (107, 0)],
    [(0, 69571), (0, 275)]], 3, 4⟩, 17592186044416, 146287119,
    979392904931436025534503043445196214183083874366174359150382595120304287392040371627592907238391724904072927120651243621876877,
    lc0⟩)))
theorem c35 : checkR job con0 true ⟨7, 9, 7, 9, 13, 17⟩ 1 9016 t35 579 21 320 28737 251 32000 = true := by decide +kernel

def t36 : CTree :=
  .sy (.sx (.sy (.leaf ⟨268, 16, 353, 358, 16, 1370, ⟨[[(23274299552841728, 0), (0, 1848066087609846), (39419143658,
    0), (0, 391567), (0, 10)], [(28700900546042167, 0), (0, 3250905294597), (54658738, 0), (0, 175)],
    [(60675199004152, 0), (0, 2589348198), (0, 39587), (13, 0)], [(83035137297, 0), (310246, 0), (0, 250)]], 3, 4⟩,
    ⟨[[(712522831949824, 0), (0, 2256363298776069), (30471482500, 0), (0, 446287), (19, 0)], [(0, 25636124615353731),
    (0, 225518987345), (22525168, 0), (0, 1237)], [(18911563809284, 0), (0, 711715225), (0, 13111), (0, 9)],
    [(9477554234, 0), (0, 289663), (152, 0)]], 3, 4⟩, 72057594037927936, 11231634201022, 3868962633096,
    ⟨[[(11864581813962, 0), (13397004198, 0), (15467669, 0), (8778, 0), (0, 8)], [(0, 16371246183), (0, 65189813),
    (0, 124105), (0, 97)], [(61705519, 0), (352500, 0), (847, 0), (1, 0)], [(0, 280586), (0, 1962), (0, 5)]], 3, 4⟩,
    17592186044416, 759819782,
    3214846336540203601046216306901338572372371210316485978689147522208434403267470295703533159139258472146460708928104246483767871,
    lc0⟩) (.leaf ⟨266, 16, 368, 344, 16, 1377, ⟨[[(32130331086671872, 0), (0, 1885649889897450), (40468768808, 0),
    (0, 418622), (1, 0)], [(28233495274773449, 0), (0, 3332179790858), (56092196, 0), (0, 1001)], [(61889622177007,
    0), (0, 2731068684), (0, 22194), (12, 0)], [(86665555672, 0), (93796, 0), (0, 196)]], 3, 4⟩,
    ⟨[[(10510670882127872, 0), (0, 2237473203597976), (29975213915, 0), (0, 421320), (7, 0)], [(0,
    25875337120114475), (0, 204752485619), (21159221, 0), (0, 699)], [(18644508808992, 0), (0, 736205480), (0,
    28837), (0, 11)], [(9420493710, 0), (0, 124551), (180, 0)]], 3, 4⟩, 72057594037927936, 12076289549438,
    3893040424698, ⟨[[(11864711012996, 0), (13692347324, 0), (16553053, 0), (10386, 0), (0, 4)], [(0, 16266573382),
    (0, 67491566), (0, 135739), (0, 118)], [(61974395, 0), (372278, 0), (945, 0), (1, 0)], [(0, 285756), (0, 2111),
    (0, 6)]], 3, 4⟩, 17592186044416, 756464983,
    3776386747103347956956621929435572527684733481438761884837409902845795108965918176762201648686357050973142618202021433361008596,
    lc0⟩)) (.sy (.sx (.leaf ⟨368, 16, 461, 467, 16, 1844, ⟨[[(0, 4283820186873856), (0, 2550550934640782),
    (53665454863, 0), (0, 500350), (0, 30)], [(21402939685091541, 0), (0, 2228315353001), (33515492, 0), (491, 0)],
    [(22480386436725, 0), (0, 827128869), (0, 22103), (5, 0)], [(14709023430, 0), (145668, 0), (0, 57)]], 3, 4⟩,
    ⟨[[(10682447005179904, 0), (0, 3047556690449110), (41958083373, 0), (0, 665002), (35, 0)], [(0,
    16430477561252151), (0, 182544681214), (14907363, 0), (0, 1197)], [(6704007204141, 0), (0, 249131028), (399, 0),
    (0, 3)], [(2006096352, 0), (0, 54278), (25, 0)]], 3, 4⟩, 72057594037927936, 958637308940, 337793645315,
    ⟨[[(11512893879579, 0), (9105698334, 0), (7535078, 0), (3175, 0), (0, 1)], [(0, 10877499453), (0, 30852082), (0,
    42570), (0, 26)], [(28405032, 0), (116664, 0), (208, 0)], [(0, 90519), (0, 461), (0, 1)]], 3, 4⟩, 17592186044416,
    93166688,
    1624225571400501023136084447717305849010854978021692260124954600459360588795269460047027283629390385160484399547982516162117635,
    lc0⟩) (.leaf ⟨359, 16, 435, 462, 16, 1860, ⟨[[(35615025233940480, 0), (0, 2496378298660513), (51926076412, 0),
    (0, 443171), (0, 40)], [(22052421956173894, 0), (0, 2167353222664), (29571072, 0), (927, 0)], [(23007342551488,
    0), (0, 758828646), (0, 28286), (6, 0)], [(14609962701, 0), (207743, 0), (0, 65)]], 3, 4⟩, ⟨[[(0,
    20939394862764032), (0, 3082180548048156), (42956253859, 0), (0, 725863), (40, 0)], [(0, 15993825421692273), (0,
    205537792033), (15202653, 0), (0, 1411)], [(7034440226640, 0), (0, 258590898), (3523, 0), (0, 2)], [(2297839549,
    0), (0, 61430), (24, 0)]], 3, 4⟩, 72057594037927936, 907533921044, 335320945956, ⟨[[(11303770402690, 0),
    (8538948978, 0), (6838396, 0), (2822, 0), (0, 1)], [(0, 10555450743), (0, 28865302), (0, 38745), (0, 24)],
    [(27397305, 0), (108981, 0), (190, 0)], [(0, 87493), (0, 433), (0, 1)]], 3, 4⟩, 17592186044416, 101610248,
    879989141781822121044113390315049694467147206840268417530524324837591543398533944217986158157597090388234949177166604760683071,
    lc0⟩)) (.sx (.leaf ⟨363, 16, 477, 450, 16, 1859, ⟨[[(0, 34696869607825408), (0, 2583728580355223), (54708237097,
    0), (0, 566250), (0, 17)], [(20997121769571608, 0), (0, 2270598528539), (35006743, 0), (0, 73)],
    [(22825922775447, 0), (0, 874644118), (0, 14692), (5, 0)], [(15281301178, 0), (97146, 0), (0, 48)]], 3, 4⟩,
    ⟨[[(0, 22259991086583808), (0, 3030369073785738), (41336445094, 0), (0, 612923), (22, 0)], [(0,
    16652870947069190), (0, 169785093418), (13419929, 0), (0, 915)], [(6632212303949, 0), (0, 252874084), (0, 3965),
    (0, 3)], [(2001732135, 0), (0, 26839), (30, 0)]], 3, 4⟩, 72057594037927936, 1027345610151, 341698841927,
    ⟨[[(11512554122601, 0), (9258129799, 0), (7972896, 0), (3645, 0), (0, 1)], [(0, 10856127023), (0, 31885162), (0,
    46229), (0, 31)], [(28777299, 0), (123560, 0), (231, 0)], [(0, 93076), (0, 499), (0, 1)]], 3, 4⟩, 17592186044416,
    96311036,
    2295672152935694715464782891550536685668100781568025277883656031354403334521855338945843794071394562786692289468521353032131341,
    lc0⟩) (.leaf ⟨354, 16, 450, 444, 16, 1875, ⟨[[(6235706992852992, 0), (0, 2528894568517311), (52970588925, 0), (0,
    527888), (0, 28)], [(21695133486917355, 0), (0, 2210796373864), (31601255, 0), (382, 0)], [(23400022370917, 0),
    (0, 809824946), (0, 20285), (6, 0)], [(15205634230, 0), (152819, 0), (0, 57)]], 3, 4⟩, ⟨[[(0, 4509117535453184),
    (0, 3064095181512383), (42255902985, 0), (0, 662380), (28, 0)], [(0, 16223130764757227), (0, 192826628815),
    (13359798, 0), (0, 1174)], [(6960905872654, 0), (0, 258931121), (0, 207), (0, 3)], [(2291827407, 0), (0, 34991),
    (29, 0)]], 3, 4⟩, 72057594037927936, 978222365549, 340010974008, ⟨[[(11297554179941, 0), (8666200915, 0),
    (7218014, 0), (3231, 0)], [(0, 10505227037), (0, 29716398), (0, 41921), (0, 28)], [(27641585, 0), (114861, 0),
    (211, 0)], [(0, 89313), (0, 466), (0, 1)]], 3, 4⟩, 17592186044416, 103112040,
    1422787976087952932198987580885304498326566937002034802043207305887403197799100318498750025567995192312846123600313474534883196,
    lc0⟩)))) (.sx (.sy (.sx (.leaf ⟨377, 16, 556, 445, 16, 1842, ⟨[[(15642113292869632, 0), (0, 2736531821741007),
    (59344423451, 0), (0, 581179), (27, 0)], [(19136900355989477, 0), (0, 2431917008310), (40813933, 0), (0, 1545)],
    [(21841550700341, 0), (0, 1035150036), (0, 578), (3, 0)], [(15881307273, 0), (0, 35461), (0, 19)]], 3, 4⟩, ⟨[[(0,
    18132705368260608), (0, 2950744069311007), (38957671856, 0), (0, 564250), (0, 14)], [(0, 17626366737917266), (0,
    112090690582), (14499935, 0), (194, 0)], [(6013875345559, 0), (0, 259675010), (0, 18097), (0, 5)], [(1434713233,
    0), (11367, 0), (34, 0)]], 3, 4⟩, 72057594037927936, 1188117833429, 363360515940, ⟨[[(11984245305932, 0),
    (10830655932, 0), (10418826, 0), (5324, 0), (0, 1)], [(0, 11692130392), (0, 38526611), (0, 61827), (0, 42)],
    [(32111637, 0), (153953, 0), (308, 0)], [(0, 107255), (0, 630), (0, 1)]], 3, 4⟩, 17592186044416, 95531348,
    3805896324543426297168930250775959668054330533968615533376751898996271771101548686681249310398131218283535505952062387957213330,
    lc0⟩) (.leaf ⟨367, 16, 524, 438, 16, 1857, ⟨[[(0, 33248747009298432), (0, 2677018123196758), (57541979462, 0),
    (0, 602481), (12, 0)], [(19845418121272399, 0), (0, 2374001311912), (38307117, 0), (0, 1137)], [(22528267799198,
    0), (0, 977104151), (0, 3437), (4, 0)], [(15889485998, 0), (10036, 0), (0, 28)]], 3, 4⟩, ⟨[[(11714773813194752,
    0), (0, 2979979999774367), (39859292885, 0), (0, 568811), (0, 4)], [(0, 17252479355479052), (0, 134931310162),
    (13271966, 0), (0, 188)], [(6262596752331, 0), (0, 260305640), (0, 13779), (0, 4)], [(1723189313, 0), (11272, 0),
    (36, 0)]], 3, 4⟩, 72057594037927936, 1143739000486, 353972682228, ⟨[[(11735610511569, 0), (10090110599, 0),
    (9389754, 0), (4740, 0), (0, 1)], [(0, 11225227768), (0, 35612379), (0, 55924), (0, 39)], [(30492176, 0),
    (142048, 0), (284, 0)], [(0, 101096), (0, 586), (0, 1)]], 3, 4⟩, 17592186044416, 97838684,
    3810234591320432447066965227950948720874582043865187938561518860400627590584707775560291285324810610620591322244899681601190539,
    lc0⟩)) (.sx (.leaf ⟨372, 16, 577, 428, 16, 1857, ⟨[[(0, 7615184867647488), (0, 2778497027927048), (60730577904,
    0), (0, 524961), (51, 0)], [(18603214941030540, 0), (0, 2482620028318), (39452963, 0), (0, 2255)],
    [(22127517801958, 0), (0, 1072256441), (4425, 0), (3, 0)], [(16458898136, 0), (0, 49480), (0, 6)]], 3, 4⟩, ⟨[[(0,
    15692243907272704), (0, 2935781081486788), (38385240471, 0), (0, 620098), (0, 37)], [(0, 17822904623910077), (0,
    98030058809), (15365976, 0), (819, 0)], [(5926200032476, 0), (0, 283939592), (0, 26100), (0, 6)], [(1461355805,
    0), (49067, 0), (40, 0)]], 3, 4⟩, 72057594037927936, 1252033639266, 375159367007, ⟨[[(11980263149806, 0),
    (11042127071, 0), (11116940, 0), (6108, 0), (0, 1)], [(0, 11674567513), (0, 40104512), (0, 67983), (0, 48)],
    [(32654170, 0), (164889, 0), (349, 0)], [(0, 112311), (0, 697), (0, 2)]], 3, 4⟩, 17592186044416, 104439489,
    5104524927313708324474878501501679550526542783033255114990367012247658311623980990445258747536383303360432249895264745573751216,
    lc0⟩) (.leaf ⟨361, 16, 544, 421, 16, 1872, ⟨[[(27004804549468160, 0), (0, 2719680906607688), (58826284725, 0),
    (0, 578482), (34, 0)], [(19375493739876827, 0), (0, 2425739932396), (37500643, 0), (0, 1836)], [(22878550670804,
    0), (0, 1014708066), (2836, 0), (4, 0)], [(16494841509, 0), (0, 12638), (0, 16)]], 3, 4⟩, ⟨[[(0,
    6255030094815232), (0, 2964146694921193), (39302520919, 0), (0, 600199), (0, 23)], [(0, 17456755508909205), (0,
    122598657356), (13498698, 0), (368, 0)], [(6177376785001, 0), (0, 279853178), (0, 21066), (0, 5)], [(1752441298,
    0), (50755, 0), (42, 0)]], 3, 4⟩, 72057594037927936, 1207798380733, 360970850999, ⟨[[(11747672543199, 0),
    (10326070901, 0), (10077172, 0), (5500, 0), (0, 1)], [(0, 11270642627), (0, 37346399), (0, 62132), (0, 46)],
    [(31278890, 0), (153847, 0), (327, 0)], [(0, 107002), (0, 657), (0, 2)]], 3, 4⟩, 17592186044416, 108517242,
    5087177423413453105347950364783603060387947827705283873163666223334224359472646879089327545374555318928682445795288657481637448,
    lc0⟩))) (.sy (.sx (.leaf ⟨357, 16, 494, 432, 16, 1873, ⟨[[(0, 425334072246272), (0, 2619376704232743),
    (55756468807, 0), (0, 605243), (0, 1)], [(20574090523704274, 0), (0, 2315333037065), (35680117, 0), (0, 689)],
    [(23181545527686, 0), (0, 917086846), (0, 7331), (5, 0)], [(15864836593, 0), (56352, 0), (0, 38)]], 3, 4⟩, ⟨[[(0,
    3476797622329344), (0, 3011833951158908), (40743123348, 0), (0, 589071), (6, 0)], [(0, 16860854562119640), (0,
    158094492963), (12411219, 0), (0, 535)], [(6552826985086, 0), (0, 261379000), (0, 9318), (0, 4)], [(2011399649,
    0), (6454, 0), (36, 0)]], 3, 4⟩, 72057594037927936, 1094449801649, 344806467273, ⟨[[(11515398362119, 0),
    (9442465222, 0), (8500728, 0), (4218, 0)], [(0, 10863567302), (0, 33195317), (0, 50851), (0, 36)], [(29316420,
    0), (132396, 0), (263, 0)], [(0, 96861), (0, 550), (0, 1)]], 3, 4⟩, 17592186044416, 102952429,
    3390288878565411713071234470498904349655192366776349385462072575164324700195877905883513322104248346156829446968359007824334233,
    lc0⟩) (.leaf ⟨348, 16, 465, 426, 16, 1890, ⟨[[(0, 9030056372453376), (0, 2558660896408591), (53878843951, 0), (0,
    588022), (0, 13)], [(21279750771558516, 0), (0, 2251558076975), (32794086, 0), (0, 211)], [(23755404145276, 0),
    (0, 853423285), (0, 12196), (6, 0)], [(15777845194, 0), (104243, 0), (0, 48)]], 3, 4⟩, ⟨[[(8609922197352448, 0),
    (0, 3046335562009912), (41625037350, 0), (0, 623684), (15, 0)], [(0, 16447235471223601), (0, 181664424566),
    (11926405, 0), (0, 846)], [(6885146743952, 0), (0, 263463735), (0, 4845), (0, 3)], [(2300417743, 0), (0, 2571),
    (36, 0)]], 3, 4⟩, 72057594037927936, 1046164399742, 342009691220, ⟨[[(11293806957190, 0), (8806999438, 0),
    (7643204, 0), (3709, 0)], [(0, 10487135170), (0, 30752291), (0, 45722), (0, 32)], [(28037507, 0), (122118, 0),
    (238, 0)], [(0, 92122), (0, 509), (0, 1)]], 3, 4⟩, 17592186044416, 108293201,
    2530442405442512932513366047917933526735697204481851665997834163835613386295359960650348838304204759583532550903408015448406541,
    lc0⟩)) (.sx (.leaf ⟨351, 16, 512, 414, 16, 1888, ⟨[[(20881142562353152, 0), (0, 2657272637318194), (56851653167,
    0), (0, 609724), (19, 0)], [(20128314092691471, 0), (0, 2363271803659), (35417333, 0), (0, 1365)],
    [(23547799698223, 0), (0, 954272214), (0, 4), (5, 0)], [(16463236849, 0), (24655, 0), (0, 27)]], 3, 4⟩,
    ⟨[[(29054646879182848, 0), (0, 2995168579325256), (40175933537, 0), (0, 598651), (0, 11)], [(0,
    17072785371217362), (0, 147090057468), (12056833, 0), (0, 45)], [(6470159284498, 0), (0, 276034773), (0, 15823),
    (0, 5)], [(2040520759, 0), (46433, 0), (43, 0)]], 3, 4⟩, 72057594037927936, 1160439942463, 351094920497,
    ⟨[[(11514396872364, 0), (9623382518, 0), (9066375, 0), (4883, 0), (0, 1)], [(0, 10854927208), (0, 34549153), (0,
    56057), (0, 42)], [(29809366, 0), (141923, 0), (299, 0)], [(0, 101034), (0, 609), (0, 1)]], 3, 4⟩,
    17592186044416, 111741223,
    4818993188489257554032191210769216468864943348652403718815884136750735928229990222278778465824978621211323563582277829371117022,
    lc0⟩) (.leaf ⟨342, 16, 481, 408, 16, 1905, ⟨[[(0, 28840174726623232), (0, 2591209762896828), (54804785123, 0),
    (0, 618030), (4, 0)], [(20851284601478848, 0), (0, 2295297895712), (33114590, 0), (0, 857)], [(24127186046243,
    0), (0, 891107759), (0, 4034), (6, 0)], [(16363263922, 0), (63490, 0), (0, 38)]], 3, 4⟩, ⟨[[(18434963386228736,
    0), (0, 3028859195796505), (41023683125, 0), (0, 613881), (0, 1)], [(0, 16666754071046568), (0, 171578000017),
    (11053389, 0), (0, 415)], [(6804799024144, 0), (0, 273205587), (0, 10531), (0, 4)], [(2326952102, 0), (36690, 0),
    (43, 0)]], 3, 4⟩, 72057594037927936, 1111296927060, 342956506387, ⟨[[(11289808213838, 0), (8954614913, 0),
    (8109768, 0), (4274, 0), (0, 1)], [(0, 10463673246), (0, 31862383), (0, 50066), (0, 38)], [(28408976, 0),
    (130064, 0), (269, 0)], [(0, 95263), (0, 558), (0, 1)]], 3, 4⟩, 17592186044416, 115922207,
    4019332703822246518299900776985725786604776577493450730571325437468873792008843616199568089461889962696703591470599365868602110,
    lc0⟩))))
theorem c36 : checkR job con0 true ⟨7, 9, 7, 9, 13, 17⟩ 1 9016 t36 537 21 320 14745 251 16000 = true := by decide +kernel

def t37 : CTree :=
  .sy (.sx (.sy (.sx (.leaf ⟨352, 16, 411, 457, 16, 1877, ⟨[[(25298092562030592, 0), (0, 2445902469016661),
    (50182782279, 0), (0, 371600), (0, 49)], [(22735991646852450, 0), (0, 2106832061762), (25352209, 0), (1378, 0)],
    [(23520634563244, 0), (0, 687566916), (0, 35113), (6, 0)], [(14491344880, 0), (271952, 0), (0, 72)]], 3, 4⟩,
    ⟨[[(0, 21754969499336704), (0, 3119527567588882), (44001252816, 0), (0, 795991), (44, 0)], [(0,
    15530954741149760), (0, 229678871394), (15765843, 0), (0, 1594)], [(7408250212359, 0), (0, 269282965), (6507, 0),
    (0, 2)], [(2593791227, 0), (0, 70437), (22, 0)]], 3, 4⟩, 72057594037927936, 857002347277, 334672837585,
    ⟨[[(11091411618850, 0), (7978407370, 0), (6163309, 0), (2478, 0)], [(0, 10184054014), (0, 26761608), (0, 34812),
    (0, 21)], [(26102946, 0), (100195, 0), (170, 0)], [(0, 83127), (0, 397), (0, 1)]], 3, 4⟩, 17592186044416,
    109405792,
    1264507283890760099801499564499288185344027948605596065757771408337377792795767865813810917031632086248689178768919548673173040,
    lc0⟩) (.leaf ⟨346, 16, 388, 452, 16, 1895, ⟨[[(0, 21516132540211200), (0, 2393686796320924), (48315979738, 0),
    (0, 285160), (0, 57)], [(23402361171029388, 0), (0, 2041957581099), (20768975, 0), (1835, 0)], [(23968565673315,
    0), (0, 611729288), (0, 42429), (7, 0)], [(14320136699, 0), (338033, 0), (0, 79)]], 3, 4⟩, ⟨[[(8955696681459712,
    0), (0, 3159667154783513), (45104955425, 0), (0, 874249), (48, 0)], [(0, 15037287583263509), (0, 255110997949),
    (16584738, 0), (0, 1748)], [(7826618747442, 0), (0, 281420095), (9278, 0), (0, 1)], [(2894008399, 0), (0, 80656),
    (20, 0)]], 3, 4⟩, 72057594037927936, 798204483843, 334715484983, ⟨[[(10878658227810, 0), (7433534410, 0),
    (5523537, 0), (2159, 0)], [(0, 9803196252), (0, 24684946), (0, 31032), (0, 18)], [(24722481, 0), (91344, 0),
    (150, 0)], [(0, 78359), (0, 359), (0, 1)]], 3, 4⟩, 17592186044416, 118388451,
    1739447714619729163541750870474914218342747134273265459502372997385010400869327275214804014660104448216219905112688179889718067,
    lc0⟩)) (.sx (.leaf ⟨346, 16, 424, 439, 16, 1892, ⟨[[(7034919704694784, 0), (0, 2471603389732437), (51122738117,
    0), (0, 472192), (0, 38)], [(22370805035172035, 0), (0, 2146281401407), (27866284, 0), (851, 0)],
    [(23900211003717, 0), (0, 740806707), (0, 26586), (6, 0)], [(15072553330, 0), (210425, 0), (0, 65)]], 3, 4⟩,
    ⟨[[(0, 29169474259726336), (0, 3100512151089804), (43207025309, 0), (0, 722805), (34, 0)], [(0,
    15767482883670519), (0, 216726667947), (13617662, 0), (0, 1400)], [(7332597434500, 0), (0, 266362948), (3423, 0),
    (0, 2)], [(2585002146, 0), (0, 45733), (28, 0)]], 3, 4⟩, 72057594037927936, 924381108545, 337659913316,
    ⟨[[(11089699893946, 0), (8099907360, 0), (6502314, 0), (2834, 0)], [(0, 10168442202), (0, 27614672), (0, 37728),
    (0, 24)], [(26508192, 0), (106138, 0), (190, 0)], [(0, 85535), (0, 431), (0, 1)]], 3, 4⟩, 17592186044416,
    111567089,
    1453426107930245604817379691434758478208759819738581223588761541035375289931212734725949845363664900907610205269729231081150572,
    lc0⟩) (.leaf ⟨339, 16, 400, 434, 16, 1910, ⟨[[(27029111602933760, 0), (0, 2417959473727887), (49284122855, 0),
    (0, 400903), (0, 47)], [(23074997103481947, 0), (0, 2082325635308), (23836511, 0), (1329, 0)], [(24383117951068,
    0), (0, 669413593), (0, 33552), (7, 0)], [(14918116243, 0), (270840, 0), (0, 73)]], 3, 4⟩, ⟨[[(0,
    23486564547674112), (0, 3139676716170693), (44203599545, 0), (0, 792913), (39, 0)], [(0, 15281401360222467), (0,
    241641120045), (14181700, 0), (0, 1591)], [(7748338726715, 0), (0, 275467114), (6834, 0), (0, 2)], [(2881662642,
    0), (0, 58312), (25, 0)]], 3, 4⟩, 72057594037927936, 869332021115, 334367690699, ⟨[[(10888629469985, 0),
    (7568429848, 0), (5849577, 0), (2483, 0)], [(0, 9836532434), (0, 25620950), (0, 33853), (0, 21)], [(25351299, 0),
    (97694, 0), (170, 0)], [(0, 81660), (0, 396), (0, 1)]], 3, 4⟩, 17592186044416, 121593299,
    2144033409682866887878205043772377440720102251535212950163577228685419099357343229471442370273958351829401036713841990449222419,
    lc0⟩))) (.sy (.sx (.leaf ⟨340, 16, 366, 448, 16, 1914, ⟨[[(0, 33553827092078592), (0, 2339854427728935),
    (46322917705, 0), (0, 184757), (0, 65)], [(24047152650047869, 0), (0, 1972811899168), (15815265, 0), (2290, 0)],
    [(24348741839686, 0), (0, 531495166), (0, 50108), (7, 0)], [(14094907623, 0), (405947, 0), (0, 85)]], 3, 4⟩,
    ⟨[[(103411948007424, 0), (0, 3202676907696480), (46278732375, 0), (0, 959493), (51, 0)], [(0, 14508074135263476),
    (0, 281993740609), (17641528, 0), (0, 1871)], [(8290758385638, 0), (0, 295130231), (11772, 0), (0, 1)],
    [(3198065999, 0), (0, 91338), (18, 0)]], 3, 4⟩, 72057594037927936, 731383018226, 329580837514,
    ⟨[[(10682484402104, 0), (6939761467, 0), (4955985, 0), (1883, 0)], [(0, 9487260269), (0, 22881902), (0, 27772),
    (0, 15)], [(23582368, 0), (83888, 0), (133, 0)], [(0, 74621), (0, 326), (0, 1)]], 3, 4⟩, 17592186044416,
    131266287,
    1796185725863605265558175051743580051726164940499203729095717086433755535240653986312399889350876571610441740636329683160916263,
    lc0⟩) (.leaf ⟨334, 16, 345, 444, 16, 1934, ⟨[[(0, 11484990237925376), (0, 2284558186676664), (44201704535, 0),
    (0, 71538), (0, 72)], [(24666594123073015, 0), (0, 1899517835857), (10496454, 0), (2737, 0)], [(24659310290446,
    0), (0, 447051605), (0, 58012), (7, 0)], [(13813849797, 0), (475544, 0), (0, 91)]], 3, 4⟩, ⟨[[(24973707141169152,
    0), (0, 3248643268592899), (47533245534, 0), (0, 1050596), (53, 0)], [(0, 13938387135322487), (0, 310495737249),
    (18913853, 0), (0, 1965)], [(8801839537327, 0), (0, 310443372), (13944, 0), (0, 1)], [(3504881887, 0), (0,
    101645), (15, 0)]], 3, 4⟩, 72057594037927936, 659918966670, 325091317524, ⟨[[(10494552214938, 0), (6482053379,
    0), (4446679, 0), (1645, 0)], [(0, 9207142841), (0, 21259688), (0, 24912), (0, 13)], [(22564173, 0), (77388, 0),
    (119, 0)], [(0, 71556), (0, 298), (0, 1)]], 3, 4⟩, 17592186044416, 148171542,
    1796662802468458638514614385120828333396970794844526644031740314623046452222187488906430246831156748726335693316338358908060647,
    lc0⟩)) (.sx (.leaf ⟨333, 16, 377, 429, 16, 1929, ⟨[[(8254017121873920, 0), (0, 2362448304592942), (47332767101,
    0), (0, 313831), (0, 56)], [(23754151190040850, 0), (0, 2014104753218), (19425796, 0), (1805, 0)],
    [(24793599006232, 0), (0, 593924018), (0, 40995), (7, 0)], [(14706942938, 0), (333856, 0), (0, 80)]], 3, 4⟩,
    ⟨[[(13481658619969536, 0), (0, 3181654346824512), (45258902558, 0), (0, 871422), (44, 0)], [(0,
    14760198403371346), (0, 267748703309), (15033297, 0), (0, 1750)], [(8209258286183, 0), (0, 286441674), (9949, 0),
    (0, 1)], [(3181788568, 0), (0, 71841), (23, 0)]], 3, 4⟩, 72057594037927936, 802616288295, 332719393262,
    ⟨[[(10686624229254, 0), (7051404949, 0), (5231579, 0), (2159, 0)], [(0, 9493579168), (0, 23648405), (0, 30133),
    (0, 18)], [(24099720, 0), (89165, 0), (150, 0)], [(0, 77393), (0, 358), (0, 1)]], 3, 4⟩, 17592186044416,
    133204121,
    2560584262021422946956058900299030904955552953278832451271292038256881179494224948361173960901861146829891757105940737680228520,
    lc0⟩) (.leaf ⟨327, 16, 355, 425, 16, 1949, ⟨[[(21544121274060800, 0), (0, 2305204314493757), (45265044136, 0),
    (0, 212264), (0, 64)], [(24403431419672997, 0), (0, 1941740477505), (14632378, 0), (2273, 0)], [(25129032416956,
    0), (0, 514417357), (0, 48757), (7, 0)], [(14437023853, 0), (399447, 0), (0, 86)]], 3, 4⟩, ⟨[[(10875505699516416,
    0), (0, 3226520129446717), (46385455247, 0), (0, 957081), (48, 0)], [(0, 14199014822150933), (0, 295242274790),
    (16148326, 0), (0, 1875)], [(8716495114623, 0), (0, 299369090), (12712, 0), (0, 1)], [(3484747727, 0), (0,
    85324), (19, 0)]], 3, 4⟩, 72057594037927936, 731986324200, 326251898810, ⟨[[(10499945192353, 0), (6582609601, 0),
    (4684185, 0), (1878, 0)], [(0, 9211651377), (0, 21937055), (0, 26932), (0, 16)], [(23072213, 0), (81995, 0),
    (133, 0)], [(0, 74132), (0, 326), (0, 1)]], 3, 4⟩, 17592186044416, 149823336,
    2657815170120014858307314864556679992265212422706941254318480149374935411166828101678612943670764197062477626783185059739019445,
    lc0⟩)))) (.sx (.sy (.sx (.leaf ⟨340, 16, 438, 420, 16, 1907, ⟨[[(0, 5631602345918464), (0, 2500577787940354),
    (52023924767, 0), (0, 552322), (0, 25)], [(22003801591551250, 0), (0, 2187732270476), (29663713, 0), (284, 0)],
    [(24299090705457, 0), (0, 788036499), (0, 17965), (6, 0)], [(15663198123, 0), (154641, 0), (0, 58)]], 3, 4⟩,
    ⟨[[(32573651263340544, 0), (0, 3081904336213335), (42498859462, 0), (0, 670874), (23, 0)], [(0,
    15998859865631128), (0, 205662949014), (11809754, 0), (0, 1119)], [(7256512944507, 0), (0, 266917469), (0, 485),
    (0, 3)], [(2589893542, 0), (0, 15089), (34, 0)]], 3, 4⟩, 72057594037927936, 991345949795, 337119460421,
    ⟨[[(11080969151501, 0), (8216843372, 0), (6866741, 0), (3254, 0)], [(0, 10124720614), (0, 28464321), (0, 40976),
    (0, 28)], [(26782615, 0), (112255, 0), (213, 0)], [(0, 87530), (0, 468), (0, 1)]], 3, 4⟩, 17592186044416,
    115117277,
    1419671582995790166215615170685106809573235808013281658615548733206696225971364169710393807018438131308410342168128835258955796,
    lc0⟩) (.leaf ⟨332, 16, 412, 415, 16, 1925, ⟨[[(27575968399716352, 0), (0, 2439867774378280), (50073621889, 0),
    (0, 497613), (0, 35)], [(22696901632882024, 0), (0, 2119257086109), (26175495, 0), (787, 0)], [(24760630189782,
    0), (0, 719102480), (0, 24484), (7, 0)], [(15487492848, 0), (207914, 0), (0, 66)]], 3, 4⟩, ⟨[[(13655387084222464,
    0), (0, 3120190209426282), (43402313371, 0), (0, 729482), (29, 0)], [(0, 15520262690863165), (0, 230343087867),
    (12056266, 0), (0, 1353)], [(7671298005135, 0), (0, 272280563), (3646, 0), (0, 2)], [(2881720981, 0), (0, 30210),
    (31, 0)]], 3, 4⟩, 72057594037927936, 935649666924, 335570161101, ⟨[[(10884795487352, 0), (7681113002, 0),
    (6174681, 0), (2850, 0)], [(0, 9829938947), (0, 26480002), (0, 36827), (0, 25)], [(25800904, 0), (103898, 0),
    (192, 0)], [(0, 84268), (0, 433), (0, 1)]], 3, 4⟩, 17592186044416, 126157383,
    2383320808250270440085825868303810784362812656877259123305034840017973123421786852268361589205896537026941269371862959798240051,
    lc0⟩)) (.sx (.leaf ⟨334, 16, 453, 402, 16, 1922, ⟨[[(0, 19246026968723456), (0, 2532636016166933), (52914715326,
    0), (0, 606220), (0, 9)], [(21629252770281798, 0), (0, 2231786634537), (30653536, 0), (0, 331)],
    [(24718225364075, 0), (0, 828924166), (0, 9175), (6, 0)], [(16265745749, 0), (105280, 0), (0, 49)]], 3, 4⟩,
    ⟨[[(19341990480363520, 0), (0, 3063642712365467), (41842563919, 0), (0, 643895), (9, 0)], [(0,
    16225889718509672), (0, 196091487823), (10483451, 0), (0, 741)], [(7178033422518, 0), (0, 271863813), (0, 5338),
    (0, 4)], [(2611773780, 0), (22334, 0), (41, 0)]], 3, 4⟩, 72057594037927936, 1055513260852, 338030155556,
    ⟨[[(11080634565391, 0), (8354288416, 0), (7276679, 0), (3747, 0)], [(0, 10105042067), (0, 29460673), (0, 44774),
    (0, 34)], [(27132870, 0), (119348, 0), (241, 0)], [(0, 90142), (0, 511), (0, 1)]], 3, 4⟩, 17592186044416,
    121580231,
    2728897247851516801974412760545699382409700552747188474675469770873168873684148403417548058287244805739585509519349234872885251,
    lc0⟩) (.leaf ⟨326, 16, 426, 397, 16, 1940, ⟨[[(20326998055133184, 0), (0, 2471199213635440), (50952681819, 0),
    (0, 572528), (0, 21)], [(22375041969288619, 0), (0, 2163634888538), (27833928, 0), (206, 0)], [(25223225529523,
    0), (0, 763887129), (0, 15278), (7, 0)], [(16105182103, 0), (150774, 0), (0, 59)]], 3, 4⟩, ⟨[[(0,
    23793279384920064), (0, 3101130157824593), (42672350759, 0), (0, 687300), (18, 0)], [(0, 15754833726918616), (0,
    220889817973), (10341776, 0), (0, 1023)], [(7593926670751, 0), (0, 272682351), (0, 388), (0, 3)], [(2897377302,
    0), (4439, 0), (38, 0)]], 3, 4⟩, 72057594037927936, 1000016166385, 329455812420, ⟨[[(10887903470261, 0),
    (7809869088, 0), (6535523, 0), (3277, 0)], [(0, 9815173760), (0, 27383604), (0, 40147), (0, 30)], [(26153525, 0),
    (110317, 0), (216, 0)], [(0, 86538), (0, 471), (0, 1)]], 3, 4⟩, 17592186044416, 131398759,
    2156705728158077160350357407697556964981808366692491704239279642886558900348198641910550728524018843129394420449029996547317520,
    lc0⟩))) (.sy (.sx (.leaf ⟨326, 16, 388, 410, 16, 1944, ⟨[[(4701970222243840, 0), (0, 2382742250405368),
    (48146523492, 0), (0, 426188), (0, 45)], [(23411916812954910, 0), (0, 2051537731550), (22362672, 0), (1289, 0)],
    [(25200430149246, 0), (0, 648298352), (0, 31666), (7, 0)], [(15288484044, 0), (265033, 0), (0, 74)]], 3, 4⟩,
    ⟨[[(24834936300195840, 0), (0, 3161244392570632), (44350838256, 0), (0, 798048), (35, 0)], [(0,
    15006828586704430), (0, 255903948983), (12646079, 0), (0, 1549)], [(8130506856343, 0), (0, 279836900), (7455, 0),
    (0, 2)], [(3176363514, 0), (0, 46883), (28, 0)]], 3, 4⟩, 72057594037927936, 870131335664, 329600982008,
    ⟨[[(10684978934862, 0), (7153241926, 0), (5511092, 0), (2469, 0)], [(0, 9487701320), (0, 24402257), (0, 32659),
    (0, 21)], [(24543047, 0), (94610, 0), (168, 0)], [(0, 79819), (0, 391), (0, 1)]], 3, 4⟩, 17592186044416,
    136864873,
    2931135319672963478880142661760465461526542278113354933529347029768401278028270099441094748007753077203102429655533294804606847,
    lc0⟩) (.leaf ⟨320, 16, 365, 406, 16, 1965, ⟨[[(12182501920006144, 0), (0, 2323610096709082), (46118107479, 0),
    (0, 338218), (0, 54)], [(24092709805317949, 0), (0, 1979705908606), (18145742, 0), (1782, 0)], [(25559666509767,
    0), (0, 573763283), (0, 39285), (7, 0)], [(15028250021, 0), (325792, 0), (0, 81)]], 3, 4⟩, ⟨[[(10122058956800000,
    0), (0, 3206760493668190), (45382140610, 0), (0, 875607), (41, 0)], [(0, 14461139044333745), (0, 282708836901),
    (13559534, 0), (0, 1710)], [(8639614436609, 0), (0, 289881196), (10878, 0), (0, 1)], [(3475499079, 0), (0,
    63955), (25, 0)]], 3, 4⟩, 72057594037927936, 800677877768, 327875455253, ⟨[[(10498733498289, 0), (6669222705, 0),
    (4918170, 0), (2136, 0)], [(0, 9202046763), (0, 22579736), (0, 29040), (0, 18)], [(23500977, 0), (86689, 0),
    (148, 0)], [(0, 76423), (0, 356), (0, 1)]], 3, 4⟩, 17592186044416, 152674119,
    3260016602743341768895501672846829526526332362852186351762305812579517412424974493471873584027470550470840966649459757909233610,
    lc0⟩)) (.sx (.leaf ⟨319, 16, 400, 391, 16, 1959, ⟨[[(15088877304700928, 0), (0, 2406955031120234), (48910907780,
    0), (0, 518174), (0, 32)], [(23080232412703704, 0), (0, 2090984020584), (24613398, 0), (741, 0)],
    [(25636975460373, 0), (0, 695829251), (0, 22151), (7, 0)], [(15879901641, 0), (200575, 0), (0, 68)]], 3, 4⟩,
    ⟨[[(34054437880524800, 0), (0, 3141356042377440), (43530969051, 0), (0, 742410), (26, 0)], [(0,
    15249054434114685), (0, 246194230432), (10606728, 0), (0, 1263)], [(8053311458487, 0), (0, 276050061), (4206, 0),
    (0, 2)], [(3184804419, 0), (0, 15752), (34, 0)]], 3, 4⟩, 72057594037927936, 935543217159, 329123007324,
    ⟨[[(10685401220808, 0), (7265155593, 0), (5822053, 0), (2836, 0)], [(0, 9483970789), (0, 25234177), (0, 35571),
    (0, 26)], [(24968976, 0), (100644, 0), (190, 0)], [(0, 82206), (0, 427), (0, 1)]], 3, 4⟩, 17592186044416,
    142636693,
    3215776939189673878589121997078744202660728592473554945745595243703152644401954208771624589907197699449198915595650282269114960,
    lc0⟩) (.leaf ⟨313, 16, 376, 387, 16, 1980, ⟨[[(22183546784751616, 0), (0, 2346228432250640), (46906289440, 0),
    (0, 446084), (0, 42)], [(23799953361900087, 0), (0, 2019357028399), (21027250, 0), (1265, 0)], [(26023965706761,
    0), (0, 626227049), (0, 29649), (7, 0)], [(15629255494, 0), (255663, 0), (0, 76)]], 3, 4⟩, ⟨[[(0,
    8050446568505344), (0, 3185975351609661), (44457868730, 0), (0, 808019), (33, 0)], [(0, 14711300001910202), (0,
    272391414974), (11254214, 0), (0, 1462)], [(8561492713537, 0), (0, 282336385), (8363, 0), (0, 2)], [(3476371022,
    0), (0, 36840), (30, 0)]], 3, 4⟩, 72057594037927936, 867445319737, 321601052740, ⟨[[(10501670598684, 0),
    (6772008000, 0), (5186535, 0), (2442, 0)], [(0, 9201673724), (0, 23321780), (0, 31516), (0, 22)], [(23941361, 0),
    (92063, 0), (167, 0)], [(0, 78699), (0, 388), (0, 1)]], 3, 4⟩, 17592186044416, 157372016,
    3639641019958724258281668378944459572878491738759479083147395250043188745557622584060111265208877629783836877736380405154237159,
    lc0⟩))))
theorem c37 : checkR job con0 true ⟨7, 9, 7, 9, 13, 17⟩ 1 9016 t37 579 21 320 14745 251 16000 = true := by decide +kernel

def t38 : CTree :=
  .sx (.sy (.sx (.sy (.out ⟨312, 16, 289, 1855, 16, 1765, ⟨[[(35695574044774400, 0), (0, 2127935257155386),
    (35098986233, 0)], [(25704301884542223, 0), (0, 1595939077615), (0, 18381739)], [(22489514045130, 0), (259095,
    0), (0, 101427)]], 2, 2⟩, ⟨[[(26689085121953792, 0), (0, 3327008056130342), (54197184063, 0)], [(0,
    11887632791829346), (0, 423571281626), (30438588, 0)], [(9557184074057, 0), (0, 369451298), (13359, 0)]], 2, 2⟩,
    72057594037927936, 115093487193664, 61127835387141, ⟨[], 0, 0⟩, 0, 0, 0, lc0⟩ 0 166 13) (.sx (.leaf ⟨470, 16,
    410, 569, 16, 2167, ⟨[[(0, 10220357015302144), (0, 2944192078988973), (51289224151, 0), (693821, 0), (0, 124)],
    [(17329927542182708, 0), (0, 1141106866883), (0, 6934483), (2898, 0)], [(7844641895121, 0), (0, 42405801), (0,
    30800), (3, 0)], [(1948059827, 0), (131045, 0), (0, 18)]], 3, 4⟩, ⟨[[(19021669523865600, 0), (0,
    3823156426028674), (60441605644, 0), (0, 1634303), (65, 0)], [(0, 7184418294242906), (0, 226175135653),
    (16117381, 0), (0, 1046)], [(2706000456880, 0), (0, 102789710), (4206, 0)], [(544409008, 0), (0, 17857)]], 3, 4⟩,
    72057594037927936, 50650455004, 28101792409, ⟨[[(10358652152296, 0), (5212786477, 0), (2756493, 0), (714, 0)],
    [(0, 6781174056), (0, 12228088), (0, 10776), (0, 4)], [(11091201, 0), (30022, 0), (34, 0)], [(0, 31381), (0,
    97)]], 3, 4⟩, 17592186044416, 17515702,
    5286690204953403733207107315080324817644172621587041792637302827485138753033329399442353297041843522626717981941359157773142833,
    lc0⟩) (.out ⟨410, 16, 393, 2102, 16, 2027, ⟨[[(0, 4290062298591232), (0, 2868117327575772), (48830058604, 0)],
    [(17252914772219139, 0), (0, 1096524876293), (0, 9219251)], [(7755923982990, 0), (0, 24194788), (0, 31737)]], 2,
    2⟩, ⟨[[(26945313236680704, 0), (0, 3764477000490686), (60035738762, 0)], [(0, 6830167033456126), (0,
    230714134227), (16177480, 0)], [(2726266373768, 0), (0, 103160335), (4141, 0)]], 2, 2⟩, 72057594037927936,
    31940525553097, 31839563711512, ⟨[], 0, 0⟩, 0, 0, 0, lc0⟩ 0 1572 68))) (.out ⟨205, 16, 185, 1045, 16, 1004,
    ⟨[[(8319344339517440, 0), (0, 2787917349710216), (89110813085, 0)], [(17443104902585417, 0), (0, 2053384572962),
    (0, 60259784)], [(15274490765553, 0), (79499515, 0), (0, 280812)]], 2, 2⟩, ⟨[[(0, 97265750769664), (0,
    3774694034770160), (123595066416, 0)], [(0, 6357519735209915), (0, 500236952142), (69044173, 0)],
    [(5666926263164, 0), (0, 429728875), (31093, 0)]], 2, 2⟩, 72057594037927936, 150043801629673, 137366378801748,
    ⟨[], 0, 0⟩, 0, 0, 0, lc0⟩ 0 185 20)) (.sx (.sy (.leaf ⟨343, 16, 309, 480, 16, 1923, ⟨[[(0, 35544418263535616),
    (0, 2197917515107312), (39249734117, 0), (382413, 0), (0, 90)], [(25754973756362002, 0), (0, 1731620533749), (0,
    5998520), (4021, 0)], [(23945009230665, 0), (0, 193255925), (0, 84650), (8, 0)], [(12194411463, 0), (713798, 0),
    (0, 103)]], 3, 4⟩, ⟨[[(0, 11272328607563776), (0, 3343859945990741), (51811630522, 0), (0, 1353966), (58, 0)],
    [(0, 12746265801978789), (0, 381510967477), (26052938, 0), (0, 1953)], [(9546703106615, 0), (0, 353472650),
    (15603, 0)], [(3868346363, 0), (0, 124192), (4, 0)]], 3, 4⟩, 72057594037927936, 431615379317, 317847765843,
    ⟨[[(10312691241146, 0), (5904070175, 0), (3630979, 0), (1125, 0)], [(0, 8984584113), (0, 18734691), (0, 19415),
    (0, 8)], [(20396081, 0), (64001, 0), (86, 0)], [(0, 70462), (0, 253)]], 3, 4⟩, 17592186044416, 158389490,
    2631708186087823649975871613588328501308180560454230048433373954351782602636759561679825439129613053427371953376860576083675953,
    lc0⟩) (.leaf ⟨336, 16, 317, 461, 16, 1939, ⟨[[(0, 13900792876867584), (0, 2214143775757543), (40720760079, 0),
    (214211, 0), (0, 85)], [(25528944769113408, 0), (0, 1779643375558), (0, 333477), (3606, 0)], [(24444506858304,
    0), (0, 279654982), (0, 75380), (7, 0)], [(12851569330, 0), (629233, 0), (0, 99)]], 3, 4⟩, ⟨[[(0,
    34079106976198656), (0, 3320233019012308), (50274387654, 0), (0, 1249149), (57, 0)], [(0, 13039062239121109), (0,
    359816189694), (23256896, 0), (0, 2022)], [(9451205678797, 0), (0, 340483661), (15922, 0)], [(3838983988, 0), (0,
    119378), (8, 0)]], 3, 4⟩, 72057594037927936, 507252012695, 314359283681, ⟨[[(10317343311511, 0), (5982278745, 0),
    (3802551, 0), (1264, 0)], [(0, 8971172952), (0, 19240037), (0, 20797), (0, 10)], [(21075038, 0), (67833, 0), (95,
    0)], [(0, 68412), (0, 256)]], 3, 4⟩, 17592186044416, 164191030,
    907151295409754365536567401774287819728237984399766419677942327482843095733173969114965367468127878515009270671549902705828580,
    lc0⟩)) (.sy (.sx (.leaf ⟨458, 16, 400, 543, 16, 2202, ⟨[[(27569312360071168, 0), (0, 2916028887048205),
    (50451133522, 0), (668897, 0), (0, 127)], [(17669922846812846, 0), (0, 1127237779846), (0, 7537900), (2920, 0)],
    [(8125501934450, 0), (0, 39341224), (0, 30660), (3, 0)], [(2007915069, 0), (130177, 0), (0, 18)]], 3, 4⟩,
    ⟨[[(16866970057621504, 0), (0, 3843173799794470), (60286351101, 0), (0, 1620446), (65, 0)], [(0,
    6946727859542522), (0, 231393133574), (15484927, 0), (0, 1104)], [(2840249593755, 0), (0, 104553169), (4548, 0)],
    [(581576891, 0), (0, 17790)]], 3, 4⟩, 72057594037927936, 49281349511, 27406867253, ⟨[[(10184912137801, 0),
    (4950817775, 0), (2602636, 0), (697, 0)], [(0, 6541141284), (0, 11626129), (0, 10343), (0, 4)], [(10651843, 0),
    (28789, 0), (33, 0)], [(0, 30374), (0, 94)]], 3, 4⟩, 17592186044416, 18877129,
    5259468928896221740721770949725170171556314892643546690021267316306145298619510964324566786622942130331976493295109767437105548,
    lc0⟩) (.out ⟨400, 16, 383, 2102, 16, 2060, ⟨[[(0, 4951519173308416), (0, 2837486559570944), (47950762749, 0)],
    [(17582693973836891, 0), (0, 1081817501061), (0, 9774903)], [(8023627904392, 0), (0, 21345060), (0, 31546)]], 2,
    2⟩, ⟨[[(14796958977589248, 0), (0, 3784835532828245), (59865357131, 0)], [(0, 6586283275962317), (0,
    236014142502), (15587211, 0)], [(2863040375116, 0), (0, 104897652), (4494, 0)]], 2, 2⟩, 72057594037927936,
    32084238534093, 32013493081559, ⟨[], 0, 0⟩, 0, 0, 0, lc0⟩ 0 1532 68)) (.leaf ⟨332, 16, 300, 458, 16, 1961,
    ⟨[[(33104787070152704, 0), (0, 2166561572550030), (38390794825, 0), (358817, 0), (0, 91)], [(26168073039528829,
    0), (0, 1703095204937), (0, 6819360), (4028, 0)], [(24687278063134, 0), (0, 182790564), (0, 83690), (8, 0)],
    [(12489292815, 0), (705802, 0), (0, 102)]], 3, 4⟩, ⟨[[(21906000825901056, 0), (0, 3373804743104471),
    (51861601519, 0), (0, 1349095), (57, 0)], [(0, 12363080177747372), (0, 393468355588), (24909315, 0), (0, 2035)],
    [(10064309058644, 0), (0, 359746173), (16898, 0)], [(4144897087, 0), (0, 123253), (5, 0)]], 3, 4⟩,
    72057594037927936, 417368575657, 305442954277, ⟨[[(10142612109222, 0), (5590951282, 0), (3408561, 0), (1104, 0)],
    [(0, 8716990108), (0, 17860447), (0, 18626), (0, 8)], [(19836708, 0), (61940, 0), (84, 0)], [(0, 69306), (0,
    248)]], 3, 4⟩, 17592186044416, 179693740,
    2571104797126695397223417574859314572762630913604257342197718276047779258725252346555064835882934763554179695524052300219524056,
    lc0⟩)))) (.sy (.out ⟨151, 16, 126, 935, 16, 903, ⟨[[(0, 23286447161313280), (0, 1986472117182856), (57295465739,
    0)], [(26496819966428742, 0), (0, 2762318934875), (0, 135225378)], [(45265370753849, 0), (908626718, 0), (0,
    924595)]], 2, 2⟩, ⟨[[(11757923426533376, 0), (0, 3424877139862670), (115182843000, 0)], [(0, 10100579572800206),
    (0, 1000034564359), (131036734, 0)], [(22026463101958, 0), (0, 1633863394), (104537, 0)]], 2, 2⟩,
    72057594037927936, 470368775228841, 283163194865641, ⟨[], 0, 0⟩, 0, 0, 0, lc0⟩ 0 57 11) (.sx (.sy (.out ⟨295, 16,
    272, 1871, 16, 1838, ⟨[[(18756414466199552, 0), (0, 2063571803973491), (33524354681, 0)], [(26442778785756870,
    0), (0, 1538034153006), (0, 19834490)], [(23841601573653, 0), (15753712, 0), (0, 99377)]], 2, 2⟩, ⟨[[(0,
    24375228824059904), (0, 3390597045144895), (54305941762, 0)], [(0, 11096572219922603), (0, 445111724864),
    (28826019, 0)], [(10623763960442, 0), (0, 385985308), (16036, 0)]], 2, 2⟩, 72057594037927936, 119334129186887,
    66036058007297, ⟨[], 0, 0⟩, 0, 0, 0, lc0⟩ 0 156 13) (.sx (.leaf ⟨448, 16, 390, 517, 16, 2237, ⟨[[(0,
    34771343434764288), (0, 2886478005707253), (49516613505, 0), (641400, 0), (0, 129)], [(18044493640546173, 0), (0,
    1113074496610), (0, 8061287), (2938, 0)], [(8410145835605, 0), (0, 36364526), (0, 30430), (3, 0)], [(2062261962,
    0), (129312, 0), (0, 18)]], 3, 4⟩, ⟨[[(0, 14211947381784576), (0, 3863199539188874), (60075199710, 0), (0,
    1611702), (64, 0)], [(0, 6682768160314421), (0, 237559846265), (14821996, 0), (0, 1147)], [(2984443227628, 0),
    (0, 105919584), (4925, 0)], [(617633100, 0), (0, 17566)]], 3, 4⟩, 72057594037927936, 48918753309, 23913940052,
    ⟨[[(10010005800087, 0), (4685158066, 0), (2437415, 0), (681, 0)], [(0, 6285117384), (0, 10960103), (0, 9792), (0,
    4)], [(10084942, 0), (27109, 0), (32, 0)], [(0, 29404), (0, 91)]], 3, 4⟩, 17592186044416, 19947278,
    5441093831103130810439105571768815940358676780912489679125383287747221104110947023528437204223767332005684972836353363916079261,
    lc0⟩) (.out ⟨391, 16, 373, 2103, 16, 2094, ⟨[[(0, 34277343985766400), (0, 2805420523589217), (46981786522, 0)],
    [(17944066138532239, 0), (0, 1066805634756), (0, 10244587)], [(8293171731516, 0), (0, 18579375), (0, 31259)]], 2,
    2⟩, ⟨[[(0, 24976829224157184), (0, 3807048749301577), (59667074351, 0)], [(0, 6318708347717422), (0,
    242328610366), (14976670, 0)], [(3010886658233, 0), (0, 106272976), (4881, 0)]], 2, 2⟩, 72057594037927936,
    32119628208612, 32253786165623, ⟨[], 0, 0⟩, 0, 0, 0, lc0⟩ 0 746 36))) (.out ⟨197, 16, 176, 1046, 16, 1038, ⟨[[(0,
    26606148412243968), (0, 2732651486211738), (85779646217, 0)], [(18194299947464436, 0), (0, 1999934511421), (0,
    64125438)], [(16357661263546, 0), (98216278, 0), (0, 276992)]], 2, 2⟩, ⟨[[(18840438624681984, 0), (0,
    3820378329325225), (122801776252, 0)], [(0, 5816152254962637), (0, 523368081260), (65043824, 0)],
    [(6263210641663, 0), (0, 443678876), (37411, 0)]], 2, 2⟩, 72057594037927936, 151442165773346, 139604169906066,
    ⟨[], 0, 0⟩, 0, 0, 0, lc0⟩ 0 141 17)))
theorem c38 : checkR job con0 true ⟨7, 9, 7, 9, 13, 17⟩ 1 9016 t38 621 21 320 14243 251 16000 = true := by decide +kernel

def t39 : CTree :=
  .sy (.sy (.sx (.leaf ⟨330, 16, 326, 441, 16, 1955, ⟨[[(0, 27042754796883968), (0, 2234838129969082), (42080763789,
    0), (53347, 0), (0, 79)], [(25335362164915849, 0), (0, 1827843605120), (4843968, 0), (3181, 0)],
    [(24975567487178, 0), (0, 359704216), (0, 66200), (7, 0)], [(13516177455, 0), (548236, 0), (0, 95)]], 3, 4⟩,
    ⟨[[(13007959666253824, 0), (0, 3297661852828799), (48878288476, 0), (0, 1146469), (55, 0)], [(0,
    13323123670285431), (0, 340786183832), (20376094, 0), (0, 2031)], [(9360892128239, 0), (0, 327280641), (15762,
    0)], [(3812508373, 0), (0, 110674), (12, 0)]], 3, 4⟩, 72057594037927936, 582254727017, 318638596181,
    ⟨[[(10311759983242, 0), (6046442177, 0), (3972109, 0), (1426, 0)], [(0, 8910760258), (0, 19640740), (0, 22156),
    (0, 11)], [(21377679, 0), (70684, 0), (104, 0)], [(0, 68209), (0, 269)]], 3, 4⟩, 17592186044416, 163436284,
    1335570290202910209044530420139025424020242786272192153068768851536511482894527691631845298754770906513828047294192502845310483,
    lc0⟩) (.leaf ⟨325, 16, 307, 439, 16, 1978, ⟨[[(0, 6563991206432768), (0, 2177439385601985), (39703033529, 0),
    (188618, 0), (0, 85)], [(25902505017496832, 0), (0, 1746855866287), (0, 1163769), (3601, 0)], [(25148804779401,
    0), (0, 267236741), (0, 74157), (7, 0)], [(13117496687, 0), (620609, 0), (0, 98)]], 3, 4⟩, ⟨[[(0,
    18028855541542912), (0, 3351531812880625), (50348134628, 0), (0, 1246700), (56, 0)], [(0, 12663418921050761), (0,
    373214096659), (22011970, 0), (0, 2071)], [(9973719392451, 0), (0, 345621088), (17227, 0)], [(4119968991, 0), (0,
    117544), (9, 0)]], 3, 4⟩, 72057594037927936, 491724912229, 303338372790, ⟨[[(10140967544963, 0), (5646623971, 0),
    (3548364, 0), (1236, 0)], [(0, 8690590673), (0, 18264452), (0, 19814), (0, 10)], [(20427870, 0), (65255, 0), (93,
    0)], [(0, 67371), (0, 251)]], 3, 4⟩, 17592186044416, 185864205,
    1335558472748728867678878906511090401630490100991206641366461636448072922068360104248128555741226104864675965943600824875660022,
    lc0⟩)) (.sx (.leaf ⟨323, 16, 335, 422, 16, 1971, ⟨[[(0, 8872480461078528), (0, 2253118955977277), (43207490926,
    0), (0, 98017), (0, 71)], [(25093546259310123, 0), (0, 1870971781079), (9497078, 0), (2734, 0)],
    [(25463326160998, 0), (0, 432281087), (0, 56836), (7, 0)], [(14148112694, 0), (468810, 0), (0, 91)]], 3, 4⟩,
    ⟨[[(0, 14419441534980096), (0, 3276021382399976), (47618991016, 0), (0, 1049230), (51, 0)], [(0,
    13599717193966565), (0, 324483456293), (17507570, 0), (0, 1972)], [(9275811928165, 0), (0, 314362212), (15091,
    0), (0, 1)], [(3790997021, 0), (0, 97729), (16, 0)]], 3, 4⟩, 72057594037927936, 654169006812, 319807857618,
    ⟨[[(10316242618039, 0), (6130160722, 0), (4168222, 0), (1618, 0)], [(0, 8906767008), (0, 20207865), (0, 23820),
    (0, 13)], [(21860893, 0), (74523, 0), (116, 0)], [(0, 70137), (0, 292), (0, 1)]], 3, 4⟩, 17592186044416,
    165518484,
    2365364024402629356026142680995037213799385047570139327611452781074742381209662720661535208235611555001981445985984759322792671,
    lc0⟩) (.leaf ⟨319, 16, 316, 419, 16, 1994, ⟨[[(0, 2669960676573184), (0, 2200138886736555), (41032088317, 0),
    (28299, 0), (0, 78)], [(25759382687100818, 0), (0, 1796600444745), (3986062, 0), (3179, 0)], [(25729708905275,
    0), (0, 345963928), (0, 64962), (7, 0)], [(13797855105, 0), (540786, 0), (0, 94)]], 3, 4⟩, ⟨[[(0,
    4585152655224832), (0, 3328605793996853), (48946623528, 0), (0, 1146298), (53, 0)], [(0, 12949393320374028), (0,
    355524969180), (19073200, 0), (0, 2040)], [(9883853098315, 0), (0, 331089003), (17069, 0)], [(4096309825, 0), (0,
    107892), (13, 0)]], 3, 4⟩, 72057594037927936, 566299645825, 310426226423, ⟨[[(10140331046109, 0), (5713183340,
    0), (3710542, 0), (1396, 0)], [(0, 8637706220), (0, 18662866), (0, 21126), (0, 11)], [(20755567, 0), (68071, 0),
    (101, 0)], [(0, 67163), (0, 263)]], 3, 4⟩, 17592186044416, 184433216,
    1577599648800468913696075212042456799171069106282654554720901435161472901083178376893831541193605604173635378377772529354451008,
    lc0⟩))) (.sy (.sx (.leaf ⟨316, 16, 344, 402, 16, 1986, ⟨[[(0, 29708649532694528), (0, 2269216401208575),
    (44111858629, 0), (0, 236122), (0, 62)], [(24806035909265487, 0), (0, 1909460437934), (13570008, 0), (2264, 0)],
    [(25910811806351, 0), (0, 496895026), (0, 47279), (7, 0)], [(14746959426, 0), (391233, 0), (0, 86)]], 3, 4⟩,
    ⟨[[(12923054535409664, 0), (0, 3253553783564349), (46463882667, 0), (0, 959973), (45, 0)], [(0,
    13863147912855296), (0, 310710550572), (14751954, 0), (0, 1837)], [(9191123902724, 0), (0, 302116888), (13859,
    0), (0, 1)], [(3774838024, 0), (0, 80077), (21, 0)]], 3, 4⟩, 72057594037927936, 724771555584, 319490964019,
    ⟨[[(10311233509133, 0), (6202772284, 0), (4365774, 0), (1833, 0)], [(0, 8879753522), (0, 20733030), (0, 25563),
    (0, 16)], [(22223472, 0), (78357, 0), (128, 0)], [(0, 72002), (0, 316), (0, 1)]], 3, 4⟩, 17592186044416,
    167444056,
    3350373114132407728596320654773893971689748476550250546736991694994253068222627686789172895813062511896194983063704308948596407,
    lc0⟩) (.leaf ⟨311, 16, 324, 399, 16, 2009, ⟨[[(33826465307095040, 0), (0, 2213616549417950), (41999263205, 0),
    (0, 120520), (0, 69)], [(25488218122284163, 0), (0, 1835651373581), (8593206, 0), (2726, 0)], [(26187190189099,
    0), (0, 415922683), (0, 55373), (7, 0)], [(14401647810, 0), (460434, 0), (0, 91)]], 3, 4⟩, ⟨[[(0,
    7590627016318976), (0, 3304979749408752), (47654943929, 0), (0, 1050845), (50, 0)], [(0, 13222036279601423), (0,
    340433617228), (16203742, 0), (0, 1934)], [(9795025232308, 0), (0, 316673849), (16392, 0), (0, 1)], [(4076077919,
    0), (0, 93971), (17, 0)]], 3, 4⟩, 72057594037927936, 636333951574, 310767036657, ⟨[[(10144848078575, 0),
    (5795565126, 0), (3898998, 0), (1585, 0)], [(0, 8652587154), (0, 19259881), (0, 22804), (0, 13)], [(21337529, 0),
    (72192, 0), (113, 0)], [(0, 69485), (0, 288), (0, 1)]], 3, 4⟩, 17592186044416, 190609647,
    2814073614982798443337168643999394398990332280135338558987380197238943680470578927484930685692800119627208150712366440622595873,
    lc0⟩)) (.sx (.leaf ⟨309, 16, 354, 383, 16, 2002, ⟨[[(0, 25101166314598400), (0, 2289820506961567), (44938502067,
    0), (0, 357870), (0, 51)], [(24544523879738581, 0), (0, 1949326607631), (17054428, 0), (1775, 0)],
    [(26396014414503, 0), (0, 554616180), (0, 37611), (7, 0)], [(15355901871, 0), (316641, 0), (0, 82)]], 3, 4⟩,
    ⟨[[(0, 19266281281732608), (0, 3233449349304262), (45446878103, 0), (0, 882273), (39, 0)], [(0,
    14128548527164069), (0, 299631043408), (12243716, 0), (0, 1624)], [(9115656861756, 0), (0, 291449215), (12026,
    0), (0, 1)], [(3770395251, 0), (0, 57285), (26, 0)]], 3, 4⟩, 72057594037927936, 793839848341, 318652813154,
    ⟨[[(10314519843613, 0), (6290109928, 0), (4587764, 0), (2081, 0)], [(0, 8875319705), (0, 21356626), (0, 27581),
    (0, 18)], [(22649825, 0), (82892, 0), (143, 0)], [(0, 74109), (0, 344), (0, 1)]], 3, 4⟩, 17592186044416,
    171064587,
    3879061609359699420260865290215460076434000645685758912453662353641971934268462140464257744955389317081120672324862653111756634,
    lc0⟩) (.leaf ⟨304, 16, 333, 379, 16, 2025, ⟨[[(30421593061253120, 0), (0, 2231895360829582), (42878124668, 0),
    (0, 254241), (0, 59)], [(25251693035644151, 0), (0, 1875792775604), (12643795, 0), (2261, 0)], [(26686622569462,
    0), (0, 478981302), (0, 45749), (7, 0)], [(15016310938, 0), (382838, 0), (0, 87)]], 3, 4⟩, ⟨[[(2139068035280896,
    0), (0, 3283850609787106), (46512451473, 0), (0, 963797), (45, 0)], [(0, 13495722583557934), (0, 328175432066),
    (13536563, 0), (0, 1751)], [(9716859950451, 0), (0, 303239457), (15169, 0), (0, 1)], [(4065631672, 0), (0,
    75467), (21, 0)]], 3, 4⟩, 72057594037927936, 707862292706, 307990342255, ⟨[[(10143529147135, 0), (5866020526, 0),
    (4083323, 0), (1790, 0)], [(0, 8629443685), (0, 19763820), (0, 24465), (0, 16)], [(21704699, 0), (75923, 0),
    (126, 0)], [(0, 71218), (0, 312), (0, 1)]], 3, 4⟩, 17592186044416, 193431658,
    3976759405550968730996564680362531818820222391228528086414990754800408776264470927498520011029591322948678910404062116930214948,
    lc0⟩)))
theorem c39 : checkR job con0 true ⟨7, 9, 7, 9, 13, 17⟩ 1 9016 t39 1221 21 640 14745 251 16000 = true := by decide +kernel

def t40 : CTree :=
  .sy (.sx (.sy (.leaf ⟨322, 16, 290, 437, 16, 2002, ⟨[[(0, 16336766247919616), (0, 2126569691906725), (37327751587,
    0), (333806, 0), (0, 91)], [(26529831134252974, 0), (0, 1668038391042), (0, 7487053), (4016, 0)],
    [(25337561843445, 0), (0, 171780825), (0, 82197), (8, 0)], [(12698289249, 0), (695932, 0), (0, 100)]], 3, 4⟩,
    ⟨[[(0, 10507122060914688), (0, 3408688651874932), (51926096147, 0), (0, 1349757), (57, 0)], [(0,
    11946594522807733), (0, 407762187682), (23784262, 0), (0, 2087)], [(10636147425257, 0), (0, 364988731), (18340,
    0)], [(4420972243, 0), (0, 121263), (6, 0)]], 3, 4⟩, 72057594037927936, 391015963541, 290453665038,
    ⟨[[(9969168319176, 0), (5261352021, 0), (3154698, 0), (1065, 0)], [(0, 8440278499), (0, 16863923), (0, 17553),
    (0, 8)], [(19103149, 0), (58983, 0), (81, 0)], [(0, 68411), (0, 243)]], 3, 4⟩, 17592186044416, 202687901,
    2969865632594390164148608634163770067428488131620565969062433547515743119224787997348845575740650393878980376212101818561857786,
    lc0⟩) (.leaf ⟨316, 16, 298, 417, 16, 2018, ⟨[[(0, 31655128896860160), (0, 2146509400914112), (38737885342, 0),
    (165210, 0), (0, 84)], [(26399800519471875, 0), (0, 1718789516266), (0, 1872182), (3605, 0)], [(25927605382026,
    0), (0, 255517110), (0, 72976), (7, 0)], [(13382174700, 0), (614927, 0), (0, 97)]], 3, 4⟩, ⟨[[(0,
    29593190250020864), (0, 3384380311000700), (50377813649, 0), (0, 1247240), (56, 0)], [(0, 12242628755766821), (0,
    388539652599), (20814798, 0), (0, 2081)], [(10541145637663, 0), (0, 349221247), (18655, 0)], [(4396691466, 0),
    (0, 114679), (9, 0)]], 3, 4⟩, 72057594037927936, 464796824677, 291686491379, ⟨[[(9968856645442, 0), (5318445104,
    0), (3289656, 0), (1196, 0)], [(0, 8381289955), (0, 17193711), (0, 18635), (0, 10)], [(19568940, 0), (61827, 0),
    (88, 0)], [(0, 65426), (0, 241)]], 3, 4⟩, 17592186044416, 203966112,
    1809810931880892271975680302176468870035028425128160298967113811110493537727131586972326691780259614179738515348498394711958417,
    lc0⟩)) (.sy (.sx (.leaf ⟨436, 16, 379, 490, 16, 2274, ⟨[[(10402539538530304, 0), (0, 2848068571703305),
    (48364553756, 0), (611578, 0), (0, 129)], [(18403774161856832, 0), (0, 1095637693523), (0, 8474435), (2944, 0)],
    [(8673350940738, 0), (0, 33268283), (0, 30029), (3, 0)], [(2103680641, 0), (128358, 0), (0, 17)]], 3, 4⟩,
    ⟨[[(31961854794964992, 0), (0, 3886812474918898), (59852839957, 0), (0, 1607419), (64, 0)], [(0,
    6396721231715279), (0, 244845237890), (14172579, 0), (0, 1172)], [(3141318078409, 0), (0, 106891336), (5335, 0)],
    [(652552380, 0), (0, 17084), (1, 0)]], 3, 4⟩, 72057594037927936, 45218968380, 21462187855, ⟨[[(9845239106538, 0),
    (4437090083, 0), (2282389, 0), (670, 0)], [(0, 6072940007), (0, 10382684), (0, 9309), (0, 4)], [(9660789, 0),
    (25803, 0), (31, 0)], [(0, 28708), (0, 89)]], 3, 4⟩, 17592186044416, 21825496,
    5918880957952529122588300762712670739018891409634344786777801607589527951945916987591096984212083599470415157134956583613047074,
    lc0⟩) (.out ⟨382, 16, 363, 2104, 16, 2129, ⟨[[(0, 18196150477283328), (0, 2771954527024708), (45929912181, 0)],
    [(18335327319793923, 0), (0, 1051392508010), (0, 10620775)], [(8561993850270, 0), (0, 15752578), (0, 30871)]], 2,
    2⟩, ⟨[[(0, 20717213208838144), (0, 3831217029357728), (59432628315, 0)], [(0, 6025461369352417), (0,
    249609597479), (14375322, 0)], [(3169858557822, 0), (0, 107179027), (5300, 0)]], 2, 2⟩, 72057594037927936,
    32056597540822, 32520284765531, ⟨[], 0, 0⟩, 0, 0, 0, lc0⟩ 0 485 25)) (.leaf ⟨313, 16, 281, 415, 16, 2044, ⟨[[(0,
    23041567099297792), (0, 2092508582861090), (36325586126, 0), (311292, 0), (0, 90)], [(27014750652441707, 0), (0,
    1637718110511), (0, 8040569), (4012, 0)], [(26056820415396, 0), (0, 161027301), (0, 80734), (8, 0)],
    [(12896172905, 0), (690613, 0), (0, 98)]], 3, 4⟩, ⟨[[(0, 366009893879808), (0, 3445146344233708), (51946341374,
    0), (0, 1351748), (57, 0)], [(0, 11479506893069122), (0, 423876690590), (22714669, 0), (0, 2099)],
    [(11253139058409, 0), (0, 368467417), (19893, 0)], [(4688655748, 0), (0, 117075), (6, 0)]], 3, 4⟩,
    72057594037927936, 350650154947, 270432360082, ⟨[[(9803341078913, 0), (4951718255, 0), (2914850, 0), (1024, 0)],
    [(0, 8159383406), (0, 15875224), (0, 16463), (0, 8)], [(18307195, 0), (55814, 0), (77, 0)], [(0, 67041), (0,
    235)]], 3, 4⟩, 17592186044416, 224588552,
    3686365454538840866097617996265123014029487414607471128960667974318094168998692896425309497231825944250314184264557079221479305,
    lc0⟩))) (.sx (.sy (.leaf ⟨308, 16, 305, 396, 16, 2034, ⟨[[(0, 13919257232490496), (0, 2157038700720907),
    (39777676530, 0), (6787, 0), (0, 76)], [(26136797121879543, 0), (0, 1758430526887), (3245250, 0), (3166, 0)],
    [(26387497522451, 0), (0, 330792907), (0, 63375), (7, 0)], [(13988005740, 0), (532905, 0), (0, 93)]], 3, 4⟩,
    ⟨[[(21832831172820992, 0), (0, 3361155870400778), (48967449918, 0), (0, 1147215), (53, 0)], [(0,
    12531265622821524), (0, 372123234845), (17882453, 0), (0, 2003)], [(10452746142268, 0), (0, 333227284), (18491,
    0)], [(4376201300, 0), (0, 104300), (13, 0)]], 3, 4⟩, 72057594037927936, 537469070825, 296645831139,
    ⟨[[(9967037580409, 0), (5378928542, 0), (3438362, 0), (1348, 0)], [(0, 8370124592), (0, 17653558), (0, 19971),
    (0, 11)], [(20110344, 0), (65190, 0), (98, 0)], [(0, 66091), (0, 256)]], 3, 4⟩, 17592186044416, 211066522,
    1684501247016478866544482761004561837859998201778260544265341191970620529876056188547979297546937928882440017923836401946291965,
    lc0⟩) (.leaf ⟨301, 16, 313, 376, 16, 2050, ⟨[[(0, 28702792968634368), (0, 2172665016722739), (40719935336, 0),
    (0, 137331), (0, 66)], [(25917700199043611, 0), (0, 1798886979981), (7824535, 0), (2721, 0)], [(26893774449709,
    0), (0, 399110916), (0, 53835), (7, 0)], [(14605824182, 0), (453738, 0), (0, 90)]], 3, 4⟩, ⟨[[(0,
    659802249031680), (0, 3338892963152811), (47690849557, 0), (0, 1051867), (50, 0)], [(0, 12813824202710667), (0,
    358443737135), (15100700, 0), (0, 1849)], [(10371012549675, 0), (0, 317507407), (17812, 0), (0, 1)],
    [(4361528555, 0), (0, 89808), (17, 0)]], 3, 4⟩, 72057594037927936, 607949647072, 296783315639, ⟨[[(9966884634867,
    0), (5440663642, 0), (3591893, 0), (1512, 0)], [(0, 8346831008), (0, 18087085), (0, 21337), (0, 13)], [(20499833,
    0), (68338, 0), (108, 0)], [(0, 67380), (0, 276), (0, 1)]], 3, 4⟩, 17592186044416, 214668504,
    3065442372976010792258936141262765195442374910186593471178606364474613770731602401733941417481284404495535554329139076483370235,
    lc0⟩)) (.sy (.leaf ⟨306, 16, 288, 394, 16, 2061, ⟨[[(0, 24558259897499648), (0, 2107059747023044), (37577054646,
    0), (144520, 0), (0, 82)], [(26843528206638336, 0), (0, 1683811898831), (0, 2440130), (3593, 0)],
    [(26603187316071, 0), (0, 242360060), (0, 71356), (7, 0)], [(13547970513, 0), (610022, 0), (0, 95)]], 3, 4⟩,
    ⟨[[(30735261501812736, 0), (0, 3422213179492659), (50412465180, 0), (0, 1248184), (56, 0)], [(0,
    11784032612571867), (0, 405994588196), (19757955, 0), (0, 2048)], [(11165298875712, 0), (0, 351284886), (20196,
    0)], [(4670322845, 0), (0, 109782), (10, 0)]], 3, 4⟩, 72057594037927936, 423503985462, 274902103386,
    ⟨[[(9801076023168, 0), (5000010354, 0), (3034398, 0), (1146, 0)], [(0, 8112516053), (0, 16197823), (0, 17490),
    (0, 9)], [(18858628, 0), (58776, 0), (85, 0)], [(0, 64196), (0, 233)]], 3, 4⟩, 17592186044416, 230285383,
    2321655808695311893497838029986840334283922206662611926023416505820793800730954028510936990210707584010205648176203765514043006,
    lc0⟩) (.leaf ⟨298, 16, 295, 374, 16, 2077, ⟨[[(13494167847456768, 0), (0, 2119557802664172), (38592027066, 0),
    (0, 9321), (0, 73)], [(26629975896314688, 0), (0, 1724596202969), (2651260, 0), (3161, 0)], [(27107703548871, 0),
    (0, 315962206), (0, 61862), (7, 0)], [(14166971448, 0), (530270, 0), (0, 92)]], 3, 4⟩, ⟨[[(0, 26111634068889600),
    (0, 3398695924771433), (48994612799, 0), (0, 1145496), (55, 0)], [(0, 12076145761411643), (0, 390684671846),
    (16901094, 0), (0, 1921)], [(11079373527379, 0), (0, 333712032), (20002, 0)], [(4653866201, 0), (0, 98776), (14,
    0)]], 3, 4⟩, 72057594037927936, 497077940460, 278982713077, ⟨[[(9809259346312, 0), (5069153244, 0), (3179201, 0),
    (1287, 0)], [(0, 8125116062), (0, 16689018), (0, 18795), (0, 11)], [(19495557, 0), (62275, 0), (94, 0)], [(0,
    64991), (0, 248)]], 3, 4⟩, 17592186044416, 239812435,
    1993027343883518714974018425328911293568506348435361319346505206789751355567313855456803125413146707949346932731875063332841976,
    lc0⟩)))
theorem c40 : checkR job con0 true ⟨7, 9, 7, 9, 13, 17⟩ 1 9016 t40 1263 21 640 14745 251 16000 = true := by decide +kernel

def t41 : CTree :=
  .sy (.out ⟨71, 16, 53, 468, 16, 462, ⟨[[(6449569156872192, 0), (0, 1792693512850864), (83794787249, 0)],
    [(26924062174414208, 0), (0, 4484771928950), (0, 773408160)], [(89288400011548, 0), (7137587865, 0), (0,
    7897288)]], 2, 2⟩, ⟨[[(30105069449093120, 0), (0, 3513644949299986), (242230100997, 0)], [(0, 7570349527948742),
    (0, 2344333124570), (553890000, 0)], [(51544853482676, 0), (0, 7074810816), (839506, 0)]], 2, 2⟩,
    72057594037927936, 1991710997488125, 1280544658799931, ⟨[], 0, 0⟩, 0, 0, 0, lc0⟩ 0 107 36) (.sx (.sy (.sx (.sy
    (.out ⟨280, 16, 255, 1893, 16, 1920, ⟨[[(0, 16780814482268160), (0, 1993791322171514), (31705689972, 0)],
    [(27310089618289344, 0), (0, 1477642482949), (0, 20674976)], [(25139857711696, 0), (30435873, 0), (0, 95960)]],
    2, 2⟩, ⟨[[(0, 28567878868254720), (0, 3469682516911639), (54434017844, 0)], [(0, 10133263234377784), (0,
    474919320312), (27139065, 0)], [(11889624591497, 0), (0, 397651832), (19296, 0)]], 2, 2⟩, 72057594037927936,
    121444306659918, 70886795092006, ⟨[], 0, 0⟩, 0, 0, 0, lc0⟩ 0 114 11) (.sx (.leaf ⟨427, 16, 369, 464, 16, 2313,
    ⟨[[(0, 29698643310489600), (0, 2815738151554598), (47259717534, 0), (584694, 0), (0, 128)], [(18840588208157044,
    0), (0, 1080551813056), (0, 8812952), (2953, 0)], [(8956762161784, 0), (0, 30045333), (0, 29608), (3, 0)],
    [(2141023189, 0), (128290, 0), (0, 17)]], 3, 4⟩, ⟨[[(7866994769829888, 0), (0, 3914070953065245), (59614949341,
    0), (0, 1604122), (65, 0)], [(0, 6086018860750146), (0, 253160692866), (13570960, 0), (0, 1175)],
    [(3311043675695, 0), (0, 107339084), (5776, 0)], [(685782935, 0), (0, 16161), (1, 0)]], 3, 4⟩, 72057594037927936,
    42789397670, 19436891276, ⟨[[(9683061333272, 0), (4188224823, 0), (2117383, 0), (646, 0)], [(0, 5841523935), (0,
    9739776), (0, 8707), (0, 4)], [(9097268, 0), (24012, 0), (29, 0)], [(0, 27930), (0, 86)]], 3, 4⟩, 17592186044416,
    23016244,
    6795009588459064178597487448652272648021549021313247648106386200697793428601101290483244565850226420205926738787823742986370841,
    lc0⟩) (.out ⟨374, 16, 353, 2105, 16, 2165, ⟨[[(0, 27088270472065024), (0, 2737103290968433), (44805260975, 0)],
    [(18754255701009987, 0), (0, 1035445896289), (0, 10895698)], [(8827137619555, 0), (0, 12647080), (0, 30372)]], 2,
    2⟩, ⟨[[(27379902179606528, 0), (0, 3857443071556874), (59160682892, 0)], [(0, 5704488903941067), (0,
    257754774773), (13817796, 0)], [(3339920941198, 0), (0, 107465483), (5750, 0)]], 2, 2⟩, 72057594037927936,
    31905852442389, 32752244847764, ⟨[], 0, 0⟩, 0, 0, 0, lc0⟩ 0 283 17))) (.out ⟨189, 16, 167, 1049, 16, 1074,
    ⟨[[(27648718282086400, 0), (0, 2672247293338776), (81890571874, 0)], [(19065347302696082, 0), (0, 1943932346225),
    (0, 66316630)], [(17430684416875, 0), (118458913, 0), (0, 269242)]], 2, 2⟩, ⟨[[(0, 17076160219561984), (0,
    3873924164782537), (121747134952, 0)], [(0, 5165446432803257), (0, 553595608725), (61068506, 0)],
    [(6944195397713, 0), (0, 449059460), (44914, 0)]], 2, 2⟩, 72057594037927936, 150678611574734, 141893266572489,
    ⟨[], 0, 0⟩, 0, 0, 0, lc0⟩ 0 112 15)) (.sx (.sy (.leaf ⟨303, 16, 271, 393, 16, 2089, ⟨[[(0, 2490214537707520), (0,
    2049588078799068), (35137386292, 0), (290571, 0), (0, 87)], [(27429694284579099, 0), (0, 1600345317646), (0,
    8417165), (3986, 0)], [(26654919946441, 0), (0, 148742462), (0, 78707), (7, 0)], [(12982361461, 0), (686981, 0),
    (0, 94)]], 3, 4⟩, ⟨[[(7580797420367872, 0), (0, 3486625888539321), (51975260553, 0), (0, 1352298), (59, 0)], [(0,
    10968056425663419), (0, 442007238135), (21794121, 0), (0, 2070)], [(11927289652655, 0), (0, 370017853), (21562,
    0)], [(4948819500, 0), (0, 109225), (7, 0)]], 3, 4⟩, 72057594037927936, 292792725534, 246356627634,
    ⟨[[(9646101237891, 0), (4656946750, 0), (2682165, 0), (974, 0)], [(0, 7933997949), (0, 14989850), (0, 15432), (0,
    8)], [(17701798, 0), (53128, 0), (74, 0)], [(0, 66698), (0, 231)]], 3, 4⟩, 17592186044416, 257565748,
    4576055245836938944523154084080047805988867199855469849284726656485444212507954595469888088973093511415154353068915237749576104,
    lc0⟩) (.leaf ⟨296, 16, 278, 372, 16, 2106, ⟨[[(19458138529902592, 0), (0, 2066158972847354), (36363682739, 0),
    (128746, 0), (0, 79)], [(27312410631583293, 0), (0, 1647390753793), (0, 2864903), (3576, 0)], [(27247431652922,
    0), (0, 227974135), (0, 69513), (7, 0)], [(13647531329, 0), (610222, 0), (0, 92)]], 3, 4⟩, ⟨[[(0,
    188715850457088), (0, 3463392260066069), (50435192157, 0), (0, 1243824), (59, 0)], [(0, 11275730404971758), (0,
    425097624626), (18907945, 0), (0, 1969)], [(11842586601911, 0), (0, 351124007), (21816, 0)], [(4935962063, 0),
    (0, 101016), (11, 0)]], 3, 4⟩, 72057594037927936, 366440358014, 252272972001, ⟨[[(9649081405704, 0), (4708745633,
    0), (2796332, 0), (1086, 0)], [(0, 7894807509), (0, 15314901), (0, 16417), (0, 9)], [(18310627, 0), (56151, 0),
    (81, 0)], [(0, 63616), (0, 227)]], 3, 4⟩, 17592186044416, 263944493,
    2814526396411314961870850404364952203104227984226699531640583076369208073480599199247626755336797612294783110011169349399382497,
    lc0⟩)) (.sy (.sx (.leaf ⟨418, 16, 359, 437, 16, 2352, ⟨[[(0, 19909753961955328), (0, 2782083567677552),
    (46088674934, 0), (561137, 0), (0, 126)], [(19306330582332331, 0), (0, 1064799764066), (0, 9047847), (2956, 0)],
    [(9235699594671, 0), (0, 26325555), (0, 29072), (3, 0)], [(2166854339, 0), (129131, 0), (0, 16)]], 3, 4⟩,
    ⟨[[(27757675670183936, 0), (0, 3941676879082298), (59316098799, 0), (0, 1595658), (68, 0)], [(0,
    5743069414845971), (0, 262130638341), (13045183, 0), (0, 1154)], [(3490767075386, 0), (0, 106984834), (6245, 0)],
    [(716142736, 0), (0, 14528), (1, 0)]], 3, 4⟩, 72057594037927936, 37777528431, 18128374029, ⟨[[(9527558720023, 0),
    (3954759529, 0), (1961633, 0), (620, 0)], [(0, 5627133547), (0, 9139207), (0, 8131), (0, 4)], [(8567247, 0),
    (22303, 0), (27, 0)], [(0, 27237), (0, 84)]], 3, 4⟩, 17592186044416, 24402531,
    8227206704704908545404288066665481255677165469859031024266717564444760439474135525550909550183274047834348697068557472174493101,
    lc0⟩) (.out ⟨366, 16, 343, 2109, 16, 2203, ⟨[[(12403202349903872, 0), (0, 2700854450754335), (43621362018, 0)],
    [(19198070075427675, 0), (0, 1018785279922), (0, 11060142)], [(9085265618564, 0), (0, 8957588), (0, 29743)]], 2,
    2⟩, ⟨[[(0, 27870713566593024), (0, 3887583105214679), (58886064384, 0)], [(0, 5356077735772532), (0,
    266713295457), (13349762, 0)], [(3522565788429, 0), (0, 106966551), (6238, 0)]], 2, 2⟩, 72057594037927936,
    31676899949116, 32883310394570, ⟨[], 0, 0⟩, 0, 0, 0, lc0⟩ 0 196 13)) (.leaf ⟨295, 16, 262, 371, 16, 2137, ⟨[[(0,
    9820360855085056), (0, 2012785873286470), (34035375538, 0), (275259, 0), (0, 85)], [(27965958876508160, 0), (0,
    1567380190622), (0, 8666888), (3965, 0)], [(27312246742107, 0), (0, 135146524), (0, 76638), (7, 0)],
    [(13039129222, 0), (692210, 0), (0, 90)]], 3, 4⟩, ⟨[[(7458781814628352, 0), (0, 3533125786892714), (52023222464,
    0), (0, 1346085), (63, 0)], [(0, 10405431521347441), (0, 461817196396), (21098960, 0), (0, 1996)],
    [(12660310326059, 0), (0, 368850429), (23357, 0)], [(5198016316, 0), (0, 95474), (9, 0)]], 3, 4⟩,
    72057594037927936, 217392469696, 215452230441, ⟨[[(9491367181000, 0), (4366785678, 0), (2447877, 0), (909, 0)],
    [(0, 7680222402), (0, 14024363), (0, 14252), (0, 7)], [(16876816, 0), (49642, 0), (69, 0)], [(0, 65726), (0,
    224)]], 3, 4⟩, 17592186044416, 284528514,
    5599100011051781548802141837255320201984009933617793309969974977981328215866259687291653128404621554885207746240271218405186476,
    lc0⟩)))) (.sy (.out ⟨136, 16, 110, 962, 16, 989, ⟨[[(26884642345803776, 0), (0, 1840313532294366), (50439857931,
    0)], [(28128980678419365, 0), (0, 2521142166003), (0, 136283060)], [(49710774335300, 0), (971242507, 0), (0,
    844723)]], 2, 2⟩, ⟨[[(0, 2671711510847488), (0, 3601110919314179), (115819054748, 0)], [(0, 7839412167278548),
    (0, 1126071635136), (122928899, 0)], [(27569995512891, 0), (0, 1723604489), (166338, 0)]], 2, 2⟩,
    72057594037927936, 473037315310151, 317112922845287, ⟨[], 0, 0⟩, 0, 0, 0, lc0⟩ 0 45 11) (.sx (.sy (.out ⟨265, 16,
    237, 1921, 16, 2011, ⟨[[(0, 2916135974383616), (0, 1910537166983138), (29574947944, 0)], [(28146353503030004, 0),
    (0, 1407154111962), (0, 20724441)], [(26193239853879, 0), (49358365, 0), (0, 90532)]], 2, 2⟩, ⟨[[(0,
    18440369478729728), (0, 3564494170705671), (54544411083, 0)], [(0, 8952572292607261), (0, 511823025171),
    (25822488, 0)], [(13360791575058, 0), (0, 399275753), (23240, 0)]], 2, 2⟩, 72057594037927936, 120378342528661,
    74925651118230, ⟨[], 0, 0⟩, 0, 0, 0, lc0⟩ 0 80 9) (.sx (.sy (.out ⟨523, 16, 494, 3836, 16, 4052,
    ⟨[[(20836814911758336, 0), (0, 1952152849121700), (15801034238, 0)], [(28209652897345146, 0), (0, 740091912453),
    (0, 3643756)], [(13459666038208, 0), (0, 10249858), (0, 10388)]], 2, 2⟩, ⟨[[(0, 32165589601353728), (0,
    3545174357796066), (26503047703, 0)], [(0, 9487708173723057), (0, 244432910629), (5809908, 0)], [(6572472422120,
    0), (0, 95426151), (2984, 0)]], 2, 2⟩, 72057594037927936, 30614769766415, 18101854263447, ⟨[], 0, 0⟩, 0, 0, 0,
    lc0⟩ 0 153 9) (.leaf ⟨592, 16, 510, 735, 16, 4356, ⟨[[(0, 33536262855254016), (0, 1998924555395198),
    (16462223904, 0), (88016, 0), (0, 11)], [(28738887776327418, 0), (0, 767427369969), (0, 2949112), (524, 0)],
    [(13887650997763, 0), (0, 20997117), (0, 10026)], [(3207603805, 0), (93088, 0), (0, 6)]], 3, 4⟩, ⟨[[(0,
    2730026512621568), (0, 3602696812875366), (26594142812, 0), (0, 350608), (8, 0)], [(0, 9837991853694373), (0,
    244477854322), (5568579, 0), (0, 249)], [(6680841742682, 0), (0, 94615172), (3088, 0)], [(1350868888, 0), (0,
    10552), (1, 0)]], 3, 4⟩, 72057594037927936, 11820433446, 23056412463, ⟨[[(9378687111675, 0), (2057838347, 0),
    (552788, 0), (100, 0)], [(0, 3725849733), (0, 3251982), (0, 1592)], [(3868237, 0), (5485, 0), (4, 0)], [(0,
    8387), (0, 14)]], 3, 4⟩, 17592186044416, 1746576,
    5264246667822266233174087307769996019712810074322148950068531262344247035482387418790891362175310325769585805081298393139233953,
    lc0⟩)) (.out ⟨359, 16, 333, 2111, 16, 2241, ⟨[[(29101104699416576, 0), (0, 2663161079509349), (42395159021, 0)],
    [(19663398656231601, 0), (0, 1001166219009), (0, 11101748)], [(9332661385425, 0), (0, 4284831), (0, 28952)]], 2,
    2⟩, ⟨[[(35051908853235712, 0), (0, 3918154235749379), (58574633217, 0)], [(0, 4972886993849643), (0,
    275984531964), (13003144, 0)], [(3714493787657, 0), (0, 105282111), (6772, 0)]], 2, 2⟩, 72057594037927936,
    31390328134515, 32794702163749, ⟨[], 0, 0⟩, 0, 0, 0, lc0⟩ 0 134 10))) (.out ⟨182, 16, 157, 1053, 16, 1112,
    ⟨[[(21192531851528192, 0), (0, 2590189342092803), (77116652404, 0)], [(19909283458194737, 0), (0, 1870580316029),
    (0, 66059582)], [(18322678931826, 0), (148748522, 0), (0, 254706)]], 2, 2⟩, ⟨[[(0, 35385448830451712), (0,
    3936023600696407), (120482937197, 0)], [(0, 4388950635461747), (0, 588557218590), (58252703, 0)],
    [(7705834111583, 0), (0, 438552651), (54082, 0)]], 2, 2⟩, 72057594037927936, 147102590577436, 142239513069662,
    ⟨[], 0, 0⟩, 0, 0, 0, lc0⟩ 0 70 11))))
theorem c41 : checkR job con0 true ⟨7, 9, 7, 9, 13, 17⟩ 1 9016 t41 663 21 320 7247 251 8000 = true := by decide +kernel

def t42 : CTree :=
  .sx (.out ⟨50, 16, 32, 254, 16, 259, ⟨[[(0, 22277895924354048), (0, 2339991593315491), (151037895965, 0)],
    [(20597678535101126, 0), (0, 5010410925430), (0, 2854968431)], [(65042338229311, 0), (15399606048, 0), (0,
    23068579)]], 2, 2⟩, ⟨[[(0, 5287209418549248), (0, 3920736335992214), (545624859245, 0)], [(0, 1971569124376866),
    (0, 2980297053782), (1276975143, 0)], [(33543477855212, 0), (0, 7783546750), (2410374, 0)]], 2, 2⟩,
    72057594037927936, 4779805564084235, 3034645198527581, ⟨[], 0, 0⟩, 0, 0, 0, lc0⟩ 0 64 36) (.out ⟨55, 16, 28, 248,
    16, 253, ⟨[[(30882225749417472, 0), (0, 2200241300681669), (0, 12375985955)], [(23041434599632847, 0), (0,
    2694273054996), (0, 4481633717)], [(61307170216658, 0), (27403255421, 0), (0, 27142158)]], 2, 2⟩, ⟨[[(0,
    17089785908551680), (0, 3965412605378375), (589514663840, 0)], [(1019282246140230, 0), (0, 3534040647300),
    (1443777352, 0)], [(36898302633486, 0), (0, 7098752003), (2276669, 0)]], 2, 2⟩, 72057594037927936,
    5861479230427789, 3008231603513096, ⟨[], 0, 0⟩, 0, 0, 0, lc0⟩ 0 11 11)
theorem c42 : checkR job con0 true ⟨7, 9, 7, 9, 13, 17⟩ 1 9016 t42 363 21 160 7247 251 8000 = true := by decide +kernel

def t43 : CTree :=
  .sx (.sy (.sx (.leaf ⟨378, 16, 726, 336, 16, 1267, ⟨[[(0, 15831059156541440), (0, 2580112713888897), (61638083812,
    0), (594804, 0), (181, 0)], [(19930151280947157, 0), (0, 4545051201893), (94044583, 0), (0, 4454)],
    [(47835234926943, 0), (0, 4676377489), (0, 81599), (0, 26)], [(94870494561, 0), (0, 2604133), (223, 0)]], 3, 4⟩,
    ⟨[[(32571610374725632, 0), (0, 1981988097623671), (18663409125, 0), (0, 1342895), (0, 172)], [(0,
    29055501912541733), (173575384470, 0), (66217616, 0), (8759, 0), (1, 0)], [(14992572982902, 0), (0, 832783167),
    (0, 145178), (0, 19)], [(0, 5591458928), (0, 982485), (0, 120)]], 3, 4⟩, 72057594037927936, 19581276850234,
    5135410228349, ⟨[[(14094809144742, 0), (25839009061, 0), (43057639, 0), (4955, 0), (0, 434)], [(0, 19822677507),
    (0, 118184399), (0, 253299), (602, 0), (11, 0)], [(73423666, 0), (557222, 0), (827, 0), (0, 11)], [(0, 320583),
    (0, 2557)]], 3, 4⟩, 17592186044416, 329006350,
    7703901453540777394445080904506188527585903772389501226738887669097444564032187468074215299404870845566484883180612383142087911,
    lc0⟩) (.leaf ⟨343, 16, 638, 328, 16, 1299, ⟨[[(22761075980369920, 0), (0, 2442532952944732), (57527613782, 0),
    (321198, 0), (151, 0)], [(21512655156990534, 0), (0, 4350374770040), (77814755, 0), (0, 5597)], [(53475930356300,
    0), (0, 4359836930), (0, 41739), (0, 17)], [(98406767656, 0), (0, 1694123), (270, 0)]], 3, 4⟩, ⟨[[(0,
    3034501197180928), (0, 2026140712487660), (21717200261, 0), (0, 1036526), (0, 132)], [(0, 28521043246899938),
    (102038838752, 0), (54993346, 0), (7190, 0), (1, 0)], [(14913880874396, 0), (0, 940871950), (0, 155232), (0,
    22)], [(0, 1566806455), (0, 392036), (19, 0)]], 3, 4⟩, 72057594037927936, 18648283692877, 4954072978102,
    ⟨[[(13478260136299, 0), (22616954241, 0), (37271903, 0), (22049, 0), (0, 106)], [(0, 18792188664), (0,
    108624031), (0, 261691), (43, 0), (3, 0)], [(71829409, 0), (558144, 0), (1308, 0), (0, 4)], [(0, 329487), (0,
    2840), (0, 5)]], 3, 4⟩, 17592186044416, 393023139,
    4608762665335831207293279665013692955119471104975586821236391325123212913304577592632187315687978430247875144310266324725526830,
    lc0⟩)) (.sx (.leaf ⟨382, 16, 770, 324, 16, 1274, ⟨[[(0, 11394494745497600), (0, 2670268477317284), (66635587186,
    0), (1059406, 0), (236, 0)], [(18742675129466920, 0), (0, 4723991776774), (92471289, 0), (0, 4922)],
    [(48219022349673, 0), (0, 5069181210), (0, 133119), (0, 35)], [(99298777031, 0), (0, 2491746), (302, 0)]], 3, 4⟩,
    ⟨[[(35298944713732096, 0), (0, 1975210312498947), (16450553880, 0), (0, 1739515), (0, 215)], [(0,
    29110447754797678), (248621857766, 0), (81603733, 0), (11209, 0), (1, 0)], [(14615686263130, 0), (0, 999466221),
    (0, 177680), (0, 23)], [(0, 6152498001), (0, 1132153), (0, 168)]], 3, 4⟩, 72057594037927936, 21296910521114,
    5668060118196, ⟨[[(14094870126991, 0), (26673540911, 0), (47120451, 0), (15487, 0), (0, 294)], [(0, 19706789472),
    (0, 124277550), (0, 291547), (409, 0), (7, 0)], [(74891068, 0), (610927, 0), (1168, 0), (0, 8)], [(0, 343191),
    (0, 3022), (0, 3)]], 3, 4⟩, 17592186044416, 360029432,
    9911983324501835335839793237655104041213988280210504201711426787700514713973634393166084582673237934895580899599542900314610464,
    lc0⟩) (.leaf ⟨345, 16, 675, 316, 16, 1307, ⟨[[(31455571375869952, 0), (0, 2522735030610518), (61635299078, 0),
    (697592, 0), (198, 0)], [(20469690749404279, 0), (0, 4524659050400), (72902275, 0), (0, 6595)], [(54248085763515,
    0), (0, 4671828225), (0, 75090), (0, 23)], [(103294040554, 0), (0, 1456949), (384, 0)]], 3, 4⟩, ⟨[[(0,
    10825576481652736), (0, 2017540635250101), (20061813999, 0), (0, 1344805), (0, 168)], [(0, 28630229565390665),
    (164211498549, 0), (67809363, 0), (9399, 0), (1, 0)], [(14488185822960, 0), (0, 1121385135), (0, 192812), (0,
    26)], [(0, 1771023493), (0, 383563), (2, 0)]], 3, 4⟩, 72057594037927936, 20116999042345, 5425028354276,
    ⟨[[(13483274284875, 0), (23325038550, 0), (40596498, 0), (26458, 0), (0, 87)], [(0, 18701190465), (0, 114169576),
    (0, 293669), (7, 0), (3, 0)], [(73241077, 0), (608206, 0), (1579, 0), (0, 4)], [(0, 350901), (0, 3296), (0, 7)]],
    3, 4⟩, 17592186044416, 437115815,
    7369389264758701014943171842988907468647879441609222087061613750165950296532803601174869735836133801257961583281966525344063220,
    lc0⟩))) (.sx (.sy (.leaf ⟨312, 16, 557, 320, 16, 1332, ⟨[[(0, 6439991997501440), (0, 2298764187753394),
    (53030890831, 0), (53484, 0), (116, 0)], [(23182282970319576, 0), (0, 4124777842435), (66160592, 0), (0, 5814)],
    [(58392686083863, 0), (0, 3963263812), (0, 5706), (0, 7)], [(100054582999, 0), (0, 1024397), (241, 0)]], 3, 4⟩,
    ⟨[[(0, 27608380457426944), (0, 2074940189413051), (24360365793, 0), (0, 794038), (0, 97)], [(0,
    27962330524272823), (22407361702, 0), (43349437, 0), (5426, 0), (1, 0)], [(15345021547427, 0), (0, 982500659),
    (0, 148769), (0, 23)], [(2384553659, 0), (94100, 0), (141, 0)]], 3, 4⟩, 72057594037927936, 17368210285432,
    4681994927163, ⟨[[(12893495670354, 0), (19607123071, 0), (31040165, 0), (23090, 0), (0, 27)], [(0, 17720917303),
    (0, 97197860), (0, 242408), (0, 138), (1, 0)], [(68909599, 0), (530904, 0), (1473, 0), (0, 1)], [(0, 327104), (0,
    2914), (0, 7)]], 3, 4⟩, 17592186044416, 480113309,
    5847747985229808137016798844268906311257242755749837277770655130153287704685760612058994346901656597625564373070427886223117458,
    lc0⟩) (.sy (.leaf ⟨431, 16, 801, 405, 16, 1745, ⟨[[(30558105905577984, 0), (0, 1624134054784177), (19124942661,
    0), (44133, 0), (13, 0)], [(31117287086075874, 0), (0, 2931866888637), (21286385, 0), (0, 1168)],
    [(81824655172848, 0), (0, 2855256264), (0, 5515), (0, 2)], [(143384337657, 0), (0, 585004), (115, 0)]], 3, 4⟩,
    ⟨[[(0, 30538808084328448), (0, 1347368100158464), (7655816773, 0), (0, 156418), (0, 10)], [(0,
    36612827640913676), (37693894134, 0), (16453303, 0), (1113, 0)], [(19589003443846, 0), (0, 723639678), (0,
    57796), (0, 4)], [(3196948077, 0), (132993, 0), (49, 0)]], 3, 4⟩, 72057594037927936, 24948803939346,
    6278001490345, ⟨[[(12899650576526, 0), (15383296796, 0), (19477574, 0), (11635, 0), (0, 10)], [(0, 12793288992),
    (0, 56062440), (0, 112551), (0, 51)], [(36654616, 0), (227280, 0), (514, 0)], [(0, 129737), (0, 939), (0, 2)]],
    3, 4⟩, 17592186044416, 92470194,
    6074752250936740687467133494957508255696175816145963306883557313328156850381140617516937359742595564359890654105207250208523177,
    lc0⟩) (.leaf ⟨434, 16, 828, 396, 16, 1749, ⟨[[(24465373681012736, 0), (0, 1658990232881517), (19858649378, 0),
    (73158, 0), (15, 0)], [(30650165614737694, 0), (0, 3009536979969), (20119289, 0), (0, 1295)], [(83099452262032,
    0), (0, 2958726700), (0, 8791), (0, 2)], [(147945639294, 0), (0, 474971), (140, 0)]], 3, 4⟩,
    ⟨[[(8789443669860352, 0), (0, 1342876121160851), (7422073294, 0), (0, 177344), (0, 11)], [(0, 36673486045800009),
    (55222246674, 0), (18295902, 0), (1283, 0)], [(19254657004159, 0), (0, 786777482), (0, 64630), (0, 5)],
    [(3283627019, 0), (183134, 0), (51, 0)]], 3, 4⟩, 72057594037927936, 25958220049174, 6518567179689,
    ⟨[[(12890230967045, 0), (15593971860, 0), (20336738, 0), (12596, 0), (0, 12)], [(0, 12639140643), (0, 56991646),
    (0, 118703), (0, 56)], [(36374262, 0), (233634, 0), (555, 0)], [(0, 130520), (0, 988), (0, 2)]], 3, 4⟩,
    17592186044416, 94708647,
    7134540752273941808191802946314422351343909323527056769332313813427337531621140810700888111850498508583375178260694884066627743,
    lc0⟩))) (.sy (.sx (.leaf ⟨392, 16, 677, 425, 16, 1841, ⟨[[(32971203439960064, 0), (0, 2956748112839249),
    (66990885013, 0), (0, 163478), (122, 0)], [(16511660527396312, 0), (0, 2660118459870), (40404705, 0), (0, 3677)],
    [(20775882222190, 0), (0, 1229370296), (4664, 0)], [(16902876916, 0), (0, 110765), (30, 0)]], 3, 4⟩,
    ⟨[[(10938868780990464, 0), (0, 2868206182313382), (35359427109, 0), (0, 892462), (0, 99)], [(0,
    18648894373999747), (0, 26901588390), (23820920, 0), (2766, 0), (1, 0)], [(5425995580861, 0), (0, 331907978), (0,
    45623), (0, 8)], [(892533232, 0), (60935, 0), (36, 0)]], 3, 4⟩, 72057594037927936, 1411580980299, 430221029538,
    ⟨[[(12485741108152, 0), (12975810882, 0), (14564179, 0), (8444, 0), (0, 3)], [(0, 12603518462), (0, 48608413),
    (0, 89424), (0, 55)], [(36689649, 0), (204314, 0), (445, 0)], [(0, 131914), (0, 873), (0, 2)]], 3, 4⟩,
    17592186044416, 108675308,
    5684293111717882045359422038262441185799923090466320522286708302665515335768409222704510236801813334317042985755152878636602713,
    lc0⟩) (.leaf ⟨379, 16, 637, 418, 16, 1856, ⟨[[(0, 12957034664697856), (0, 2889222537980185), (64639223805, 0),
    (0, 298464), (101, 0)], [(17264245430020032, 0), (0, 2600618311995), (38523450, 0), (0, 3409)], [(21621588467155,
    0), (0, 1168215637), (7502, 0), (1, 0)], [(17009145277, 0), (0, 78206), (21, 0)]], 3, 4⟩, ⟨[[(0,
    14961868189863936), (0, 2893299962519444), (36577848334, 0), (0, 795858), (0, 79)], [(0, 18336037541749934), (0,
    54864615634), (20355998, 0), (2164, 0)], [(5602944084635, 0), (0, 325540919), (0, 41000), (0, 7)], [(1204787926,
    0), (81165, 0), (42, 0)]], 3, 4⟩, 72057594037927936, 1367669753772, 409880937527, ⟨[[(12225760990038, 0),
    (12094385878, 0), (13185968, 0), (7766, 0), (0, 2)], [(0, 12117664871), (0, 45152379), (0, 82372), (0, 57)],
    [(34953377, 0), (190970, 0), (426, 0)], [(0, 125215), (0, 828), (0, 2)]], 3, 4⟩, 17592186044416, 111040805,
    6209305958972395859885964149504933751320080393310303384617385629702809606674612318709823981598456118393827113469698080703492063,
    lc0⟩)) (.sx (.leaf ⟨387, 16, 705, 409, 16, 1856, ⟨[[(34762282857095168, 0), (0, 3009055253057392), (69715908438,
    0), (122556, 0), (166, 0)], [(15814052199823994, 0), (0, 2730969243470), (35767620, 0), (0, 4555)],
    [(20993662609151, 0), (0, 1275664506), (3951, 0), (0, 1)], [(17553485726, 0), (0, 74627), (50, 0)]], 3, 4⟩,
    ⟨[[(0, 29238233013633024), (0, 2856520203175577), (34125548794, 0), (0, 1132405), (0, 132)], [(0,
    18808016911730904), (0, 629076093), (29040704, 0), (3918, 0), (1, 0)], [(5289630829787, 0), (0, 386899813), (0,
    58504), (0, 9)], [(940232400, 0), (100413, 0), (41, 0)]], 3, 4⟩, 72057594037927936, 1488902684063, 442897171363,
    ⟨[[(12493614479207, 0), (13320709788, 0), (15762363, 0), (9773, 0), (0, 5)], [(0, 12675748727), (0, 51411055),
    (0, 100719), (0, 65)], [(38076781, 0), (225099, 0), (528, 0)], [(0, 143380), (0, 1015), (0, 2)]], 3, 4⟩,
    17592186044416, 125666566,
    7430443549421047423596106283409226511242200279798897354476765159283427415441350435221924114545150547251335188605493954555146864,
    lc0⟩) (.leaf ⟨374, 16, 664, 401, 16, 1871, ⟨[[(9422487247290368, 0), (0, 2944214947275575), (67086333500, 0), (0,
    65706), (140, 0)], [(16644811385416655, 0), (0, 2673406525986), (34238911, 0), (0, 4313)], [(21928861096693, 0),
    (0, 1209055376), (9257, 0), (1, 0)], [(17696131753, 0), (0, 50708), (40, 0)]], 3, 4⟩, ⟨[[(0, 1666052972732416),
    (0, 2880312895950652), (35530107564, 0), (0, 991401), (0, 109)], [(0, 18506514203512015), (0, 32809224778),
    (24555285, 0), (3207, 0), (1, 0)], [(5472108340534, 0), (0, 375487521), (0, 53250), (0, 9)], [(1266886745, 0),
    (127830, 0), (49, 0)]], 3, 4⟩, 72057594037927936, 1440519281484, 426204243036, ⟨[[(12227442827731, 0),
    (12395128432, 0), (14255806, 0), (9068, 0), (0, 3)], [(0, 12136869278), (0, 47550346), (0, 92588), (0, 69)],
    [(35987731, 0), (208877, 0), (502, 0)], [(0, 134595), (0, 950), (0, 2)]], 3, 4⟩, 17592186044416, 126315762,
    7657372956822755583234276829529414876966418120580494049931988413323160473077046386192564035702582524450537852111654762789290230,
    lc0⟩))))
theorem c43 : checkR job con0 true ⟨7, 9, 7, 9, 13, 17⟩ 1 9016 t43 237 21 160 30243 251 32000 = true := by decide +kernel

def t44 : CTree :=
  .sx (.sy (.sx (.sy (.leaf ⟨571, 16, 1194, 406, 16, 1648, ⟨[[(0, 23592085345722368), (0, 2031032108202053),
    (26377626353, 0), (279431, 0), (26, 0)], [(26325274933304149, 0), (0, 3610275491437), (33669691, 0), (0, 973)],
    [(71779073148162, 0), (0, 4019993567), (0, 67995), (0, 8)], [(152593045535, 0), (0, 1740460), (137, 0)]], 3, 4⟩,
    ⟨[[(31578395975376896, 0), (0, 1270027544820472), (4622247841, 0), (0, 337837), (0, 20)], [(0,
    37519357567620340), (203816305287, 0), (30858712, 0), (2151, 0)], [(18385361958645, 0), (0, 739449484), (0,
    66231), (0, 4)], [(0, 8543361818), (0, 824203), (0, 68)]], 3, 4⟩, 72057594037927936, 33289844924049,
    7606886845233, ⟨[[(14097569811293, 0), (21236926482, 0), (30420473, 0), (9674, 0), (0, 85)], [(0, 13264401283),
    (0, 67915934), (0, 131252), (108, 0), (1, 0)], [(34857424, 0), (233698, 0), (389, 0), (0, 2)], [(0, 112689), (0,
    827), (0, 1)]], 3, 4⟩, 17592186044416, 59868920,
    9581619280715353444137095298351177018157986836205522819362224594715367765510323149085788298251331767870988511502905213754576103,
    lc0⟩) (.leaf ⟨580, 16, 1244, 399, 16, 1653, ⟨[[(0, 5422969223233536), (0, 2088257187137163), (27963648907, 0),
    (349137, 0), (30, 0)], [(25548132373847720, 0), (0, 3727008182036), (33546547, 0), (0, 1022)], [(72663439912110,
    0), (0, 4265852284), (0, 83794), (0, 9)], [(158109966560, 0), (0, 1662618), (157, 0)]], 3, 4⟩, ⟨[[(0,
    13526345252782080), (0, 1269492635800199), (4094371090, 0), (0, 381445), (0, 22)], [(0, 37522483522962737),
    (237204191137, 0), (34388760, 0), (2409, 0)], [(18051540075486, 0), (0, 811589317), (0, 72888), (0, 4)], [(0,
    9002338334), (0, 900347), (0, 79)]], 3, 4⟩, 72057594037927936, 35223448105587, 8041871010397, ⟨[[(14114392955522,
    0), (21663931931, 0), (31955863, 0), (10715, 0), (0, 79)], [(0, 13177690638), (0, 69641907), (0, 139420), (107,
    0), (1, 0)], [(35042653, 0), (244320, 0), (426, 0), (0, 2)], [(0, 116344), (0, 893), (0, 1)]], 3, 4⟩,
    17592186044416, 62400724,
    9888115478996929779891900621755020741945712127753673705440212288659944063347657784879187597372690324736838420554190652036822930,
    lc0⟩)) (.sy (.leaf ⟨500, 16, 1015, 397, 16, 1700, ⟨[[(0, 14651146023489536), (0, 1861572428723128), (23533219790,
    0), (191737, 0), (22, 0)], [(28233739158552984, 0), (0, 3362762639396), (24498028, 0), (0, 1335)],
    [(78910138580065, 0), (0, 3563023313), (0, 39175), (0, 5)], [(154586180461, 0), (0, 855767), (174, 0)]], 3, 4⟩,
    ⟨[[(11586341351866368, 0), (0, 1302667808709424), (5980595062, 0), (0, 263192), (0, 16)], [(0,
    37145410946329874), (142768844223, 0), (25841128, 0), (1835, 0)], [(18258036098538, 0), (0, 831272223), (0,
    72946), (0, 5)], [(0, 2491942016), (0, 252211), (0, 4)]], 3, 4⟩, 72057594037927936, 30347496464801,
    7315997355775, ⟨[[(13466263043285, 0), (18376698810, 0), (25780658, 0), (13731, 0), (0, 31)], [(0, 12859767394),
    (0, 63288999), (0, 132912), (0, 4), (1, 0)], [(35598700, 0), (241334, 0), (526, 0), (0, 1)], [(0, 122725), (0,
    958), (0, 2)]], 3, 4⟩, 17592186044416, 76374945,
    7885938910655337019713627549345448443926272334148074410647062419098307896660549648311101424266323635271261281302830550336351364,
    lc0⟩) (.leaf ⟨506, 16, 1055, 389, 16, 1705, ⟨[[(7133511916802048, 0), (0, 1910214036408084), (24796041219, 0),
    (246917, 0), (25, 0)], [(27598004861086781, 0), (0, 3470785788356), (23323583, 0), (0, 1454)], [(80149792547431,
    0), (0, 3748652756), (0, 49520), (0, 6)], [(160279208948, 0), (0, 696601), (203, 0)]], 3, 4⟩,
    ⟨[[(17833556800184320, 0), (0, 1300684852952761), (5575699019, 0), (0, 297632), (0, 18)], [(0,
    37176010326775345), (170657175310, 0), (28858031, 0), (2068, 0)], [(17874150183947, 0), (0, 910920237), (0,
    80732), (0, 5)], [(0, 2627702896), (0, 259385), (0, 8)]], 3, 4⟩, 72057594037927936, 31896428986004,
    7706981714906, ⟨[[(13468590492321, 0), (18698872248, 0), (27076532, 0), (14853, 0), (0, 35)], [(0, 12736044770),
    (0, 64738709), (0, 141529), (0, 4), (1, 0)], [(35598348, 0), (251580, 0), (579, 0), (0, 1)], [(0, 125684), (0,
    1034), (0, 2)]], 3, 4⟩, 17592186044416, 79502494,
    9102832148042482398494371034906167071160570820615814339751280763835904167095405210910835974251936207081359901847148539684310854,
    lc0⟩))) (.sx (.sy (.leaf ⟨590, 16, 1299, 391, 16, 1659, ⟨[[(34294145293090816, 0), (0, 2150974886376404),
    (29798357204, 0), (431112, 0), (35, 0)], [(24732687152927893, 0), (0, 3857425603135), (33419153, 0), (0, 1071)],
    [(73616640452760, 0), (0, 4549684985), (0, 102448), (0, 10)], [(164271535262, 0), (0, 1563351), (180, 0)]], 3,
    4⟩, ⟨[[(28631758762688512, 0), (0, 1270275868439413), (3498015752, 0), (0, 429556), (0, 24)], [(0,
    37530160607499355), (274612833928, 0), (38359462, 0), (2693, 0)], [(17689154394015, 0), (0, 891452181), (0,
    80161), (0, 5)], [(0, 9509443074), (0, 988446), (0, 90)]], 3, 4⟩, 72057594037927936, 37411787020862,
    8525779744133, ⟨[[(14108787417747, 0), (22044990934, 0), (33604369, 0), (11848, 0), (0, 76)], [(0, 13019727402),
    (0, 71276174), (0, 148930), (112, 0), (1, 0)], [(35076573, 0), (256077, 0), (471, 0), (0, 2)], [(0, 120065), (0,
    971), (0, 1)]], 3, 4⟩, 17592186044416, 65113279,
    9542974454965014796374566748801322212413475903047729419192987539563250618472824320290195004755255174218940820584695135131059659,
    lc0⟩) (.leaf ⟨602, 16, 1359, 384, 16, 1665, ⟨[[(13132660151009280, 0), (0, 2218667870925781), (31910579508, 0),
    (527370, 0), (40, 0)], [(23857873440035261, 0), (0, 4001342689642), (33274228, 0), (0, 1121)], [(74599088028886,
    0), (0, 4875957819), (0, 124423), (0, 12)], [(171086928230, 0), (0, 1438127), (205, 0)]], 3, 4⟩, ⟨[[(0,
    4120684142796800), (0, 1271683805555192), (2823514041, 0), (0, 482144), (0, 26)], [(0, 37517486484615948),
    (316375466198, 0), (42791070, 0), (3002, 0)], [(17283101280953, 0), (0, 979220909), (0, 88067), (0, 5)], [(0,
    10065696545), (0, 1089212), (0, 103)]], 3, 4⟩, 72057594037927936, 39869693787230, 9067158043470,
    ⟨[[(14114943819217, 0), (22461148869, 0), (35338353, 0), (12566, 0), (0, 81)], [(0, 12876354394), (0, 72994642),
    (0, 158518), (128, 0), (1, 0)], [(35161588, 0), (268460, 0), (512, 0), (0, 2)], [(0, 124076), (0, 1054), (0,
    1)]], 3, 4⟩, 17592186044416, 68234122,
    9908569042896511663113146231766706114681384564213122095278548793423622318890820011157615986735207281213503902406106791617880637,
    lc0⟩)) (.sy (.leaf ⟨513, 16, 1098, 381, 16, 1710, ⟨[[(0, 2359049891020800), (0, 1961953465366636), (26234196197,
    0), (311642, 0), (29, 0)], [(26915426897556514, 0), (0, 3589039841608), (21941642, 0), (0, 1584)],
    [(81444212241957, 0), (0, 3958238878), (0, 61793), (0, 7)], [(166503293091, 0), (0, 500522), (236, 0)]], 3, 4⟩,
    ⟨[[(23058935548268544, 0), (0, 1299119547951618), (5115062331, 0), (0, 335487), (0, 19)], [(0,
    37191546006403499), (201845597156, 0), (32251049, 0), (2323, 0)], [(17446862020203, 0), (0, 998961445), (0,
    89202), (0, 6)], [(0, 2768486202), (0, 270779), (0, 13)]], 3, 4⟩, 72057594037927936, 33600175479511,
    8140611427446, ⟨[[(13465544107396, 0), (19010718012, 0), (28441785, 0), (16140, 0), (0, 40)], [(0, 12582515415),
    (0, 66124146), (0, 150976), (0, 5), (1, 0)], [(35504758, 0), (262293, 0), (641, 0), (0, 1)], [(0, 128572), (0,
    1120), (0, 2)]], 3, 4⟩, 17592186044416, 83619313,
    9964431214710740552855902216998838123098835949139487720736411302748802830052701725288250857718426616744634409462857309308970754,
    lc0⟩) (.leaf ⟨521, 16, 1145, 374, 16, 1716, ⟨[[(0, 16729151162327040), (0, 2018207375284520), (27893057408, 0),
    (387696, 0), (33, 0)], [(26194279287603048, 0), (0, 3720964493997), (20336441, 0), (0, 1727)], [(82841135444227,
    0), (0, 4198244589), (0, 76357), (0, 8)], [(173432651100, 0), (0, 261755), (273, 0)]], 3, 4⟩, ⟨[[(0,
    29323956323303424), (0, 1298788817114238), (4595979975, 0), (0, 377078), (0, 21)], [(0, 37211901524619038),
    (236876355600, 0), (36075213, 0), (2601, 0)], [(16981544866916, 0), (0, 1096779440), (0, 98482), (0, 6)], [(0,
    2918252614), (0, 287068), (0, 18)]], 3, 4⟩, 72057594037927936, 35499363419193, 8627861255818, ⟨[[(13477061289082,
    0), (19373016022, 0), (29953181, 0), (17490, 0), (0, 49)], [(0, 12472478363), (0, 67830359), (0, 161695), (0, 3),
    (1, 0)], [(35645888, 0), (275610, 0), (712, 0), (0, 1)], [(0, 132990), (0, 1226), (0, 3)]], 3, 4⟩,
    17592186044416, 89159612,
    10347280478373796467488846312406325362765405434486682656838609462392468951271922011211789549533126863853186737417641517291439711,
    lc0⟩)))) (.sy (.sx (.sy (.leaf ⟨438, 16, 857, 388, 16, 1753, ⟨[[(0, 24389264979378176), (0, 1696393506083265),
    (20691780115, 0), (107595, 0), (17, 0)], [(30165035308665630, 0), (0, 3095073215057), (18734796, 0), (0, 1434)],
    [(84470038421380, 0), (0, 3073352929), (0, 12919), (0, 3)], [(152918856179, 0), (0, 335086), (167, 0)]], 3, 4⟩,
    ⟨[[(0, 23284064921387008), (0, 1338618536483109), (7154313608, 0), (0, 200793), (0, 12)], [(0,
    36724784580866103), (74777120985, 0), (20410427, 0), (1469, 0)], [(18885903283337, 0), (0, 857221954), (0,
    72064), (0, 5)], [(3396192171, 0), (235299, 0), (52, 0)]], 3, 4⟩, 72057594037927936, 27039593974405,
    6786403563721, ⟨[[(12888848139957, 0), (15820927054, 0), (21233590, 0), (13616, 0), (0, 14)], [(0, 12493216911),
    (0, 57927766), (0, 125059), (0, 62)], [(36095482, 0), (239970, 0), (598, 0)], [(0, 131245), (0, 1038), (0, 3)]],
    3, 4⟩, 17592186044416, 97230774,
    8194830915720079016586715845707525980710764330908758793858421725662779112345652836445432400874608530522801742097317945676093003,
    lc0⟩) (.leaf ⟨441, 16, 888, 379, 16, 1757, ⟨[[(23234782059544576, 0), (0, 1736137304192780), (21635361384, 0),
    (148262, 0), (19, 0)], [(29650957609032375, 0), (0, 3188688651671), (17099674, 0), (0, 1586)], [(85923167501369,
    0), (0, 3200235998), (0, 18029), (0, 3)], [(158321807074, 0), (0, 160728), (198, 0)]], 3, 4⟩,
    ⟨[[(17237519051751424, 0), (0, 1334632115948650), (6848605683, 0), (0, 226833), (0, 13)], [(0,
    36765611900032719), (96648653686, 0), (22821803, 0), (1671, 0)], [(18478835914504, 0), (0, 935619165), (0,
    80153), (0, 5)], [(3535738087, 0), (289567, 0), (54, 0)]], 3, 4⟩, 72057594037927936, 28199509262818,
    7094161941630, ⟨[[(12888220580869, 0), (16094118394, 0), (22343337, 0), (14971, 0), (0, 17)], [(0, 12383542144),
    (0, 59340632), (0, 133793), (0, 71)], [(36132147, 0), (250366, 0), (662, 0)], [(0, 134245), (0, 1120), (0, 3)]],
    3, 4⟩, 17592186044416, 101412258,
    9145669728248818585527186061197312862950397384439262601841955615921938994486621698755309693027438065646361881975714363865138089,
    lc0⟩)) (.sy (.leaf ⟨385, 16, 721, 378, 16, 1809, ⟨[[(0, 8884604853960704), (0, 1541129284410995), (18061326256,
    0), (36770, 0), (12, 0)], [(32062945639086403, 0), (0, 2822197567113), (15585225, 0), (0, 1328)],
    [(88515763077462, 0), (0, 2607800905), (6400, 0), (0, 1)], [(148500802829, 0), (0, 92297), (128, 0)]], 3, 4⟩,
    ⟨[[(32713359129751552, 0), (0, 1379675135506471), (8141203695, 0), (0, 152561), (0, 9)], [(0, 36232363645572791),
    (4830709482, 0), (15185643, 0), (1091, 0)], [(20282828171080, 0), (0, 830421605), (0, 64655), (0, 5)],
    [(8972615952, 0), (587214, 0), (97, 0)]], 3, 4⟩, 72057594037927936, 23827262975719, 6120086064607,
    ⟨[[(12344988404778, 0), (13530759396, 0), (17056751, 0), (11868, 0), (0, 6)], [(0, 12107558792), (0, 52008489),
    (0, 111137), (0, 87)], [(36140414, 0), (230315, 0), (607, 0)], [(0, 137407), (0, 1066), (0, 3)]], 3, 4⟩,
    17592186044416, 124939981,
    8447100508387402016460391341985742173126835750810436148960508751321056973951924714352359938946920328266287109246156939242408572,
    lc0⟩) (.leaf ⟨386, 16, 744, 369, 16, 1812, ⟨[[(10129560508526592, 0), (0, 1571544277319487), (18714315520, 0),
    (64604, 0), (14, 0)], [(31627696519745743, 0), (0, 2897143424457), (13934492, 0), (0, 1483)], [(89990136108866,
    0), (0, 2684851478), (5552, 0), (0, 1)], [(153225458466, 0), (49260, 0), (156, 0)]], 3, 4⟩,
    ⟨[[(34746003492888576, 0), (0, 1373895910904461), (7910845312, 0), (0, 171361), (0, 10)], [(0,
    36286044756325175), (20978491904, 0), (16982391, 0), (1262, 0)], [(19881954791180, 0), (0, 900590847), (0,
    72379), (0, 5)], [(9307812395, 0), (689075, 0), (104, 0)]], 3, 4⟩, 72057594037927936, 24638128906138,
    6313219360225, ⟨[[(12347762711574, 0), (13756440279, 0), (17914015, 0), (13095, 0), (0, 7)], [(0, 12026005884),
    (0, 53277231), (0, 118588), (0, 99)], [(36233462, 0), (239626, 0), (666, 0)], [(0, 140298), (0, 1138), (0, 4)]],
    3, 4⟩, 17592186044416, 131399477,
    9009344233385001800668453536049704814890223946848133464843511759289030923546226441457225933338258045387640536520785727405954988,
    lc0⟩))) (.sx (.sy (.leaf ⟨445, 16, 921, 371, 16, 1762, ⟨[[(18531005774032896, 0), (0, 1778000140201944),
    (22702276272, 0), (196082, 0), (22, 0)], [(29096901181084446, 0), (0, 3290651635957), (15177233, 0), (0, 1753)],
    [(87444874255316, 0), (0, 3340668218), (0, 24268), (0, 4)], [(164175792078, 0), (53361, 0), (233, 0)]], 3, 4⟩,
    ⟨[[(1273739967787008, 0), (0, 1331713510272562), (6504607224, 0), (0, 255665), (0, 15)], [(0, 36815596080146206),
    (121222330508, 0), (25571212, 0), (1892, 0)], [(18039438426290, 0), (0, 1023257039), (0, 89011), (0, 6)],
    [(3705507261, 0), (346225, 0), (57, 0)]], 3, 4⟩, 72057594037927936, 29437592625450, 7435257723341,
    ⟨[[(12891037008709, 0), (16362767028, 0), (23467908, 0), (16451, 0), (0, 21)], [(0, 12268677407), (0, 60689773),
    (0, 142847), (0, 81), (1, 0)], [(36130552, 0), (260833, 0), (733, 0)], [(0, 137207), (0, 1209), (0, 4)]], 3, 4⟩,
    17592186044416, 108055708,
    10026288261273746154625177715757760713858132011283438642747628073899302108966844008373540183578048045998650463061475515841167675,
    lc0⟩) (.leaf ⟨449, 16, 956, 363, 16, 1767, ⟨[[(29058971919360000, 0), (0, 1821742926483342), (23907492699, 0),
    (252088, 0), (25, 0)], [(28491699710433847, 0), (0, 3401291013195), (12926941, 0), (0, 1936)], [(89020337967314,
    0), (0, 3496160748), (0, 31805), (0, 5)], [(170506067364, 0), (313148, 0), (272, 0)]], 3, 4⟩, ⟨[[(0,
    15207810890317824), (0, 1329144777069882), (6114049382, 0), (0, 287219), (0, 16)], [(0, 36852331193112984),
    (148805275461, 0), (28676082, 0), (2133, 0)], [(17552227713768, 0), (0, 1120436186), (0, 98667), (0, 7)],
    [(3904801058, 0), (405248, 0), (59, 0)]], 3, 4⟩, 72057594037927936, 30767399243166, 7822565436304,
    ⟨[[(12896650951292, 0), (16659595741, 0), (24739221, 0), (18257, 0), (0, 26)], [(0, 12174751601), (0, 62319061),
    (0, 153765), (0, 95), (1, 0)], [(36310997, 0), (274244, 0), (822, 0)], [(0, 141726), (0, 1327), (0, 4)]], 3, 4⟩,
    17592186044416, 114607849,
    10740401433198393394995845808266055467005351775695270263295989730742080304119563748148104227204135816326339732826950523656276101,
    lc0⟩)) (.sy (.leaf ⟨387, 16, 768, 361, 16, 1816, ⟨[[(26145481629564928, 0), (0, 1602786009846157), (19441213495,
    0), (97505, 0), (16, 0)], [(31150091174991378, 0), (0, 2977345479312), (11988385, 0), (0, 1652)],
    [(91503095696247, 0), (0, 2766439844), (4190, 0), (0, 1)], [(158236457032, 0), (225380, 0), (187, 0)]], 3, 4⟩,
    ⟨[[(0, 19263267265802240), (0, 1369103661359980), (7654449919, 0), (0, 192275), (0, 11)], [(0,
    36351137260217460), (39113901799, 0), (19060079, 0), (1447, 0)], [(19453787070581, 0), (0, 979515573), (0,
    80837), (0, 6)], [(9701846064, 0), (798588, 0), (111, 0)]], 3, 4⟩, 72057594037927936, 25470632089753,
    6534289103622, ⟨[[(12360859141060, 0), (14011238027, 0), (18852991, 0), (14482, 0), (0, 9)], [(0, 11989568295),
    (0, 54810015), (0, 127117), (0, 114)], [(36579502, 0), (251183, 0), (736, 0), (1, 0)], [(0, 144744), (0, 1230),
    (0, 4)]], 3, 4⟩, 17592186044416, 137977162,
    9538399837008102577705091687937665274374015094204399511847780700917268239099428070589380086941298817445102968937308499787716127,
    lc0⟩) (.leaf ⟨389, 16, 795, 352, 16, 1820, ⟨[[(35526929373474816, 0), (0, 1638843735767448), (20302990965, 0),
    (136476, 0), (19, 0)], [(30700945587928704, 0), (0, 3070883568837), (9736901, 0), (0, 1841)], [(93283353233938,
    0), (0, 2860350384), (2245, 0), (0, 2)], [(163967708015, 0), (441793, 0), (222, 0)]], 3, 4⟩, ⟨[[(0,
    386216889806848), (0, 1364568548652410), (7364391758, 0), (0, 215216), (0, 12)], [(0, 36406523997890645),
    (59524113615, 0), (21433833, 0), (1649, 0)], [(18982677099370, 0), (0, 1067488296), (0, 90058), (0, 6)],
    [(10153699103, 0), (916013, 0), (119, 0)]], 3, 4⟩, 72057594037927936, 26388832177745, 6783860262546,
    ⟨[[(12358749287257, 0), (14234059311, 0), (19819032, 0), (16147, 0), (0, 10)], [(0, 11869124310), (0, 56044445),
    (0, 136050), (0, 133)], [(36545692, 0), (261406, 0), (816, 0), (1, 0)], [(0, 147540), (0, 1323), (0, 5)]], 3, 4⟩,
    17592186044416, 143965217,
    10208232735602137901462138249924134715978373926077250491445151301898839763315406721208572459063120555096838952815480652579768162,
    lc0⟩))))
theorem c44 : checkR job con0 true ⟨7, 9, 7, 9, 13, 17⟩ 1 9016 t44 237 21 160 30745 251 32000 = true := by decide +kernel

end PyX.Kron.V3a
