import Verif.Lemmas.T1phJob

/-!
# Temperature from pressure and enthalpy in region 1, part C of the certificate
-/

namespace PyX.Kron.T1ph

set_option Elab.async false

def t24 : CTree :=
  .sx (.sy (.sx (.sy (.leaf ⟨378, 26, 8, 2290, 16, 1645, ⟨[[(557320453886976, 0)], [(0, 1861112546010857)]], 2, 3⟩,
    ⟨[[(1622754308876288, 0), (372413801681643, 0), (0, 12315491485), (850995, 0)], [(0, 65262877591572),
    (19588302850, 0), (2233890, 0), (241, 0)], [(11277290888, 0), (5873575, 0), (1354, 0)]], 2, 3⟩, 4503599627370496,
    152, 1457680996018, ⟨[[(547287108112358, 0), (382495522323, 0), (0, 56631892), (0, 56791)], [(0, 13416249253),
    (53174652, 0), (77518, 0), (90, 0)], [(0, 7806114), (0, 34922), (0, 74)]], 2, 3⟩, 1099511627776, 81027564,
    49643550896222684372116027858239323571624429860828488489872512689931983770636643563235845, lc0⟩) (.leaf ⟨378, 26,
    8, 2384, 16, 1691, ⟨[[(557320453886976, 0)], [(0, 1861112546010857)]], 2, 3⟩, ⟨[[(0, 799670466701312),
    (374281884742441, 0), (0, 11764735596), (830808, 0)], [(0, 59748008514131), (21837993175, 0), (2571234, 0), (276,
    0)], [(13886567616, 0), (7100830, 0), (1653, 0)]], 2, 3⟩, 4503599627370496, 152, 1847892829752,
    ⟨[[(558386711482641, 0), (368735543896, 0), (0, 58420261), (0, 55152)], [(0, 11798131304), (56356980, 0), (81300,
    0), (94, 0)], [(0, 8890221), (0, 38492), (0, 81)]], 2, 3⟩, 1099511627776, 93123498,
    49560330915453312961295184619137356428742905103219449708484929030427698581973612524656233, lc0⟩)) (.sy (.leaf
    ⟨328, 26, 8, 2279, 16, 1638, ⟨[[(0, 1318428790912768)], [(0, 1861112546010857)]], 2, 3⟩, ⟨[[(0, 486140765859840),
    (373299619124641, 0), (0, 11970298252), (880295, 0)], [(0, 62105553142338), (21029554029, 0), (2587153, 0), (302,
    0)], [(12403362545, 0), (6674669, 0), (1637, 0)]], 2, 3⟩, 4503599627370496, 85, 1684335641103,
    ⟨[[(547459050393461, 0), (381523193282, 0), (0, 60986301), (0, 62212)], [(0, 12675961250), (56848495, 0), (85739,
    0), (103, 0)], [(0, 8386436), (0, 38031), (0, 84)]], 2, 3⟩, 1099511627776, 85380970,
    48307375204657010825074995034930554412796415881041764147025318637593525522666808694828446, lc0⟩) (.leaf ⟨328, 26,
    8, 2372, 16, 1684, ⟨[[(0, 1318428790912768)], [(0, 1861112546010857)]], 2, 3⟩, ⟨[[(1756190624092160, 0),
    (375496091946471, 0), (0, 11377361829), (865396, 0)], [(0, 55943059142558), (23600961906, 0), (3006955, 0), (352,
    0)], [(15373048510, 0), (8157386, 0), (2029, 0)]], 2, 3⟩, 4503599627370496, 85, 2162950266692,
    ⟨[[(558170603584793, 0), (367607800177, 0), (0, 62828749), (0, 60698)], [(0, 11001852346), (60250222, 0), (89937,
    0), (109, 0)], [(0, 9529018), (0, 41928), (0, 91)]], 2, 3⟩, 1099511627776, 99193880,
    47779536835890280726213784616417004950735537516925437948349677374876057056296499072289687, lc0⟩))) (.sx (.sx
    (.leaf ⟨440, 16, 9, 1305, 16, 909, ⟨[[(0, 1941684758094336)], [(0, 1046875807131107)]], 2, 3⟩, ⟨[[(0,
    1422805813110784), (389027825403652, 0), (0, 22781461431), (3275486, 0)], [(0, 13068437357907), (13028249950, 0),
    (3138002, 0), (662, 0)], [(2366638276, 0), (2349614, 0), (1092, 0)]], 2, 3⟩, 4503599627370496, 74, 1593256471759,
    ⟨[[(574252377471654, 0), (677405539644, 0), (0, 223920990), (0, 373962)], [(0, 8401797214), (103906164, 0),
    (284389, 0), (639, 0)], [(0, 8302597), (0, 66458), (0, 264), (0, 1)]], 2, 3⟩, 1099511627776, 53963016,
    48758595792885379069900179412409519079324551031414816831065257684692765360872406731380201, lc0⟩) (.leaf ⟨411, 16,
    9, 1300, 16, 906, ⟨[[(943855965655040, 0)], [(0, 1046875807131107)]], 2, 3⟩, ⟨[[(149885227568128, 0),
    (389363873427388, 0), (0, 22307880375), (3350815, 0)], [(0, 12433224569666), (13579282607, 0), (3408704, 0),
    (755, 0)], [(2496283014, 0), (2530728, 0), (1218, 0)]], 2, 3⟩, 4503599627370496, 53, 1585331134907,
    ⟨[[(574019926590442, 0), (676892058448, 0), (0, 233111987), (0, 396190)], [(0, 7984780485), (107794437, 0),
    (300761, 0), (691, 0)], [(0, 8611908), (0, 69599), (0, 282), (0, 1)]], 2, 3⟩, 1099511627776, 55944296,
    47712700158668566104617002552404008176105830423929432653087901699247365135429362873752111, lc0⟩)) (.leaf ⟨328,
    26, 8, 1277, 16, 890, ⟨[[(0, 1318428790912768)], [(0, 1861112546010857)]], 2, 3⟩, ⟨[[(0, 1814405066342400),
    (385015495946857, 0), (0, 21258633033), (3442241, 0)], [(0, 22551356295827), (28612751954, 0), (7654294, 0),
    (1823, 0)], [(10713721343, 0), (11227309, 0), (5708, 0), (2, 0)]], 2, 3⟩, 4503599627370496, 85, 4233535714982,
    ⟨[[(574311081132250, 0), (684345485252, 0), (0, 255137226), (0, 450297)], [(0, 8149312988), (130363708, 0),
    (379712, 0), (919, 0)], [(0, 11578080), (0, 96555), (0, 414), (0, 1)]], 2, 3⟩, 1099511627776, 180799995,
    46962554004848416956340932282427495546575924267657745493429325029879421137060556413042282, lc0⟩))) (.sy (.sx
    (.leaf ⟨277, 26, 8, 1179, 16, 843, ⟨[[(1309421591657984, 0)], [(0, 1861112546010857)]], 2, 3⟩,
    ⟨[[(2121062168286208, 0), (382884102007149, 0), (0, 22951572519), (3725918, 0)], [(0, 28221213319056),
    (24573082614, 0), (6667464, 0), (1695, 0)], [(7813395929, 0), (8668336, 0), (4576, 0), (2, 0)]], 2, 3⟩,
    4503599627370496, 42, 3888939242330, ⟨[[(552566205421771, 0), (732409736771, 0), (0, 256868626), (0, 511516)],
    [(0, 11050005226), (122834695, 0), (374757, 0), (926, 0)], [(0, 9572086), (0, 85811), (0, 390), (0, 1)]], 2, 3⟩,
    1099511627776, 156963003,
    46769860446250862640999572442759592498470066416237373308557891606837414861631328074198454, lc0⟩) (.leaf ⟨227, 26,
    8, 1172, 16, 838, ⟨[[(0, 566327653141888)], [(0, 1861112546010857)]], 2, 3⟩, ⟨[[(0, 1161938483360768),
    (383728358018497, 0), (0, 21933829037), (3938470, 0)], [(0, 26046660845154), (26700978326, 0), (7871436, 0),
    (2187, 0)], [(8712814358, 0), (10073559, 0), (5699, 0), (2, 0)]], 2, 3⟩, 4503599627370496, 77, 4247856244629,
    ⟨[[(553088943944906, 0), (730381822417, 0), (0, 279941175), (0, 571886)], [(0, 10055398411), (132665522, 0),
    (422495, 0), (1114, 0)], [(0, 10353109), (0, 96154), (0, 476), (0, 2)]], 2, 3⟩, 1099511627776, 183193715,
    38925220904553689104165114243008265679745439123786656578288555656755964751515663485398853, lc0⟩)) (.sx (.leaf
    ⟨277, 26, 8, 1267, 16, 884, ⟨[[(1309421591657984, 0)], [(0, 1861112546010857)]], 2, 3⟩, ⟨[[(1894722538546176, 0),
    (386062853215603, 0), (0, 20096085543), (3674945, 0)], [(0, 19636180416390), (31385997148, 0), (9170940, 0),
    (2420, 0)], [(12052039420, 0), (13246433, 0), (7270, 0), (3, 0)]], 2, 3⟩, 4503599627370496, 42, 4803293437876,
    ⟨[[(573746462945536, 0), (682808581418, 0), (0, 277274027), (0, 508428)], [(0, 7113425287), (140547537, 0),
    (427320, 0), (1100, 0)], [(0, 12454946), (0, 107724), (0, 502), (0, 2)]], 2, 3⟩, 1099511627776, 209731983,
    38555520243485608604554779524857120805853185261070749988515842685763759904510030229843034, lc0⟩) (.leaf ⟨227, 26,
    8, 1257, 16, 877, ⟨[[(0, 566327653141888)], [(0, 1861112546010857)]], 2, 3⟩, ⟨[[(0, 458673511244800),
    (387012601288391, 0), (0, 18709520888), (3988465, 0)], [(0, 16362320263232), (34656831148, 0), (11113896, 0),
    (3272, 0)], [(13661971436, 0), (15824566, 0), (9441, 0), (4, 0)]], 2, 3⟩, 4503599627370496, 77, 5674448205776,
    ⟨[[(574092413068938, 0), (680871656307, 0), (0, 304860480), (0, 583045)], [(0, 5806896704), (153300462, 0),
    (491671, 0), (1379, 0)], [(0, 13611668), (0, 124265), (0, 648), (0, 3)]], 2, 3⟩, 1099511627776, 260257254,
    26239458114544189371616981886620132374205636204509499254921343496346542143141156504597653, lc0⟩)))
theorem c24 : checkC job ⟨6, 8, 5, 6, 9, 13⟩ 1 40 B1.zlims t24 385 61 80 2559 175 3792 = true := by decide +kernel

def t25 : CTree :=
  .sx (.sy (.sx (.leaf ⟨378, 26, 8, 1377, 16, 938, ⟨[[(557320453886976, 0)], [(0, 1861112546010857)]], 2, 3⟩, ⟨[[(0,
    957215117950976), (387173519030723, 0), (0, 19873171662), (3127215, 0)], [(0, 15849917112935), (32806451323, 0),
    (8502290, 0), (1884, 0)], [(14234378560, 0), (14088340, 0), (6825, 0), (2, 0)]], 2, 3⟩, 4503599627370496, 152,
    4974101114463, ⟨[[(594055706557519, 0), (640952332320, 0), (0, 247610851), (0, 382408)], [(0, 5362726883),
    (136260337, 0), (379897, 0), (892, 0)], [(0, 13602733), (0, 106373), (0, 436), (0, 2)]], 2, 3⟩, 1099511627776,
    205746897, 45982621922978704074839488722246194309481502702022193258260979559212809166542837427611737, lc0⟩)
    (.leaf ⟨328, 26, 8, 1366, 16, 931, ⟨[[(0, 1318428790912768)], [(0, 1861112546010857)]], 2, 3⟩,
    ⟨[[(610565213496320, 0), (388478174387751, 0), (0, 18584947404), (3371969, 0)], [(0, 12045551446789),
    (36309707675, 0), (10333867, 0), (2570, 0)], [(16155022790, 0), (16866594, 0), (8883, 0), (3, 0)]], 2, 3⟩,
    4503599627370496, 85, 5872994070412, ⟨[[(593826408225980, 0), (639022228647, 0), (0, 270843282), (0, 439776)],
    [(0, 4049555344), (147985453, 0), (431497, 0), (1081, 0)], [(0, 14746822), (0, 119206), (0, 524), (0, 2)]], 2,
    3⟩, 1099511627776, 235896071,
    39986607854471527752344916836177587622251045616702963546778740085651534818798509901936637, lc0⟩)) (.sx (.leaf
    ⟨378, 26, 8, 1469, 16, 980, ⟨[[(557320453886976, 0)], [(0, 1861112546010857)]], 2, 3⟩, ⟨[[(1518103404184576, 0),
    (391144538689987, 0), (0, 17465372251), (3025165, 0)], [(0, 3384633809963), (41287115371, 0), (11260536, 0),
    (2599, 0)], [(21015513551, 0), (20765487, 0), (10377, 0), (4, 0)]], 2, 3⟩, 4503599627370496, 152, 7242183692302,
    ⟨[[(612452389594891, 0), (598767229962, 0), (0, 258481321), (0, 358062)], [(0, 1061509549), (153907971, 0),
    (429693, 0), (1024, 0)], [(0, 17100950), (0, 130283), (0, 550), (0, 2)]], 2, 3⟩, 1099511627776, 261806952,
    40105760657213833342596446159422621585644024740056133882127970431974643533856771800330123, lc0⟩) (.leaf ⟨328, 26,
    8, 1451, 16, 968, ⟨[[(0, 1318428790912768)], [(0, 1861112546010857)]], 2, 3⟩, ⟨[[(1472014781494272, 0),
    (391658806954182, 0), (0, 15724681835), (3367073, 0)], [(2129826451032, 0), (46371394650, 0), (14065594, 0),
    (3737, 0)], [(24242095122, 0), (25577199, 0), (14159, 0), (6, 0)]], 2, 3⟩, 4503599627370496, 85, 9231921555368,
    ⟨[[(612454046248617, 0), (598062355264, 0), (0, 288441827), (0, 430588)], [(728272468, 0), (169867152, 0),
    (502885, 0), (1312, 0)], [(0, 18784539), (0, 150461), (0, 698), (0, 3)]], 2, 3⟩, 1099511627776, 322506709,
    32677488261838617815995225711431710144741215013468193640525278230514439342486757114958480, lc0⟩))) (.sy (.sx
    (.leaf ⟨277, 26, 8, 1354, 16, 923, ⟨[[(1309421591657984, 0)], [(0, 1861112546010857)]], 2, 3⟩,
    ⟨[[(578765507446784, 0), (389798029656389, 0), (0, 17030620856), (3712871, 0)], [(0, 7741635932074),
    (40516729814, 0), (12741306, 0), (3590, 0)], [(18505939718, 0), (20505035, 0), (11857, 0), (5, 0)]], 2, 3⟩,
    4503599627370496, 42, 7238257699512, ⟨[[(593826504220544, 0), (636778040052, 0), (0, 299043088), (0, 513369)],
    [(0, 2515832331), (162137175, 0), (499196, 0), (1360, 0)], [(0, 16170151), (0, 137970), (0, 678), (0, 3)]], 2,
    3⟩, 1099511627776, 295567180,
    28964244598410465891581173191504453110711246393961225974755479801217287820952198676892771, lc0⟩) (.leaf ⟨227, 26,
    8, 1341, 16, 914, ⟨[[(0, 566327653141888)], [(0, 1861112546010857)]], 2, 3⟩, ⟨[[(0, 987297670320128),
    (391217586257683, 0), (0, 15130101466), (4201860, 0)], [(0, 2830085508618), (45666387462, 0), (16003561, 0),
    (5183, 0)], [(21441593913, 0), (25423399, 0), (16355, 0), (8, 0)]], 2, 3⟩, 4503599627370496, 77, 10800887063746,
    ⟨[[(594039018679920, 0), (634358959791, 0), (0, 332688422), (0, 608348)], [(0, 777705264), (179119966, 0),
    (590288, 0), (1791, 0)], [(0, 17969042), (0, 165629), (0, 933), (0, 5)]], 2, 3⟩, 1099511627776, 391195080,
    15219215366272042837773804650291089626110980609650514781333465233896737460898486408794104, lc0⟩)) (.sx (.leaf
    ⟨277, 26, 8, 1420, 16, 947, ⟨[[(1309421591657984, 0)], [(0, 1861112546010857)]], 2, 3⟩, ⟨[[(0, 86458763762688),
    (389100638288498, 0), (0, 13471922244), (3845160, 0)], [(8382670825089, 0), (52271229319, 0), (17825055, 0),
    (5544, 0)], [(28111819271, 0), (32005768, 0), (19962, 0), (10, 0)]], 2, 3⟩, 4503599627370496, 42, 13984404725774,
    ⟨[[(612654192402447, 0), (601730475226, 0), (0, 331033201), (0, 541719)], [(2840234297, 0), (191276738, 0),
    (613900, 0), (1805, 0)], [(0, 21014760), (0, 183655), (0, 984), (0, 5)]], 2, 3⟩, 1099511627776, 439853634,
    21681509740466757581992222937215345941777073508787719556334097942459983981061850479773099, lc0⟩) (.leaf ⟨227, 26,
    8, 1386, 16, 924, ⟨[[(0, 566327653141888)], [(0, 1861112546010857)]], 2, 3⟩, ⟨[[(0, 849167571565568),
    (386382244934924, 0), (0, 10690218473), (4587221, 0)], [(15532722534442, 0), (59761209134, 0), (23244220, 0),
    (8575, 0)], [(33132275569, 0), (41241173, 0), (29322, 0), (17, 0)]], 2, 3⟩, 4503599627370496, 77, 29754119141831,
    ⟨[[(612753228479319, 0), (606028445700, 0), (0, 383880775), (0, 697246)], [(5180740736, 0), (217707215, 0),
    (771911, 0), (2611, 0)], [(0, 23927063), (0, 234758), (0, 1479), (0, 8)]], 2, 3⟩, 1099511627776, 627409790,
    9001917126845605046843057707677255567111717298383743913917328153338131919612816839275158, lc0⟩)))
theorem c25 : checkC job ⟨6, 8, 5, 6, 9, 13⟩ 1 40 B1.zlims t25 385 61 80 2909 175 3792 = true := by decide +kernel

def t26 : CTree :=
  .sx (.sy (.leaf ⟨378, 26, 8, 1528, 16, 999, ⟨[[(557320453886976, 0)], [(0, 1861112546010857)]], 2, 3⟩,
    ⟨[[(1604318043602944, 0), (387374571046021, 0), (0, 14665274800), (2906655, 0)], [(12809153312074, 0),
    (51201581297, 0), (14728293, 0), (3609, 0)], [(30316048822, 0), (30257388, 0), (15815, 0), (6, 0)]], 2, 3⟩,
    4503599627370496, 152, 11342526077592, ⟨[[(630137472879212, 0), (571242977082, 0), (0, 280019764), (0, 340150)],
    [(3960955031, 0), (179186735, 0), (515370, 0), (1274, 0)], [(0, 21556995), (0, 166511), (0, 757), (0, 3)]], 2,
    3⟩, 1099511627776, 366333790,
    31664985192393905629314538725148343325303059265578173094667936802301989275371779905954122, lc0⟩) (.leaf ⟨378, 26,
    8, 1566, 16, 1004, ⟨[[(557320453886976, 0)], [(0, 1861112546010857)]], 2, 3⟩, ⟨[[(0, 504391273699328),
    (380055070302226, 0), (0, 11730956335), (2822802, 0)], [(32866411067873, 0), (63318210105, 0), (19354344, 0),
    (5176, 0)], [(43371483663, 0), (44356268, 0), (24774, 0), (11, 0)]], 2, 3⟩, 4503599627370496, 152,
    19966173805948, ⟨[[(647125094263738, 0), (550668929095, 0), (0, 306194643), (0, 289301)], [(9880385848, 0),
    (213087045, 0), (642290, 0), (1668, 0)], [(0, 27373524), (0, 221220), (0, 1110), (0, 5)]], 2, 3⟩, 1099511627776,
    572901204, 25684913768711711799694315494602040341755985418502089336381744606204698127889544675890444, lc0⟩)) (.sy
    (.leaf ⟨328, 26, 8, 1492, 16, 975, ⟨[[(0, 1318428790912768)], [(0, 1861112546010857)]], 2, 3⟩,
    ⟨[[(366765713504256, 0), (384644411317494, 0), (0, 12297326411), (3378330, 0)], [(20405560785694, 0),
    (58196471639, 0), (18970831, 0), (5548, 0)], [(35483610815, 0), (38475057, 0), (22906, 0), (11, 0)]], 2, 3⟩,
    4503599627370496, 85, 17171516378012, ⟨[[(630291493649896, 0), (575217656957, 0), (0, 324119456), (0, 443929)],
    [(6374165794, 0), (202895590, 0), (634487, 0), (1781, 0)], [(0, 24075112), (0, 200922), (0, 1030), (0, 5)]], 2,
    3⟩, 1099511627776, 467501679,
    23198867005933446484390197079241902365355346055239822302087165357742231784558044657680269, lc0⟩) (.leaf ⟨328, 26,
    8, 1515, 16, 971, ⟨[[(0, 1318428790912768)], [(0, 1861112546010857)]], 2, 3⟩, ⟨[[(1934207188865024, 0),
    (375744410795616, 0), (0, 8642589640), (3540570, 0)], [(43186339003776, 0), (73543578559, 0), (26185341, 0),
    (8670, 0)], [(52093255060, 0), (59266181, 0), (38678, 0), (20, 0)]], 2, 3⟩, 4503599627370496, 85, 43983718285798,
    ⟨[[(646823217637380, 0), (557416292855, 0), (0, 365544679), (0, 426573)], [(12897986558, 0), (246126369, 0),
    (826495, 0), (2520, 0)], [(0, 30967272), (0, 276907), (0, 1588), (0, 8)]], 2, 3⟩, 1099511627776, 760025263,
    37618744054209927579896002675361380578866918093247459099746177932481739414634428341495546, lc0⟩))
theorem c26 : checkC job ⟨6, 8, 5, 6, 9, 13⟩ 1 40 B1.zlims t26 709 61 160 3259 175 3792 = true := by decide +kernel

def t27 : CTree :=
  .sy (.sx (.leaf ⟨440, 16, 9, 1654, 16, 1041, ⟨[[(0, 1941684758094336)], [(0, 1046875807131107)]], 2, 3⟩, ⟨[[(0,
    2139112969310208), (384182369237593, 0), (0, 9881668110), (2712022, 0)], [(27966469529806, 0), (38964801099, 0),
    (12306430, 0), (3483, 0)], [(15260756167, 0), (15807297, 0), (9222, 0), (4, 0)]], 2, 3⟩, 4503599627370496, 74,
    3887380172942, ⟨[[(663156525759984, 0), (516398335376, 0), (0, 293876847), (0, 106962)], [(14041328079, 0),
    (212266366, 0), (635745, 0), (1609, 0)], [(0, 26740197), (0, 219086), (0, 1151), (0, 5)]], 2, 3⟩, 1099511627776,
    302978291, 39731306493239244298372613405209199985802050800511251725426497290293000742589298993059283, lc0⟩) (.sy
    (.leaf ⟨411, 16, 9, 3169, 16, 2003, ⟨[[(943855965655040, 0)], [(0, 1046875807131107)]], 2, 3⟩, ⟨[[(0,
    2034797350406144), (375874848875433, 0), (0, 4361122957), (760871, 0)], [(54363931156382, 0), (39148108580, 0),
    (6592792, 0), (1019, 0)], [(30128378265, 0), (16358660, 0), (5077, 0), (1, 0)]], 2, 3⟩, 4503599627370496, 53,
    4220800562349, ⟨[[(659137622654585, 0), (267353311174, 0), (0, 83618506), (0, 27717)], [(14095258853, 0),
    (112235683, 0), (180375, 0), (254, 0)], [(0, 26863915), (0, 116118), (0, 323), (0, 1)]], 2, 3⟩, 1099511627776,
    101990142, 36641274807399999405199597006019001312973534959362357115583800899440136067389269249135279, lc0⟩)
    (.leaf ⟨411, 16, 9, 3177, 16, 1990, ⟨[[(943855965655040, 0)], [(0, 1046875807131107)]], 2, 3⟩, ⟨[[(0,
    474608381419520), (370682883335344, 0), (0, 3526735224), (782035, 0)], [(68472396469289, 0), (43881317458, 0),
    (7745554, 0), (1277, 0)], [(36297480730, 0), (20296242, 0), (6583, 0), (2, 0)]], 2, 3⟩, 4503599627370496, 53,
    5837797258343, ⟨[[(666755445478212, 0), (264200273213, 0), (0, 86601117), (0, 14802)], [(17477926490, 0),
    (124077557, 0), (206733, 0), (302, 0)], [(0, 30489901), (0, 137718), (0, 405), (0, 1)]], 2, 3⟩, 1099511627776,
    127096329, 43606526883472626623038062297283459569350103509718349320894232603002811207020169633468667, lc0⟩)))
    (.sy (.sx (.leaf ⟨440, 16, 9, 3249, 16, 2018, ⟨[[(0, 1941684758094336)], [(0, 1046875807131107)]], 2, 3⟩, ⟨[[(0,
    2120212742342656), (367888897995448, 0), (0, 3749107672), (667109, 0)], [(75817733385273, 0), (44808806776, 0),
    (7535034, 0), (1173, 0)], [(39030271096, 0), (21031410, 0), (6556, 0), (2, 0)]], 2, 3⟩, 4503599627370496, 74,
    6164057338262, ⟨[[(674384583342842, 0), (259673972293, 0), (0, 78497595), (12665, 0)], [(19041849756, 0),
    (125235269, 0), (200529, 0), (271, 0)], [(0, 32185162), (0, 143691), (0, 419), (0, 1)]], 2, 3⟩, 1099511627776,
    131901693, 36133976139833839311691860117652200936115826555271270664172048440404165793453816002730736, lc0⟩)
    (.leaf ⟨411, 16, 9, 3173, 16, 1970, ⟨[[(943855965655040, 0)], [(0, 1046875807131107)]], 2, 3⟩,
    ⟨[[(1787218450851840, 0), (364802732359297, 0), (0, 2657433868), (817370, 0)], [(83985173652402, 0),
    (49311013700, 0), (9164864, 0), (1602, 0)], [(43839885207, 0), (25325681, 0), (8523, 0), (2, 0)]], 2, 3⟩,
    4503599627370496, 53, 8363874873939, ⟨[[(674140213777684, 0), (261925112630, 0), (0, 88840918), (5298, 0)],
    [(21150166466, 0), (137889219, 0), (239202, 0), (364, 0)], [(0, 34722434), (0, 164899), (0, 514), (0, 1)]], 2,
    3⟩, 1099511627776, 160096109,
    46042628708961153483944512205185659744590582998155140317166380298471672777789529976869015, lc0⟩)) (.sx (.leaf
    ⟨440, 16, 9, 3246, 16, 1999, ⟨[[(0, 1941684758094336)], [(0, 1046875807131107)]], 2, 3⟩, ⟨[[(766959466250240, 0),
    (362070519815557, 0), (0, 3009889205), (682327, 0)], [(91606475154704, 0), (50073430311, 0), (8835615, 0), (1463,
    0)], [(46824134448, 0), (26028978, 0), (8434, 0), (2, 0)]], 2, 3⟩, 4503599627370496, 74, 8639618645172,
    ⟨[[(681556647153452, 0), (257777549797, 0), (0, 77801368), (41650, 0)], [(22691575080, 0), (138368528, 0),
    (229076, 0), (320, 0)], [(0, 36536089), (0, 171259), (0, 527), (0, 1)]], 2, 3⟩, 1099511627776, 164364441,
    32377488543232158537383635458417571242897494963492511552866020380076481980771537083663038, lc0⟩) (.leaf ⟨411, 16,
    9, 3159, 16, 1944, ⟨[[(943855965655040, 0)], [(0, 1046875807131107)]], 2, 3⟩, ⟨[[(1925855937089536, 0),
    (358455960961841, 0), (0, 1743948062), (870438, 0)], [(101087636415952, 0), (55620063099, 0), (10913911, 0),
    (1995, 0)], [(53135806672, 0), (31728230, 0), (10929, 0), (3, 0)]], 2, 3⟩, 4503599627370496, 53, 12591439511216,
    ⟨[[(681468969129253, 0), (260376676805, 0), (0, 89536870), (36951, 0)], [(25244995488, 0), (154363156, 0),
    (280089, 0), (447, 0)], [(0, 39822895), (0, 200048), (0, 660), (0, 2)]], 2, 3⟩, 1099511627776, 203333661,
    39990643359076229553432606909412486892711508583535281045018947490617397418398826517434715, lc0⟩)))
theorem c27 : checkC job ⟨6, 8, 5, 6, 9, 13⟩ 1 40 B1.zlims t27 1357 61 320 3609 175 3792 = true := by decide +kernel

def t28 : CTree :=
  .sy (.sx (.sy (.leaf ⟨383, 16, 9, 3108, 16, 1964, ⟨[[(0, 674202937966080)], [(0, 1046875807131107)]], 2, 3⟩,
    ⟨[[(1800530990270464, 0), (373493466324681, 0), (0, 3406435259), (888700, 0)], [(60977222830777, 0),
    (42686369994, 0), (7855961, 0), (1358, 0)], [(33474169679, 0), (19352195, 0), (6500, 0), (2, 0)]], 2, 3⟩,
    4503599627370496, 139, 5443075250796, ⟨[[(658910737300620, 0), (269231131712, 0), (0, 92581470), (0, 37395)],
    [(15734858802, 0), (121737184, 0), (208583, 0), (322, 0)], [(0, 28788302), (0, 131982), (0, 394), (0, 1)]], 2,
    3⟩, 1099511627776, 122406437,
    43519252033188108636499062647366689976484170068579536545775757807185122507162865441571046, lc0⟩) (.sy (.leaf
    ⟨383, 16, 9, 5839, 16, 3664, ⟨[[(0, 674202937966080)], [(0, 1046875807131107)]], 2, 3⟩, ⟨[[(2218150062759936, 0),
    (346896960779139, 0), (0, 1254345106), (217927, 0)], [(135719949419121, 0), (43943197360, 0), (4211333, 0), (380,
    0)], [(72822256043, 0), (21588735, 0), (3730, 0)]], 2, 3⟩, 4503599627370496, 139, 9893944303589,
    ⟨[[(664750721179529, 0), (142119036167, 0), (0, 27222784), (0, 4323)], [(18498787991, 0), (70400318, 0), (66412,
    0), (57, 0)], [(0, 31872192), (0, 80799), (0, 134)]], 2, 3⟩, 1099511627776, 128993935,
    46787224995151545635747555283664831257734940540518752177839797713397764484451546992788017, lc0⟩) (.leaf ⟨383, 16,
    9, 5793, 16, 3618, ⟨[[(0, 674202937966080)], [(0, 1046875807131107)]], 2, 3⟩, ⟨[[(0, 1038769153249280),
    (341754919981856, 0), (0, 1008111334), (224097, 0)], [(149729086979670, 0), (46446236552, 0), (4577831, 0), (424,
    0)], [(79841777105, 0), (24081294, 0), (4224, 0), (1, 0)]], 2, 3⟩, 4503599627370496, 139, 11983233691310,
    ⟨[[(668659893122242, 0), (142392124415, 0), (0, 28234107), (0, 3143)], [(20497604969, 0), (75150515, 0), (73145,
    0), (64, 0)], [(0, 34213236), (0, 89795), (0, 155)]], 2, 3⟩, 1099511627776, 145117684,
    48300211754401241366658455204930010228167727548758187415172247941612491019603409856349401, lc0⟩))) (.sy (.leaf
    ⟨354, 16, 9, 3042, 16, 1921, ⟨[[(2211337785783040, 0)], [(0, 1046875807131107)]], 2, 3⟩, ⟨[[(328855081807872, 0),
    (370711080228562, 0), (0, 2290720110), (1058888, 0)], [(68187821923802, 0), (46859594882, 0), (9463342, 0),
    (1804, 0)], [(37471127964, 0), (23117205, 0), (8315, 0), (2, 0)]], 2, 3⟩, 4503599627370496, 72, 7442699433387,
    ⟨[[(658984944324267, 0), (271105834864, 0), (0, 103773409), (0, 50258)], [(17742331269, 0), (133796367, 0),
    (246722, 0), (420, 0)], [(0, 31423260), (0, 155176), (0, 502), (0, 1)]], 2, 3⟩, 1099511627776, 153494480,
    47074102525942731112452637812843500266125192967442446602165925601053972084208315662938291, lc0⟩) (.sy (.sx (.leaf
    ⟨763, 16, 19, 6144, 16, 3853, ⟨[[(1519155633679360, 0)], [(0, 1105035574193947)]], 2, 3⟩, ⟨[[(0,
    1089353434841088), (369219536021007, 0), (0, 878635625), (270399, 0)], [(78756015471329, 0), (25354257880, 0),
    (2612517, 0), (252, 0)], [(21328540218, 0), (6646971, 0), (1203, 0)]], 2, 3⟩, 4503599627370496, 163,
    1371849799391, ⟨[[(664844895429238, 0), (133468163825, 0), (0, 26027303), (0, 4728)], [(9561363471, 0),
    (33598332, 0), (31409, 0), (27, 0)], [(0, 7669914), (0, 19252), (0, 32)]], 2, 3⟩, 1099511627776, 16604658,
    47943173343806539519678364106930501881857839845107874312366311769429870886787680431571099, lc0⟩) (.leaf ⟨733, 16,
    19, 6066, 16, 3803, ⟨[[(1812804403132928, 0)], [(0, 1105035574193947)]], 2, 3⟩, ⟨[[(938032442781696, 0),
    (367582543706251, 0), (0, 534141722), (299748, 0)], [(83068128546927, 0), (26715668210, 0), (2888959, 0), (290,
    0)], [(22701354133, 0), (7311661, 0), (1361, 0)]], 2, 3⟩, 4503599627370496, 60, 1542250288965,
    ⟨[[(664783117605935, 0), (134087821256, 0), (0, 27743641), (0, 5747)], [(10092717435, 0), (35371315, 0), (34453,
    0), (31, 0)], [(0, 8048169), (0, 21064), (0, 36)]], 2, 3⟩, 1099511627776, 18668802,
    48699426518416806018975709847855455038427000111568537086625326094130780216160848282433771, lc0⟩)) (.sx (.leaf
    ⟨763, 16, 19, 6128, 16, 3825, ⟨[[(1519155633679360, 0)], [(0, 1105035574193947)]], 2, 3⟩, ⟨[[(0,
    1911818166730752), (366026201918748, 0), (0, 582866073), (283148, 0)], [(87321984311793, 0), (27081466619, 0),
    (2873455, 0), (283, 0)], [(23636346881, 0), (7495065, 0), (1371, 0)]], 2, 3⟩, 4503599627370496, 163,
    1611712590230, ⟨[[(668674810872772, 0), (132920881642, 0), (0, 26781684), (0, 3782)], [(10557784212, 0),
    (35740405, 0), (34354, 0), (30, 0)], [(0, 8252988), (0, 21351), (0, 36)]], 2, 3⟩, 1099511627776, 18835766,
    49125859398472997718255991162333994077856108436953427125768233588968428302220885318493376, lc0⟩) (.leaf ⟨733, 16,
    19, 6045, 16, 3772, ⟨[[(1812804403132928, 0)], [(0, 1105035574193947)]], 2, 3⟩, ⟨[[(370815419269120, 0),
    (364326830935462, 0), (0, 208018224), (316025, 0)], [(92029017132585, 0), (28614000774, 0), (3187118, 0), (325,
    0)], [(25227831957, 0), (8265881, 0), (1551, 0)]], 2, 3⟩, 4503599627370496, 60, 1825563354515,
    ⟨[[(668605877552449, 0), (133571813022, 0), (0, 28662165), (0, 4863)], [(11136277819, 0), (37734462, 0), (37879,
    0), (35, 0)], [(0, 8683308), (0, 23463), (0, 42)]], 2, 3⟩, 1099511627776, 21272587,
    49474367474141230813091538827113037361543955982915038280669994437873094403836770589442016, lc0⟩))))) (.sx (.sy
    (.sy (.leaf ⟨383, 16, 9, 5739, 16, 3568, ⟨[[(0, 674202937966080)], [(0, 1046875807131107)]], 2, 3⟩, ⟨[[(0,
    530433618132992), (336418455615761, 0), (0, 756805208), (231427, 0)], [(164262909151693, 0), (49124624924, 0),
    (4981215, 0), (471, 0)], [(87584551494, 0), (26871287, 0), (4768, 0), (1, 0)]], 2, 3⟩, 4503599627370496, 139,
    14721015814296, ⟨[[(672402585963409, 0), (142868960063, 0), (0, 29223520), (0, 1592)], [(22535603901, 0),
    (80263894, 0), (80688, 0), (73, 0)], [(0, 36698114), (0, 99833), (0, 178)]], 2, 3⟩, 1099511627776, 162953616,
    48495939107453104990654967926259616370467307395783268684021499147535942003955479164301497, lc0⟩) (.leaf ⟨383, 16,
    9, 5678, 16, 3514, ⟨[[(0, 674202937966080)], [(0, 1046875807131107)]], 2, 3⟩, ⟨[[(0, 1089252151001088),
    (330890352901727, 0), (0, 499884732), (239928, 0)], [(179331739386913, 0), (51992740213, 0), (5423046, 0), (522,
    0)], [(96123156015, 0), (29979186, 0), (5357, 0), (1, 0)]], 2, 3⟩, 4503599627370496, 139, 18380798470862,
    ⟨[[(676133362792771, 0), (143504409522, 0), (0, 30176243), (509, 0)], [(24699858611, 0), (85957765, 0), (89412,
    0), (84, 0)], [(0, 39447014), (0, 111452), (0, 207)]], 2, 3⟩, 1099511627776, 183473687,
    45931690398727505759512578502080226958249743713992863331899920991996221270107052568371881, lc0⟩)) (.leaf ⟨383,
    16, 9, 3065, 16, 1884, ⟨[[(0, 674202937966080)], [(0, 1046875807131107)]], 2, 3⟩, ⟨[[(0, 1134114789797888),
    (354463802743675, 0), (0, 226643048), (1120877, 0)], [(111625360892928, 0), (62346318846, 0), (13548215, 0),
    (2640, 0)], [(60818908910, 0), (38794030, 0), (13889, 0), (3, 0)]], 2, 3⟩, 4503599627370496, 139, 20542848922026,
    ⟨[[(681652903641913, 0), (263311574990, 0), (0, 103971330), (30317, 0)], [(28172662176, 0), (174000880, 0),
    (347497, 0), (626, 0)], [(0, 44098705), (0, 240568), (0, 858), (0, 2)]], 2, 3⟩, 1099511627776, 261185185,
    46933370249862114060136989891368576791030993980776871278109923345759585953604813571453309, lc0⟩)) (.sy (.sy (.sx
    (.leaf ⟨763, 16, 19, 6106, 16, 3794, ⟨[[(1519155633679360, 0)], [(0, 1105035574193947)]], 2, 3⟩,
    ⟨[[(524621335429120, 0), (362760225114303, 0), (0, 274589776), (297732, 0)], [(96377522169732, 0), (28964506685,
    0), (3163209, 0), (316, 0)], [(26221119930, 0), (8453369, 0), (1556, 0)]], 2, 3⟩, 4503599627370496, 163,
    1900029213104, ⟨[[(672361182216606, 0), (132492866777, 0), (0, 27490317), (0, 2565)], [(11582012725, 0),
    (38037990, 0), (37619, 0), (34, 0)], [(0, 8877830), (0, 23689), (0, 41)]], 2, 3⟩, 1099511627776, 21316154,
    49100549497744620684175529405554187225493821553685993059882904816386243331111028281850860, lc0⟩) (.leaf ⟨733, 16,
    19, 6017, 16, 3737, ⟨[[(1812804403132928, 0)], [(0, 1105035574193947)]], 2, 3⟩, ⟨[[(176652886056960, 0),
    (360919593245190, 0), (133548867, 0), (334282, 0)], [(101498100943516, 0), (30682052161, 0), (3516825, 0), (363,
    0)], [(28057147355, 0), (9342301, 0), (1762, 0)]], 2, 3⟩, 4503599627370496, 60, 2172154960498,
    ⟨[[(672370029431389, 0), (133171373455, 0), (0, 29569043), (0, 3669)], [(12237476946, 0), (40344598, 0), (41798,
    0), (40, 0)], [(0, 9383368), (0, 26212), (0, 48)]], 2, 3⟩, 1099511627776, 24206188,
    49467647044467406458301213146444375423209122283287544183076629931864554380199732890615015, lc0⟩)) (.leaf ⟨354,
    16, 9, 5455, 16, 3373, ⟨[[(2211337785783040, 0)], [(0, 1046875807131107)]], 2, 3⟩, ⟨[[(0, 349962935398400),
    (324164927817309, 0), (239228398, 0), (301758, 0)], [(196616412123928, 0), (57801356612, 0), (6648351, 0), (679,
    0)], [(109053406886, 0), (36271686, 0), (6773, 0), (1, 0)]], 2, 3⟩, 4503599627370496, 72, 29991152007049,
    ⟨[[(676091231554705, 0), (146458041853, 0), (0, 35800125), (0, 2017)], [(27566686586, 0), (97884156, 0), (113123,
    0), (120, 0)], [(0, 44008547), (0, 137435), (0, 280)]], 2, 3⟩, 1099511627776, 240800529,
    47219148520160220364275749149199168354653025483750623010030451560922778228335428389147938, lc0⟩)) (.sy (.leaf
    ⟨354, 16, 9, 5368, 16, 3304, ⟨[[(2211337785783040, 0)], [(0, 1046875807131107)]], 2, 3⟩, ⟨[[(89471631122432, 0),
    (317808803031711, 0), (555573799, 0), (316664, 0)], [(213238038902412, 0), (61431327299, 0), (7250709, 0), (742,
    0)], [(120107471415, 0), (40492444, 0), (7563, 0), (1, 0)]], 2, 3⟩, 4503599627370496, 72, 40420141037915,
    ⟨[[(679745348008537, 0), (147679471918, 0), (0, 37362314), (856, 0)], [(30097222423, 0), (105966414, 0), (127813,
    0), (141, 0)], [(0, 47642486), (0, 155561), (0, 330), (0, 1)]], 2, 3⟩, 1099511627776, 273766323,
    38983802268785078672662048792068736471193051310329291954484103269316063573318485429207366, lc0⟩) (.leaf ⟨354, 16,
    9, 5274, 16, 3231, ⟨[[(2211337785783040, 0)], [(0, 1046875807131107)]], 2, 3⟩, ⟨[[(0, 1858624231903232),
    (311283829032975, 0), (880190150, 0), (332366, 0)], [(230453106685980, 0), (65313592393, 0), (7893578, 0), (805,
    0)], [(132259628536, 0), (45127051, 0), (8424, 0), (1, 0)]], 2, 3⟩, 4503599627370496, 72, 55570815170379,
    ⟨[[(683437161192817, 0), (149097598540, 0), (0, 38859156), (4921, 0)], [(32846417834, 0), (115221186, 0),
    (145403, 0), (168, 0)], [(0, 51773794), (0, 177142), (0, 391), (0, 1)]], 2, 3⟩, 1099511627776, 312445681,
    22560066765566781909909015983010155701175254975093713295976627589644321887400411284570072, lc0⟩))))
theorem c28 : checkC job ⟨6, 8, 5, 6, 9, 13⟩ 1 40 B1.zlims t28 1479 61 320 3609 175 3792 = true := by decide +kernel

def t29 : CTree :=
  .sx (.sy (.leaf ⟨277, 26, 8, 1450, 16, 947, ⟨[[(1309421591657984, 0)], [(0, 1861112546010857)]], 2, 3⟩, ⟨[[(0,
    492585785511936), (381109041356167, 0), (0, 9311272548), (4133406, 0)], [(29128743347889, 0), (67138907573, 0),
    (25242405, 0), (8928, 0)], [(42267029954, 0), (50594175, 0), (34753, 0), (19, 0)]], 2, 3⟩, 4503599627370496, 42,
    38025506586332, ⟨[[(630393122415423, 0), (580349308293, 0), (0, 382564045), (0, 600691)], [(9184656065, 0),
    (233649777, 0), (810969, 0), (2637, 0)], [(0, 27558177), (0, 258243), (0, 1554), (0, 8)]], 2, 3⟩, 1099511627776,
    689211762, 15738725749988661690099930155296546942373188288931300963045343995733332082838148246754143, lc0⟩) (.sx
    (.leaf ⟨326, 16, 9, 1524, 16, 976, ⟨[[(593278882161920, 0)], [(0, 1046875807131107)]], 2, 3⟩,
    ⟨[[(983045912768512, 0), (384989533822016, 0), (0, 5907893061), (4556112, 0)], [(26955149226912, 0),
    (43218524777, 0), (17489204, 0), (6719, 0)], [(15730970517, 0), (19588877, 0), (14249, 0), (8, 0)]], 2, 3⟩,
    4503599627370496, 55, 11565914053571, ⟨[[(646935838578072, 0), (543823681428, 0), (0, 397486745), (0, 526874)],
    [(13972727615, 0), (240197077, 0), (860027, 0), (2886, 0)], [(0, 27640313), (0, 265685), (0, 1670), (0, 9)]], 2,
    3⟩, 1099511627776, 213073313,
    36041100616952053883254107157001668580118124183942165905497244495917778597427688179519625, lc0⟩) (.leaf ⟨298, 16,
    9, 1498, 16, 959, ⟨[[(0, 1024780021459456)], [(0, 1046875807131107)]], 2, 3⟩, ⟨[[(1982841866529792, 0),
    (383770552140651, 0), (0, 3480700103), (5412285, 0)], [(30518393789782, 0), (47651646128, 0), (21089911, 0),
    (8851, 0)], [(17674747910, 0), (23438676, 0), (18226, 0), (11, 0)]], 2, 3⟩, 4503599627370496, 156,
    24314596961028, ⟨[[(646820031789695, 0), (545918963829, 0), (0, 439157598), (0, 648780)], [(15728515910, 0),
    (261790323, 0), (1004018, 0), (3665, 0)], [(0, 30231350), (0, 313785), (0, 2139), (0, 12)]], 2, 3⟩,
    1099511627776, 243050412,
    34977118852845857713706217398230009619691893222554480448304100735243217054294206814666327, lc0⟩))) (.sy (.leaf
    ⟨227, 26, 8, 1403, 16, 916, ⟨[[(0, 566327653141888)], [(0, 1861112546010857)]], 2, 3⟩, ⟨[[(1520466352131072, 0),
    (377373248960596, 0), (0, 5437672441), (5391846, 0)], [(39376039899482, 0), (79151521591, 0), (34936672, 0),
    (14831, 0)], [(51580203158, 0), (69127059, 0), (54617, 0), (34, 0)]], 2, 3⟩, 4503599627370496, 77,
    133789274203914, ⟨[[(630134853975484, 0), (586758856044, 0), (0, 458145681), (0, 838227)], [(12282757500, 0),
    (272979786, 0), (1075516, 0), (4105, 0)], [(0, 32298011), (0, 349946), (0, 2488), (0, 15)]], 2, 3⟩,
    1099511627776, 1041954021,
    13657081631262916489597177065781343956940662699344946485156604246741028859248694948474891, lc0⟩) (.sx (.leaf
    ⟨269, 16, 9, 1470, 16, 940, ⟨[[(1860760702289920, 0)], [(0, 1046875807131107)]], 2, 3⟩, ⟨[[(0, 1697269921418240),
    (382232263396515, 0), (0, 597558674), (6540436, 0)], [(34457234257158, 0), (52938546716, 0), (25699189, 0),
    (11768, 0)], [(20016307818, 0), (28355885, 0), (23721, 0), (15, 0)]], 2, 3⟩, 4503599627370496, 70,
    57265066576879, ⟨[[(647257823413872, 0), (547273910185, 0), (0, 493519828), (0, 817190)], [(18054359192, 0),
    (291249037, 0), (1213694, 0), (4860, 0)], [(0, 33973697), (0, 385923), (0, 2866), (0, 17)]], 2, 3⟩,
    1099511627776, 328623784,
    30294008290516238409191449276198162453655709977964238493015719280092242912963542490845895, lc0⟩) (.sy (.leaf
    ⟨241, 16, 9, 2794, 16, 1795, ⟨[[(242701798668800, 0)], [(0, 1046875807131107)]], 2, 3⟩, ⟨[[(0, 721344342575104),
    (371237631884126, 0), (411378120, 0), (1800217, 0)], [(66196643318200, 0), (52870249527, 0), (13616912, 0),
    (3337, 0)], [(39198973448, 0), (29110837, 0), (12964, 0), (5, 0)]], 2, 3⟩, 4503599627370496, 57, 14596741140710,
    ⟨[[(643011145806034, 0), (285886060862, 0), (0, 139961650), (0, 134495)], [(17967573186, 0), (155274384, 0),
    (350414, 0), (765, 0)], [(0, 34788572), (0, 215329), (0, 867), (0, 3)]], 2, 3⟩, 1099511627776, 223972769,
    12859659465191355636636440589258564265537957597618276913352549017802614773526805183030336, lc0⟩) (.leaf ⟨241, 16,
    9, 2757, 16, 1753, ⟨[[(242701798668800, 0)], [(0, 1046875807131107)]], 2, 3⟩, ⟨[[(0, 1472807782576128),
    (363518613910828, 0), (2424232328, 0), (2114297, 0)], [(84500396681671, 0), (62282936295, 0), (17357349, 0),
    (4565, 0)], [(50000674652, 0), (39237517, 0), (18709, 0), (7, 0)]], 2, 3⟩, 4503599627370496, 57, 30097754665049,
    ⟨[[(651195984762944, 0), (284050235890, 0), (0, 159491929), (0, 154828)], [(22794813086, 0), (182000239, 0),
    (446576, 0), (1048, 0)], [(0, 41849390), (0, 279947), (0, 1201), (0, 4)]], 2, 3⟩, 1099511627776, 299801614,
    20009240421662033650674575779889437171212329511464623467189878128175444685076380983208358, lc0⟩))))
theorem c29 : checkC job ⟨6, 8, 5, 6, 9, 13⟩ 1 40 B1.zlims t29 831 61 160 3259 175 3792 = true := by decide +kernel

def t30 : CTree :=
  .sx (.sy (.leaf ⟨326, 16, 9, 2971, 16, 1875, ⟨[[(593278882161920, 0)], [(0, 1046875807131107)]], 2, 3⟩,
    ⟨[[(710379994005504, 0), (367774448811795, 0), (0, 976553815), (1284466, 0)], [(76151861369689, 0), (51860411427,
    0), (11510430, 0), (2384, 0)], [(42297804587, 0), (27855270, 0), (10648, 0), (3, 0)]], 2, 3⟩, 4503599627370496,
    55, 11082212024612, ⟨[[(658967106635740, 0), (273357596296, 0), (0, 116994774), (0, 67424)], [(19849321031, 0),
    (147708444, 0), (294616, 0), (551, 0)], [(0, 34577875), (0, 185524), (0, 653), (0, 2)]], 2, 3⟩, 1099511627776,
    192234749, 47250632268192463289021191099182174606469796480755193765268036180085437551666495488613986, lc0⟩) (.sx
    (.sy (.leaf ⟨703, 16, 19, 5987, 16, 3752, ⟨[[(2106453172585984, 0)], [(0, 1105035574193947)]], 2, 3⟩,
    ⟨[[(692073772658688, 0), (365980119757583, 0), (0, 158317741), (333498, 0)], [(87637122830386, 0), (28218491243,
    0), (3201554, 0), (334, 0)], [(24219716705, 0), (8060649, 0), (1543, 0)]], 2, 3⟩, 4503599627370496, 322,
    1748305349748, ⟨[[(664789347383434, 0), (134676068955, 0), (0, 29648610), (0, 6936)], [(10674462621, 0),
    (37360363, 0), (37998, 0), (36, 0)], [(0, 8487977), (0, 23230), (0, 42)]], 2, 3⟩, 1099511627776, 21109373,
    48598759136735014599770621853507195829901182633593893369017086426802726103685793702603938, lc0⟩) (.leaf ⟨703, 16,
    19, 5958, 16, 3716, ⟨[[(2106453172585984, 0)], [(0, 1105035574193947)]], 2, 3⟩, ⟨[[(0, 558291628199936),
    (362482969741998, 0), (201979292, 0), (353596, 0)], [(96981018857487, 0), (30294018271, 0), (3540386, 0), (374,
    0)], [(26977964331, 0), (9133412, 0), (1763, 0)]], 2, 3⟩, 4503599627370496, 322, 2090149215492,
    ⟨[[(668632646928804, 0), (134244691506, 0), (0, 30794351), (0, 6140)], [(11779676218, 0), (40019326, 0), (42074,
    0), (41, 0)], [(0, 9190995), (0, 26029), (0, 48)]], 2, 3⟩, 1099511627776, 24130344,
    49304968703256389388022294878767475541996415795750812928609653346042176011488677130048508, lc0⟩)) (.sy (.leaf
    ⟨674, 16, 19, 5902, 16, 3697, ⟨[[(0, 2103497685330944)], [(0, 1105035574193947)]], 2, 3⟩, ⟨[[(0,
    859463765118976), (364130280691000, 0), (252624702, 0), (372033, 0)], [(92416843417255, 0), (29857390944, 0),
    (3553825, 0), (385, 0)], [(25883459364, 0), (8905756, 0), (1760, 0)]], 2, 3⟩, 4503599627370496, 146,
    2004652928917, ⟨[[(664846779932717, 0), (135384330182, 0), (0, 31778963), (0, 8323)], [(11287745187, 0),
    (39569562, 0), (42105, 0), (42, 0)], [(0, 8979902), (0, 25755), (0, 48)]], 2, 3⟩, 1099511627776, 23833367,
    47898178802443660251237451105616965005202849637767995381825712408049148265448726319695031, lc0⟩) (.leaf ⟨674, 16,
    19, 5864, 16, 3656, ⟨[[(0, 2103497685330944)], [(0, 1105035574193947)]], 2, 3⟩, ⟨[[(1588885133856768, 0),
    (360405527276750, 0), (650837599, 0), (396535, 0)], [(102173484568366, 0), (32132266548, 0), (3940315, 0), (432,
    0)], [(28903174796, 0), (10121838, 0), (2024, 0)]], 2, 3⟩, 4503599627370496, 146, 2429712032486,
    ⟨[[(668580584649619, 0), (135099529626, 0), (0, 33168232), (0, 7683)], [(12419628098, 0), (42479027, 0), (46824,
    0), (48, 0)], [(0, 9733654), (0, 28927), (0, 56)]], 2, 3⟩, 1099511627776, 27266914,
    48237606557586959768634085046971143620394193890266462840028459035611112253753803519626570, lc0⟩)))) (.sy (.leaf
    ⟨298, 16, 9, 2891, 16, 1823, ⟨[[(0, 1024780021459456)], [(0, 1046875807131107)]], 2, 3⟩, ⟨[[(0, 421163254419456),
    (364160684065898, 0), (585640323, 0), (1580261, 0)], [(84892324019462, 0), (57818245154, 0), (14116929, 0),
    (3169, 0)], [(48101533588, 0), (33878604, 0), (13873, 0), (4, 0)]], 2, 3⟩, 4503599627370496, 156, 18396706406947,
    ⟨[[(659045577427244, 0), (276104305498, 0), (0, 133731989), (0, 91451)], [(22275207877, 0), (165202166, 0),
    (360080, 0), (743, 0)], [(0, 38668603), (0, 227892), (0, 876), (0, 3)]], 2, 3⟩, 1099511627776, 243827060,
    45548795969347496530270393217495960981989904707397432490469101016465788841306024512164188, lc0⟩) (.sx (.leaf
    ⟨644, 16, 19, 3031, 16, 1893, ⟨[[(0, 1809848915877376)], [(0, 1105035574193947)]], 2, 3⟩, ⟨[[(0,
    1831750510954496), (377063912807272, 0), (1926078849, 0), (1804216, 0)], [(53640599469150, 0), (34422661350, 0),
    (8735195, 0), (1987, 0)], [(15354299702, 0), (11047166, 0), (4584, 0), (1, 0)]], 2, 3⟩, 4503599627370496, 77,
    2516831185578, ⟨[[(666837315425406, 0), (259760324049, 0), (0, 128088451), (0, 68585)], [(12575695428, 0),
    (83600150, 0), (181912, 0), (371, 0)], [(0, 9981330), (0, 58611), (0, 223), (0, 1)]], 2, 3⟩, 1099511627776,
    39839954, 48320239369957391372784695766135888904202742704200554811514159244236933142500538796780662, lc0⟩) (.leaf
    ⟨614, 16, 19, 2986, 16, 1864, ⟨[[(0, 1516200146423808)], [(0, 1105035574193947)]], 2, 3⟩, ⟨[[(0,
    1584698759518208), (375591723412316, 0), (3017344525, 0), (2038338, 0)], [(56679187764718, 0), (36728200990, 0),
    (9809402, 0), (2354, 0)], [(16557091666, 0), (12393939, 0), (5436, 0), (2, 0)]], 2, 3⟩, 4503599627370496, 253,
    3238107825839, ⟨[[(666825084811469, 0), (260803349626, 0), (0, 138309157), (0, 83658)], [(13319761614, 0),
    (89220874, 0), (204086, 0), (438, 0)], [(0, 10676423), (0, 65929), (0, 261), (0, 1)]], 2, 3⟩, 1099511627776,
    43244398, 44155873618447465940874532857728578054362080413242040378909600474587930865448712828768170, lc0⟩)))
theorem c30 : checkC job ⟨6, 8, 5, 6, 9, 13⟩ 1 40 B1.zlims t30 1601 61 320 7043 175 7584 = true := by decide +kernel

def t31 : CTree :=
  .sx (.sy (.sy (.sx (.leaf ⟨703, 16, 19, 5920, 16, 3675, ⟨[[(2106453172585984, 0)], [(0, 1105035574193947)]], 2, 3⟩,
    ⟨[[(41342984036352, 0), (358755003067265, 0), (580366874, 0), (375809, 0)], [(106842171388542, 0), (32552251364,
    0), (3914030, 0), (417, 0)], [(30065874245, 0), (10344703, 0), (2012, 0)]], 2, 3⟩, 4503599627370496, 322,
    2518348435952, ⟨[[(672373356661265, 0), (133982078954, 0), (0, 31961266), (0, 5040)], [(12936095706, 0),
    (42953860, 0), (46749, 0), (47, 0)], [(0, 9960489), (0, 29226), (0, 56)]], 2, 3⟩, 1099511627776, 27603270,
    49767700316681915183293334055864739312502554394661835759120177944487457740877337959469776, lc0⟩) (.leaf ⟨674, 16,
    19, 5820, 16, 3611, ⟨[[(0, 2103497685330944)], [(0, 1105035574193947)]], 2, 3⟩, ⟨[[(0, 644511089852416),
    (356567175242991, 0), (1070514893, 0), (423625, 0)], [(112519381264044, 0), (34624674163, 0), (4369474, 0), (484,
    0)], [(32304331367, 0), (11509679, 0), (2332, 0)]], 2, 3⟩, 4503599627370496, 146, 2979742155787,
    ⟨[[(672407589851794, 0), (134849047076, 0), (0, 34621500), (0, 6673)], [(13670745929, 0), (45837012, 0), (52470,
    0), (56, 0)], [(0, 10606358), (0, 32732), (0, 65)]], 2, 3⟩, 1099511627776, 31386951,
    48529666845076743279868117151205162683065221051210660881260174044743881791358576437602630, lc0⟩)) (.sx (.leaf
    ⟨703, 16, 19, 5873, 16, 3629, ⟨[[(2106453172585984, 0)], [(0, 1105035574193947)]], 2, 3⟩, ⟨[[(2069190386364416,
    0), (354805462651754, 0), (977667542, 0), (400022, 0)], [(117247168933800, 0), (35007859255, 0), (4324206, 0),
    (464, 0)], [(33520307332, 0), (11710882, 0), (2295, 0)]], 2, 3⟩, 4503599627370496, 322, 3065450978102,
    ⟨[[(676026218538424, 0), (133893493861, 0), (0, 33135943), (0, 3542)], [(14151142247, 0), (46208687, 0), (52142,
    0), (54, 0)], [(0, 10806342), (0, 32894), (0, 65)]], 2, 3⟩, 1099511627776, 31584807,
    46077592167745084344840753527572368507419130316053369949409929384309907623357837870812366, lc0⟩) (.leaf ⟨674, 16,
    19, 5765, 16, 3560, ⟨[[(0, 2103497685330944)], [(0, 1105035574193947)]], 2, 3⟩, ⟨[[(55397042425856, 0),
    (352427668657693, 0), (1512153228, 0), (453043, 0)], [(123426544438310, 0), (37334379327, 0), (4842970, 0), (543,
    0)], [(36116750260, 0), (13091871, 0), (2699, 0)]], 2, 3⟩, 4503599627370496, 146, 3704669165793,
    ⟨[[(676101387089791, 0), (134828927837, 0), (0, 36122055), (0, 5261)], [(14976461301, 0), (49564480, 0), (59010,
    0), (65, 0)], [(0, 11561177), (0, 37093), (0, 76)]], 2, 3⟩, 1099511627776, 36084560,
    44089183099082525912811285196667907182372068148441954924520337195081782885741549927618899, lc0⟩))) (.sy (.leaf
    ⟨326, 16, 9, 5107, 16, 3140, ⟨[[(593278882161920, 0)], [(0, 1046875807131107)]], 2, 3⟩, ⟨[[(2070672742977536, 0),
    (309779962610922, 0), (1488051118, 0), (402745, 0)], [(233253830931030, 0), (69061783535, 0), (8967049, 0), (991,
    0)], [(137761899433, 0), (49785795, 0), (10153, 0), (2, 0)]], 2, 3⟩, 4503599627370496, 55, 78669758819657,
    ⟨[[(679691739016259, 0), (151637117584, 0), (0, 45698123), (0, 3358)], [(33582035141, 0), (123286018, 0),
    (167667, 0), (210, 0)], [(0, 54292050), (0, 199029), (0, 466), (0, 1)]], 2, 3⟩, 1099511627776, 361854000,
    38111929214141238774429025231472802635953354023401210627377058555986120572223165139836595, lc0⟩) (.leaf ⟨326, 16,
    9, 4994, 16, 3056, ⟨[[(593278882161920, 0)], [(0, 1046875807131107)]], 2, 3⟩, ⟨[[(1355597865070592, 0),
    (302654676162968, 0), (1877108313, 0), (425482, 0)], [(251650701135246, 0), (73693383677, 0), (9807986, 0),
    (1098, 0)], [(152315457147, 0), (55979339, 0), (11692, 0), (2, 0)]], 2, 3⟩, 4503599627370496, 55,
    113410516693556, ⟨[[(683344964908929, 0), (153522246354, 0), (0, 48353380), (733, 0)], [(36675986221, 0),
    (135432575, 0), (194079, 0), (255, 0)], [(0, 59409103), (0, 229313), (0, 560), (0, 1)]], 2, 3⟩, 1099511627776,
    416075199, 34888748592386661629662068312808162418089962566607829687941445043132057859371362077549447, lc0⟩)))
    (.sy (.sx (.sy (.leaf ⟨644, 16, 19, 5713, 16, 3543, ⟨[[(0, 1809848915877376)], [(0, 1105035574193947)]], 2, 3⟩,
    ⟨[[(1620761458016256, 0), (354172831343903, 0), (1609630634, 0), (479271, 0)], [(118504875368110, 0),
    (36917099214, 0), (4900627, 0), (573, 0)], [(34808712677, 0), (12898366, 0), (2766, 0)]], 2, 3⟩,
    4503599627370496, 77, 3611535549031, ⟨[[(672340881317265, 0), (135808825295, 0), (0, 37730824), (0, 8810)],
    [(14453285240, 0), (49118242, 0), (59324, 0), (67, 0)], [(0, 11345418), (0, 36927), (0, 77)]], 2, 3⟩,
    1099511627776, 35756302,
    45718633537054328290619801978280374696538777690765300668136755214238728786600686631762924, lc0⟩) (.leaf ⟨644, 16,
    19, 5649, 16, 3486, ⟨[[(0, 1809848915877376)], [(0, 1105035574193947)]], 2, 3⟩, ⟨[[(0, 1924812776927232),
    (349761998767336, 0), (2101438032, 0), (515476, 0)], [(129927198243532, 0), (39915871714, 0), (5458674, 0), (653,
    0)], [(39044778874, 0), (14778749, 0), (3267, 0), (1, 0)]], 2, 3⟩, 4503599627370496, 77, 4596826973856,
    ⟨[[(676162879037540, 0), (135833422344, 0), (0, 39680783), (0, 7538)], [(15895951548, 0), (53512284, 0), (67497,
    0), (79, 0)], [(0, 12457699), (0, 42279), (0, 91)]], 2, 3⟩, 1099511627776, 41469851,
    40486214837375326522941273499716012468997153615894926189695478646792377458687345281555848, lc0⟩)) (.leaf ⟨614,
    16, 19, 2950, 16, 1824, ⟨[[(0, 1516200146423808)], [(0, 1105035574193947)]], 2, 3⟩, ⟨[[(1088011471351808, 0),
    (370378779655143, 0), (5253923794, 0), (2408672, 0)], [(69324643726509, 0), (43600535935, 0), (12439319, 0),
    (3171, 0)], [(21188299641, 0), (16659497, 0), (7847, 0), (3, 0)]], 2, 3⟩, 4503599627370496, 253, 5597170052840,
    ⟨[[(674192534075061, 0), (258210489733, 0), (0, 151398019), (0, 74361)], [(16058750570, 0), (104339439, 0),
    (257320, 0), (587, 0)], [(0, 12803102), (0, 84878), (0, 354), (0, 1)]], 2, 3⟩, 1099511627776, 61413735,
    47285393260821633616475625727769048849600371501253031593986641723417795162268717684032028, lc0⟩)) (.sx (.leaf
    ⟨644, 16, 19, 2957, 16, 1812, ⟨[[(0, 1809848915877376)], [(0, 1105035574193947)]], 2, 3⟩, ⟨[[(1622983437871104,
    0), (366366118384773, 0), (6180261087, 0), (2466880, 0)], [(79262161489965, 0), (48062168332, 0), (13761437, 0),
    (3456, 0)], [(24845275774, 0), (19510819, 0), (9172, 0), (4, 0)]], 2, 3⟩, 4503599627370496, 77, 7204722056119,
    ⟨[[(681505501489955, 0), (255185928148, 0), (0, 149505474), (0, 30069)], [(18137716413, 0), (114046296, 0),
    (287689, 0), (663, 0)], [(0, 14294180), (0, 96712), (0, 409), (0, 1)]], 2, 3⟩, 1099511627776, 80369617,
    40285130514283762313741719268353708318482622698397654403848324428411066467998812531688181, lc0⟩) (.leaf ⟨614, 16,
    19, 2893, 16, 1771, ⟨[[(0, 1516200146423808)], [(0, 1105035574193947)]], 2, 3⟩, ⟨[[(0, 1682578197327872),
    (364108554321167, 0), (7828080787, 0), (2885453, 0)], [(83751195181494, 0), (52067722781, 0), (15976177, 0),
    (4473, 0)], [(27317985857, 0), (22868966, 0), (11930, 0), (5, 0)]], 2, 3⟩, 4503599627370496, 253, 10307835404279,
    ⟨[[(681695569647771, 0), (256534541015, 0), (0, 166405574), (0, 50992)], [(19386133274, 0), (124862591, 0),
    (335504, 0), (819, 0)], [(0, 15654489), (0, 112312), (0, 497), (0, 2)]], 2, 3⟩, 1099511627776, 90238048,
    45973393174846301813706763256863132172478054331181503367508112657432583565269486529532495, lc0⟩)))
theorem c31 : checkC job ⟨6, 8, 5, 6, 9, 13⟩ 1 40 B1.zlims t31 1601 61 320 7393 175 7584 = true := by decide +kernel

def t32 : CTree :=
  .sx (.sy (.leaf ⟨269, 16, 9, 2800, 16, 1764, ⟨[[(1860760702289920, 0)], [(0, 1046875807131107)]], 2, 3⟩, ⟨[[(0,
    1204675320258560), (359729816001536, 0), (2456953041, 0), (1975589, 0)], [(94511713899980, 0), (64997809518, 0),
    (17553197, 0), (4365, 0)], [(55207038322, 0), (41975419, 0), (19002, 0), (7, 0)]], 2, 3⟩, 4503599627370496, 70,
    33821005752853, ⟨[[(659083470289878, 0), (279380852181, 0), (0, 155811436), (0, 127402)], [(25128111883, 0),
    (187991036, 0), (453540, 0), (1037, 0)], [(0, 44087753), (0, 288373), (0, 1212), (0, 4)]], 2, 3⟩, 1099511627776,
    311284951, 38272481000032766753092804939201769213705776571770886014180211951073217999096086446136691, lc0⟩)
    (.leaf ⟨269, 16, 9, 2740, 16, 1709, ⟨[[(1860760702289920, 0)], [(0, 1046875807131107)]], 2, 3⟩, ⟨[[(0,
    1765000665022464), (350930602332615, 0), (4597991683, 0), (2332297, 0)], [(115885359155089, 0), (76616313984, 0),
    (22279247, 0), (5947, 0)], [(70301163696, 0), (56487518, 0), (27600, 0), (11, 0)]], 2, 3⟩, 4503599627370496, 70,
    73719201951537, ⟨[[(666829908142531, 0), (278995971484, 0), (0, 177375628), (0, 136489)], [(30810566109, 0),
    (223190977, 0), (588715, 0), (1450, 0)], [(0, 53270465), (0, 378738), (0, 1698), (0, 6)]], 2, 3⟩, 1099511627776,
    423229242, 40570258763510900935097305318618229037550114195130747530666079382533813605411792035095884, lc0⟩)) (.sy
    (.leaf ⟨241, 16, 9, 2699, 16, 1699, ⟨[[(242701798668800, 0)], [(0, 1046875807131107)]], 2, 3⟩,
    ⟨[[(994244658696192, 0), (354773004806386, 0), (4742425188, 0), (2537878, 0)], [(105293887507200, 0),
    (73982721653, 0), (22436791, 0), (6434, 0)], [(64341049329, 0), (53862582, 0), (28006, 0), (12, 0)]], 2, 3⟩,
    4503599627370496, 57, 66696930913578, ⟨[[(658961382017098, 0), (283556968600, 0), (0, 183927143), (0, 179486)],
    [(28220027553, 0), (216107855, 0), (580668, 0), (1468, 0)], [(0, 50645143), (0, 368077), (0, 1683), (0, 6)]], 2,
    3⟩, 1099511627776, 401390622,
    26355584179016100094816090760303753415187605888419792643564140108129134497210483135838012, lc0⟩) (.leaf ⟨241, 16,
    9, 2618, 16, 1631, ⟨[[(242701798668800, 0)], [(0, 1046875807131107)]], 2, 3⟩, ⟨[[(0, 879312638349312),
    (344731700777997, 0), (7447016794, 0), (3122914, 0)], [(128870035563872, 0), (88715507211, 0), (29584711, 0),
    (9452, 0)], [(83744104273, 0), (75830631, 0), (43684, 0), (21, 0)]], 2, 3⟩, 4503599627370496, 57,
    153390881466935, ⟨[[(666793775245379, 0), (284141632436, 0), (0, 216350157), (0, 209811)], [(34798618574, 0),
    (263141285, 0), (783549, 0), (2148, 0)], [(0, 62479020), (0, 497918), (0, 2440), (0, 9)]], 2, 3⟩, 1099511627776,
    546279440, 28178219597197702094461965201146058824969128238417357249092819715485630102378476315535209, lc0⟩))
theorem c32 : checkC job ⟨6, 8, 5, 6, 9, 13⟩ 1 40 B1.zlims t32 1723 61 320 7043 175 7584 = true := by decide +kernel

def t33 : CTree :=
  .sx (.sy (.sx (.leaf ⟨584, 16, 19, 2892, 16, 1787, ⟨[[(0, 1222551376970752)], [(0, 1105035574193947)]], 2, 3⟩,
    ⟨[[(1381221783482368, 0), (368333718644932, 0), (6758866947, 0), (2790468, 0)], [(73269173814747, 0),
    (47046276468, 0), (14323544, 0), (4009, 0)], [(23177071418, 0), (19309062, 0), (9959, 0), (4, 0)]], 2, 3⟩,
    4503599627370496, 130, 7865388876017, ⟨[[(674177602874378, 0), (259668500003, 0), (0, 166664103), (0, 97783)],
    [(17060531192, 0), (113045125, 0), (295518, 0), (711, 0)], [(0, 13880732), (0, 97253), (0, 424), (0, 1)]], 2, 3⟩,
    1099511627776, 67709119,
    41570233356002769704099442471976131857633765141465133322993307556576752017493758101088560, lc0⟩) (.leaf ⟨554, 16,
    19, 2831, 16, 1748, ⟨[[(0, 928902607517184)], [(0, 1105035574193947)]], 2, 3⟩, ⟨[[(916985688018944, 0),
    (366208466843449, 0), (8479968752, 0), (3281150, 0)], [(77542158544418, 0), (51078273519, 0), (16749457, 0),
    (5199, 0)], [(25560618545, 0), (22761863, 0), (12881, 0), (6, 0)]], 2, 3⟩, 4503599627370496, 93, 11280413476420,
    ⟨[[(674206312593870, 0), (261122622525, 0), (0, 184678050), (0, 127601)], [(18182998562, 0), (123285859, 0),
    (342570, 0), (869, 0)], [(0, 15145602), (0, 112289), (0, 511), (0, 2)]], 2, 3⟩, 1099511627776, 74212666,
    35325605173610324954133474562946208458380775868278640289366265613050547110042561584556414, lc0⟩)) (.sy (.leaf
    ⟨269, 16, 9, 4506, 16, 2762, ⟨[[(1860760702289920, 0)], [(0, 1046875807131107)]], 2, 3⟩, ⟨[[(0,
    1877741256622080), (290556474861305, 0), (3986181449, 0), (714506, 0)], [(279274730582177, 0), (90849479097, 0),
    (15394532, 0), (2490, 0)], [(191805998919, 0), (87912677, 0), (25904, 0), (7, 0)]], 2, 3⟩, 4503599627370496, 70,
    350319016144756, ⟨[[(679826630994469, 0), (161513131585, 0), (0, 74804111), (0, 25297)], [(43090626122, 0),
    (180373229, 0), (325508, 0), (529, 0)], [(0, 76144705), (0, 364608), (0, 1059), (0, 2)]], 2, 3⟩, 1099511627776,
    650529928, 21369511172576409435134740753729480326154623810960212189832596746044817081949013255274286, lc0⟩) (.sx
    (.leaf ⟨584, 16, 19, 5190, 16, 3167, ⟨[[(0, 1222551376970752)], [(0, 1105035574193947)]], 2, 3⟩, ⟨[[(0,
    472752552660992), (333199463323234, 0), (4886821153, 0), (842666, 0)], [(171868003387843, 0), (55242350977, 0),
    (9425234, 0), (1539, 0)], [(60228708080, 0), (27786156, 0), (8285, 0), (2, 0)]], 2, 3⟩, 4503599627370496, 130,
    14411341024380, ⟨[[(683426733811977, 0), (139456915594, 0), (0, 55951953), (0, 11494)], [(21616529534, 0),
    (77738475, 0), (123172, 0), (175, 0)], [(0, 18066615), (0, 75807), (0, 192)]], 2, 3⟩, 1099511627776, 74356364,
    49422324551567552431903057463060795529408619997177014502685199033961227228344461729769352, lc0⟩) (.sx (.leaf
    ⟨1152, 16, 39, 5541, 16, 3379, ⟨[[(431448362739712, 0)], [(0, 1134115457725366)]], 2, 3⟩, ⟨[[(710664891310080,
    0), (361159997731922, 0), (6214493436, 0), (1070334, 0)], [(97901122459589, 0), (32430549413, 0), (5944178, 0),
    (1063, 0)], [(17954012049, 0), (8820752, 0), (2822, 0), (1, 0)]], 2, 3⟩, 4503599627370496, 427, 1560887050393,
    ⟨[[(683386145972115, 0), (128639802222, 0), (0, 51842087), (0, 12587)], [(11077844110, 0), (37547365, 0), (57471,
    0), (78, 0)], [(0, 4619579), (0, 18620), (0, 45)]], 2, 3⟩, 1099511627776, 10817858,
    49249279577564168372792911730292384909575611709668999839697206009911671068301760368003606, lc0⟩) (.leaf ⟨1121,
    16, 39, 5462, 16, 3329, ⟨[[(1680950968730624, 0)], [(0, 1134115457725366)]], 2, 3⟩, ⟨[[(0, 735882094858240),
    (359848499732183, 0), (6880751384, 0), (1194147, 0)], [(100941823310218, 0), (34204640595, 0), (6593834, 0),
    (1249, 0)], [(19140808702, 0), (9814190, 0), (3280, 0), (1, 0)]], 2, 3⟩, 4503599627370496, 648, 1788729956895,
    ⟨[[(683424780902542, 0), (129040704753, 0), (0, 55432363), (0, 15529)], [(11488373820, 0), (39690150, 0), (62949,
    0), (88, 0)], [(0, 4873114), (0, 20264), (0, 50)]], 2, 3⟩, 1099511627776, 11493615,
    49291666123720419181102878016578161909012359276262250784128226020623982088791063739577634, lc0⟩))))) (.sy (.sx
    (.leaf ⟨524, 16, 19, 2765, 16, 1706, ⟨[[(0, 635253838063616)], [(0, 1105035574193947)]], 2, 3⟩,
    ⟨[[(1410403421149184, 0), (363845088485983, 0), (10477058949, 0), (3923918, 0)], [(82177206399826, 0),
    (55856440706, 0), (19904642, 0), (6861, 0)], [(28447251498, 0), (27249375, 0), (16813, 0), (9, 0)]], 2, 3⟩,
    4503599627370496, 269, 16424969940436, ⟨[[(674179047979284, 0), (262822653629, 0), (0, 206186502), (0, 166420)],
    [(19398167162, 0), (135203388, 0), (400297, 0), (1071, 0)], [(0, 16585614), (0, 130238), (0, 618), (0, 2)]], 2,
    3⟩, 1099511627776, 80671885,
    28651495900577860600767770933250831423059322981687370155689505410018667277191748251910065, lc0⟩) (.leaf ⟨494, 16,
    19, 2693, 16, 1660, ⟨[[(0, 341605068610560)], [(0, 1105035574193947)]], 2, 3⟩, ⟨[[(55154143113216, 0),
    (361089904353055, 0), (12826817180, 0), (4774715, 0)], [(87217033719806, 0), (61576339364, 0), (24013367, 0),
    (9152, 0)], [(31956989390, 0), (33020359, 0), (22015, 0), (12, 0)]], 2, 3⟩, 4503599627370496, 114,
    24130425950728, ⟨[[(674259292637260, 0), (264627552838, 0), (0, 232736540), (0, 217673)], [(20812621269, 0),
    (149822096, 0), (474638, 0), (1342, 0)], [(0, 18317801), (0, 152710), (0, 758), (0, 3)]], 2, 3⟩, 1099511627776,
    88031026, 22026142390052954693572280163400820927276283873630182043874389695967950801554544120562614, lc0⟩)) (.sx
    (.sx (.sy (.leaf ⟨1091, 16, 39, 5482, 16, 3357, ⟨[[(0, 1573146052649984)], [(0, 1134115457725366)]], 2, 3⟩,
    ⟨[[(1163962011652096, 0), (362251237478457, 0), (6480927359, 0), (1153636, 0)], [(94588561378681, 0),
    (32301115803, 0), (6146013, 0), (1144, 0)], [(17475344442, 0), (8854553, 0), (2912, 0), (1, 0)]], 2, 3⟩,
    4503599627370496, 189, 1558638114566, ⟨[[(679749684796071, 0), (129654992623, 0), (0, 54966798), (0, 19304)],
    [(10775777042, 0), (37405335, 0), (58263, 0), (81, 0)], [(0, 4558141), (0, 18672), (0, 46)]], 2, 3⟩,
    1099511627776, 10113833,
    17668532283137432659253202078076857847548773705061592836214233400019806623684104765570273, lc0⟩) (.leaf ⟨1091,
    16, 39, 5378, 16, 3276, ⟨[[(0, 1573146052649984)], [(0, 1134115457725366)]], 2, 3⟩, ⟨[[(0, 1642621551996928),
    (358375905529718, 0), (7613674949, 0), (1339457, 0)], [(104124881028578, 0), (36170276284, 0), (7346063, 0),
    (1473, 0)], [(20462461088, 0), (10951312, 0), (3817, 0), (1, 0)]], 2, 3⟩, 4503599627370496, 189, 2059201188289,
    ⟨[[(683459517927539, 0), (129548470449, 0), (0, 59406880), (0, 18926)], [(11910440727, 0), (42007642, 0), (69067,
    0), (100, 0)], [(0, 5139371), (0, 22054), (0, 56)]], 2, 3⟩, 1099511627776, 12242345,
    48641930794195781006332767977203512056280319016633481153778894649798621542569617284144822, lc0⟩)) (.leaf ⟨1060,
    16, 39, 2790, 16, 1703, ⟨[[(0, 323643446659072)], [(0, 1134115457725366)]], 2, 3⟩, ⟨[[(0, 1275094867474432),
    (374385622836603, 0), (16221374947, 0), (5805761, 0)], [(53417299169882, 0), (37689408062, 0), (15588931, 0),
    (6357, 0)], [(10535376639, 0), (11435930, 0), (8063, 0), (5, 0)]], 2, 3⟩, 4503599627370496, 66, 16831010065898,
    ⟨[[(681670356537677, 0), (249247243928, 0), (0, 225225677), (0, 161870)], [(11768016377, 0), (80518809, 0),
    (256195, 0), (714, 0)], [(0, 5114448), (0, 42432), (0, 207), (0, 1)]], 2, 3⟩, 1099511627776, 29190977,
    48124004697460357463396336353904105026397860973695612521538620898431199806595053910480044, lc0⟩)) (.sy (.leaf
    ⟨494, 16, 19, 4804, 16, 2938, ⟨[[(0, 341605068610560)], [(0, 1105035574193947)]], 2, 3⟩, ⟨[[(0, 265422661804032),
    (326458395836766, 0), (7584787249, 0), (1391868, 0)], [(186226051314900, 0), (67579816483, 0), (14586624, 0),
    (3104, 0)], [(75029218563, 0), (42106837, 0), (15315, 0), (5, 0)]], 2, 3⟩, 4503599627370496, 114, 26322797982482,
    ⟨[[(679790473061910, 0), (143746011142, 0), (0, 78714733), (0, 38600)], [(24234390997, 0), (97187633, 0),
    (181929, 0), (297, 0)], [(0, 21943733), (0, 106772), (0, 303), (0, 1)]], 2, 3⟩, 1099511627776, 96657197,
    18007685473791770735906973690005856055726136585524205429331719157210204352051479547888052, lc0⟩) (.leaf ⟨494, 16,
    19, 4640, 16, 2823, ⟨[[(0, 341605068610560)], [(0, 1105035574193947)]], 2, 3⟩, ⟨[[(2221921231040512, 0),
    (319308245296740, 0), (8846992083, 0), (1648955, 0)], [(203519167210662, 0), (75964605077, 0), (17694099, 0),
    (4103, 0)], [(88268620623, 0), (52654649, 0), (20550, 0), (7, 0)]], 2, 3⟩, 4503599627370496, 114, 37730730610678,
    ⟨[[(683336950964832, 0), (145427873961, 0), (0, 88351190), (0, 42116)], [(26784604278, 0), (111229555, 0),
    (222965, 0), (385, 0)], [(0, 24814863), (0, 128172), (0, 382), (0, 1)]], 2, 3⟩, 1099511627776, 114134122,
    47328686611040432693551912910171809763271695065374257423148003159325393111435699958580007, lc0⟩))))
theorem c33 : checkC job ⟨6, 8, 5, 6, 9, 13⟩ 1 40 B1.zlims t33 1723 61 320 7393 175 7584 = true := by decide +kernel

def t34 : CTree :=
  .sy (.sy (.leaf ⟨151, 52, 8, 1129, 16, 808, ⟨[[(1123648107028992, 0)], [(0, 3722225092021715)]], 2, 3⟩, ⟨[[(0,
    719948010482688), (375056442411824, 0), (0, 19551593943), (4275712, 0)], [(0, 43478245443737), (59572400148, 0),
    (20024870, 0), (6425, 0)], [(40494848344, 0), (50161816, 0), (31755, 0), (16, 0)]], 2, 3⟩, 4503599627370496, 57,
    35453590902961, ⟨[[(553011932309668, 0), (747134106567, 0), (0, 336636780), (0, 743316)], [(0, 8539115732),
    (153149699, 0), (541947, 0), (1678, 0)], [(0, 11634724), (0, 119935), (0, 717), (0, 4)]], 2, 3⟩, 1099511627776,
    1444497035, 31682588696888296262008224235350539430485686601197113258873106676150492516780503845449221, lc0⟩) (.sx
    (.leaf ⟨176, 26, 8, 1246, 16, 870, ⟨[[(2061522729428864, 0)], [(0, 1861112546010858)]], 2, 3⟩,
    ⟨[[(2130935017894912, 0), (388367799507055, 0), (0, 17061294528), (4426118, 0)], [(0, 12678822813614),
    (38618959807, 0), (13677199, 0), (4541, 0)], [(15646307430, 0), (19216315, 0), (12582, 0), (7, 0)]], 2, 3⟩,
    4503599627370496, 52, 8013599809326, ⟨[[(573695976178444, 0), (678775227456, 0), (0, 335188906), (0, 674528)],
    [(0, 4510847117), (167275465, 0), (572084, 0), (1784, 0)], [(0, 14889533), (0, 145915), (0, 866), (0, 5)]], 2,
    3⟩, 1099511627776, 331247394,
    21385000856064627531473785293036922419309843035384127256178761075456870216089081004865062, lc0⟩) (.leaf ⟨126, 26,
    8, 1235, 16, 862, ⟨[[(185773484629056, 0)], [(0, 1861112546010857)]], 2, 3⟩, ⟨[[(0, 1238589719110656),
    (389769807030638, 0), (0, 15044292450), (5046704, 0)], [(0, 8473673370873), (43456117727, 0), (17136308, 0),
    (6492, 0)], [(18114805940, 0), (23771133, 0), (17254, 0), (10, 0)]], 2, 3⟩, 4503599627370496, 52, 14746825748316,
    ⟨[[(574192242870860, 0), (675900335133, 0), (0, 374124189), (0, 801810)], [(0, 2855535147), (185606463, 0),
    (689387, 0), (2447, 0)], [(0, 16664107), (0, 178413), (0, 1213), (0, 7)]], 2, 3⟩, 1099511627776, 438635656,
    38590989644635757664646401018492540575934201608579003028808938642403925411954558752867266, lc0⟩))) (.sy (.sx
    (.leaf ⟨176, 26, 8, 1320, 16, 900, ⟨[[(2061522729428864, 0)], [(0, 1861112546010858)]], 2, 3⟩,
    ⟨[[(1089969510548480, 0), (391115964969871, 0), (0, 12704620270), (4906599, 0)], [(2827604213481, 0),
    (51892069826, 0), (20494849, 0), (7725, 0)], [(25084943823, 0), (32159077, 0), (23278, 0), (14, 0)]], 2, 3⟩,
    4503599627370496, 52, 21586458882761, ⟨[[(593738428451506, 0), (634827039083, 0), (0, 375950201), (0, 745651)],
    [(1076080094, 0), (200281758, 0), (722374, 0), (2503, 0)], [(0, 20194350), (0, 206378), (0, 1351), (0, 8)]], 2,
    3⟩, 1099511627776, 531928279,
    21930302774419795199322065106420252028624379284327032735667674716829675703371782617623888, lc0⟩) (.sy (.leaf
    ⟨126, 26, 8, 2561, 16, 1756, ⟨[[(185773484629056, 0)], [(0, 1861112546010857)]], 2, 3⟩, ⟨[[(630580137031680, 0),
    (390052543767665, 0), (0, 5545383586), (1418057, 0)], [(8647572286301, 0), (55004374387, 0), (11964653, 0),
    (2540, 0)], [(52472357023, 0), (36069537, 0), (14348, 0), (5, 0)]], 2, 3⟩, 4503599627370496, 52, 20902028716563,
    ⟨[[(588980751626387, 0), (323035396240, 0), (0, 104183072), (0, 113186)], [(1626332510, 0), (108114042, 0),
    (213253, 0), (415, 0)], [(0, 21305081), (0, 120239), (0, 443), (0, 1)]], 2, 3⟩, 1099511627776, 425070673,
    33570055869912099527685978729694095741995665307384679903471740047674854793894149805571253, lc0⟩) (.leaf ⟨126, 26,
    8, 2562, 16, 1736, ⟨[[(185773484629056, 0)], [(0, 1861112546010857)]], 2, 3⟩, ⟨[[(0, 890272010627072),
    (382304295783628, 0), (0, 3936307048), (1553312, 0)], [(29146890502215, 0), (63684432661, 0), (14925414, 0),
    (3450, 0)], [(66315294744, 0), (47566817, 0), (20275, 0), (7, 0)]], 2, 3⟩, 4503599627370496, 52, 44877353471881,
    ⟨[[(598738200392876, 0), (319991202381, 0), (0, 117916012), (0, 133523)], [(5136740517, 0), (123805391, 0),
    (262542, 0), (556, 0)], [(0, 25429666), (0, 153360), (0, 607), (0, 2)]], 2, 3⟩, 1099511627776, 578841204,
    30830098580963552638205632416733856100478298770370565387461963154989847399226159827938281, lc0⟩))) (.sx (.leaf
    ⟨176, 26, 8, 1347, 16, 898, ⟨[[(2061522729428864, 0)], [(0, 1861112546010858)]], 2, 3⟩, ⟨[[(1530354719958016, 0),
    (383257972437340, 0), (0, 7139529323), (5773303, 0)], [(23830373597856, 0), (69537361398, 0), (31344104, 0),
    (13755, 0)], [(39821894044, 0), (54929541, 0), (44781, 0), (30, 0)]], 2, 3⟩, 4503599627370496, 52,
    97511301435197, ⟨[[(612423643962010, 0), (611465517340, 0), (0, 452770659), (0, 932044)], [(7810679470, 0),
    (252099330, 0), (1012824, 0), (4012, 0)], [(0, 27847845), (0, 314134), (0, 2325), (0, 14)]], 2, 3⟩,
    1099511627776, 915103768,
    18389524391401952963596567800008725655551562240354221221657086151379731015916649815211655, lc0⟩) (.sy (.leaf
    ⟨126, 26, 8, 2545, 16, 1705, ⟨[[(185773484629056, 0)], [(0, 1861112546010857)]], 2, 3⟩, ⟨[[(658181410002944, 0),
    (373356635328502, 0), (0, 2154204545), (1750178, 0)], [(52471977561058, 0), (74206205704, 0), (18895250, 0),
    (4780, 0)], [(84260740470, 0), (63684945, 0), (29297, 0), (11, 0)]], 2, 3⟩, 4503599627370496, 52,
    111351393496265, ⟨[[(608000710516812, 0), (318414686138, 0), (0, 135252452), (0, 161403)], [(9000725001, 0),
    (143295209, 0), (329919, 0), (760, 0)], [(0, 30493507), (0, 198160), (0, 843), (0, 3)]], 2, 3⟩, 1099511627776,
    790846787, 23134243204983393004721806338317987253087370707783313809627398220196537693855526569324599, lc0⟩) (.sx
    (.leaf ⟨156, 16, 9, 2657, 16, 1760, ⟨[[(0, 107875284824320)], [(0, 1046875807131107)]], 2, 3⟩, ⟨[[(0,
    1740082455093248), (381813234776052, 0), (0, 901882890), (1952146, 0)], [(38431207632375, 0), (43493042626, 0),
    (11584972, 0), (3060, 0)], [(26667071797, 0), (20708577, 0), (9890, 0), (4, 0)]], 2, 3⟩, 4503599627370496, 59,
    8283083909611, ⟨[[(617271720915923, 0), (302439837930, 0), (0, 136430110), (0, 158709)], [(11140883695, 0),
    (136305825, 0), (315513, 0), (726, 0)], [(0, 27843397), (0, 180512), (0, 762), (0, 3)]], 2, 3⟩, 1099511627776,
    171518852, 10154908313929324926860259679826445106105570296618601709000817104162181434594902578187830, lc0⟩)
    (.leaf ⟨128, 16, 9, 2602, 16, 1723, ⟨[[(0, 1725934188445568)], [(0, 1046875807131107)]], 2, 3⟩, ⟨[[(0,
    567772197062656), (379305078980823, 0), (660758110, 0), (2342744, 0)], [(44455755495753, 0), (48087640766, 0),
    (14109422, 0), (4162, 0)], [(30048812720, 0), (25139763, 0), (13247, 0), (6, 0)]], 2, 3⟩, 4503599627370496, 24,
    13520134484332, ⟨[[(617198517013428, 0), (304622197659, 0), (0, 152735099), (0, 193999)], [(12907616012, 0),
    (151050069, 0), (380924, 0), (951, 0)], [(0, 30898161), (0, 216982), (0, 979), (0, 3)]], 2, 3⟩, 1099511627776,
    206254182, 10885061987147309160386925334898106732903166687129966955292721567507590161269398392292381, lc0⟩)))))
theorem c34 : checkC job ⟨6, 8, 5, 6, 9, 13⟩ 1 40 B1.zlims t34 953 61 160 1367 175 1896 = true := by decide +kernel

def t35 : CTree :=
  .sy (.sx (.leaf ⟨76, 26, 8, 1145, 16, 820, ⟨[[(0, 1689975760170752)], [(0, 1861112546010857)]], 2, 3⟩, ⟨[[(0,
    943897502664704), (386627010956085, 0), (0, 17672591102), (5096659, 0)], [(0, 17892804893777), (35606153682, 0),
    (13798500, 0), (5207, 0)], [(12630899914, 0), (16943535, 0), (12190, 0), (7, 0)]], 2, 3⟩, 4503599627370496, 56,
    9931767471932, ⟨[[(553027968308096, 0), (724732327954, 0), (0, 368842208), (0, 852007)], [(0, 6799304566),
    (169822701, 0), (649147, 0), (2327, 0)], [(0, 13267662), (0, 147892), (0, 1029), (0, 6)]], 2, 3⟩, 1099511627776,
    349603921, 42513910245617413623853843348966023878672140608553956871501471855082849319520130135719320, lc0⟩) (.sy
    (.leaf ⟨25, 26, 8, 2204, 16, 1590, ⟨[[(937874622399904, 0)], [(0, 1861112546010857)]], 2, 3⟩,
    ⟨[[(579868923475968, 0), (382121092418512, 0), (0, 8386981545), (1377747, 0)], [(0, 34824561755111),
    (36202831504, 0), (7503378, 0), (1539, 0)], [(25157989028, 0), (17710086, 0), (6793, 0), (2, 0)]], 2, 3⟩,
    4503599627370496, 31, 5862466087263, ⟨[[(547338511696588, 0), (372465539136, 0), (0, 101337495), (0, 126209)],
    [(0, 6876666389), (89781179, 0), (185661, 0), (370, 0)], [(0, 13348070), (0, 80460), (0, 309), (0, 1)]], 2, 3⟩,
    1099511627776, 200567577,
    38221639942799710281214178463018672295997928544708109803293962983986361881835174754728252, lc0⟩) (.sx (.leaf ⟨43,
    16, 9, 2329, 16, 1658, ⟨[[(0, 2076511271938688)], [(0, 1046875807131107)]], 2, 3⟩, ⟨[[(1317362971107328, 0),
    (391563762956147, 0), (0, 7479566052), (1471367, 0)], [(0, 12040416504454), (21218081916, 0), (4600672, 0), (986,
    0)], [(8080922902, 0), (5747791, 0), (2294, 0), (1, 0)]], 2, 3⟩, 4503599627370496, 22, 1094233303527,
    ⟨[[(558170984901920, 0), (352403543799, 0), (0, 101531118), (0, 122121)], [(0, 3978430249), (84527561, 0),
    (173694, 0), (351, 0)], [(0, 12284817), (0, 73265), (0, 283), (0, 1)]], 2, 3⟩, 1099511627776, 50006825,
    44815549028407533222778270351344415936334306246847897156950951488098746900486277403252416, lc0⟩) (.leaf ⟨14, 16,
    9, 2318, 16, 1650, ⟨[[(809029451810600, 0)], [(0, 1046875807131107)]], 2, 3⟩, ⟨[[(0, 1098028541454336),
    (392339093063718, 0), (0, 6848908650), (1596191, 0)], [(0, 9937390302811), (22596392911, 0), (5186077, 0), (1190,
    0)], [(8734203165, 0), (6436914, 0), (2714, 0), (1, 0)]], 2, 3⟩, 4503599627370496, 24, 1347371520597,
    ⟨[[(558359368124142, 0), (351533678900, 0), (0, 107952993), (0, 135240)], [(0, 3223491873), (89519554, 0),
    (193544, 0), (418, 0)], [(0, 13046301), (0, 81548), (0, 333), (0, 1)]], 2, 3⟩, 1099511627776, 56880289,
    49780915904232781694725607036476699662717550548174744124317844651199600294309248099159459, lc0⟩)))) (.sx (.sy
    (.leaf ⟨76, 26, 8, 2395, 16, 1683, ⟨[[(0, 1689975760170752)], [(0, 1861112546010857)]], 2, 3⟩,
    ⟨[[(1586899186927616, 0), (388347183466995, 0), (0, 6937115044), (1412230, 0)], [(0, 15374803636906),
    (45243025162, 0), (9678408, 0), (2029, 0)], [(37081489539, 0), (25791004, 0), (10137, 0), (3, 0)]], 2, 3⟩,
    4503599627370496, 56, 10972332820301, ⟨[[(568716422191373, 0), (344601061893, 0), (0, 102100087), (0, 118150)],
    [(0, 2741150847), (98446970, 0), (197950, 0), (390, 0)], [(0, 17077590), (0, 99375), (0, 374), (0, 1)]], 2, 3⟩,
    1099511627776, 298174619,
    46176609495945496109822439503978766126555340763138134794455757725325108339967980810042495, lc0⟩) (.sx (.leaf ⟨99,
    16, 9, 2509, 16, 1741, ⟨[[(1159606535303744, 0)], [(0, 1046875807131107)]], 2, 3⟩, ⟨[[(0, 273984810463232),
    (395623294189886, 0), (0, 5948975567), (1509745, 0)], [(0, 564459310095), (26288117546, 0), (5863811, 0), (1288,
    0)], [(11727219803, 0), (8283063, 0), (3384, 0), (1, 0)]], 2, 3⟩, 4503599627370496, 39, 1748300244652,
    ⟨[[(579101931690675, 0), (328063687808, 0), (0, 103591097), (0, 117220)], [(0, 31868611), (93431537, 0), (188627,
    0), (379, 0)], [(0, 15675566), (0, 91091), (0, 346), (0, 1)]], 2, 3⟩, 1099511627776, 69648157,
    40362595559186861174627298932269918089638316919440892601175207949189608122717917281520120, lc0⟩) (.leaf ⟨71, 16,
    9, 2483, 16, 1723, ⟨[[(0, 458452368317440)], [(0, 1046875807131107)]], 2, 3⟩, ⟨[[(107956591063040, 0),
    (394834742771663, 0), (0, 5126121568), (1668227, 0)], [(2409948336537, 0), (28160320476, 0), (6708706, 0), (1595,
    0)], [(12754700162, 0), (9417150, 0), (4107, 0), (2, 0)]], 2, 3⟩, 4503599627370496, 61, 2248145117284,
    ⟨[[(579070618147918, 0), (328785865938, 0), (0, 111428338), (0, 132800)], [(869901900, 0), (99841115, 0),
    (214019, 0), (462, 0)], [(0, 16758792), (0, 103150), (0, 417), (0, 1)]], 2, 3⟩, 1099511627776, 80223564,
    46383402917636608798573743192750946332556932688075168097348986785338062501468320882390716, lc0⟩))) (.sx (.sy (.sy
    (.leaf ⟨43, 16, 9, 4754, 16, 3351, ⟨[[(0, 2076511271938688)], [(0, 1046875807131107)]], 2, 3⟩, ⟨[[(0,
    1511444659359744), (392041810350357, 0), (0, 3176149243), (395533, 0)], [(0, 12398961565019), (24105923979, 0),
    (2767030, 0), (316, 0)], [(19731503557, 0), (7202975, 0), (1517, 0)]], 2, 3⟩, 4503599627370496, 22,
    1685050737110, ⟨[[(566281179318190, 0), (171932316060, 0), (0, 27048743), (0, 16483)], [(0, 1921795111),
    (46105206, 0), (49156, 0), (52, 0)], [(0, 14146927), (0, 43556), (0, 88)]], 2, 3⟩, 1099511627776, 47642648,
    47495361878215391523963455655361575118693235106682587535715454011691725347086812508602699, lc0⟩) (.leaf ⟨43, 16,
    9, 4844, 16, 3393, ⟨[[(0, 2076511271938688)], [(0, 1046875807131107)]], 2, 3⟩, ⟨[[(48688180043776, 0),
    (394853980865676, 0), (0, 2784620535), (421918, 0)], [(0, 3654013972064), (26493781806, 0), (3167867, 0), (379,
    0)], [(22732038618, 0), (8477020, 0), (1859, 0)]], 2, 3⟩, 4503599627370496, 22, 2123716148180,
    ⟨[[(571420975506330, 0), (168153989956, 0), (0, 27886590), (0, 17098)], [(0, 491019385), (48597894, 0), (52886,
    0), (58, 0)], [(0, 15538665), (0, 48644), (0, 100)]], 2, 3⟩, 1099511627776, 55804656,
    49916131610941107504354092226500909376026332971582657192980329702344725345467505095259639, lc0⟩)) (.sx (.leaf
    ⟨105, 16, 19, 2474, 16, 1717, ⟨[[(0, 1027770693086848)], [(0, 1105035574193947)]], 2, 3⟩, ⟨[[(2028202564720640,
    0), (396109002100288, 0), (0, 4460383310), (1821419, 0)], [(2407700946819, 0), (14938436044, 0), (3749091, 0),
    (949, 0)], [(3422382737, 0), (2619205, 0), (1204, 0)]], 2, 3⟩, 4503599627370496, 47, 821229268429,
    ⟨[[(578928548066307, 0), (327838871989, 0), (0, 116835578), (0, 144530)], [(741213075, 0), (49560622, 0),
    (110827, 0), (251, 0)], [(0, 3956998), (0, 25317), (0, 106)]], 2, 3⟩, 1099511627776, 21458464,
    48762868550782391960836835430414851926010686170439748170262972398389657243890345844948834, lc0⟩) (.sy (.leaf ⟨75,
    16, 19, 4901, 16, 3411, ⟨[[(0, 734121923633472)], [(0, 1105035574193947)]], 2, 3⟩, ⟨[[(0, 2107732156297216),
    (396042391632928, 0), (0, 2227715730), (465511, 0)], [(3833359965222, 0), (14815965627, 0), (1883038, 0), (242,
    0)], [(6684974190, 0), (2586532, 0), (603, 0)]], 2, 3⟩, 4503599627370496, 31, 346238922755, ⟨[[(576620256748359,
    0), (165098186566, 0), (0, 29678227), (0, 18727)], [(631952967, 0), (24930161, 0), (28361, 0), (33, 0)], [(0,
    3922286), (0, 12756), (0, 27)]], 2, 3⟩, 1099511627776, 8000758,
    50484125120717799108284301398090618710609304533524155044913712342793573210282254209157623, lc0⟩) (.leaf ⟨75, 16,
    19, 4924, 16, 3406, ⟨[[(0, 734121923633472)], [(0, 1105035574193947)]], 2, 3⟩, ⟨[[(117661193842688, 0),
    (394079817007461, 0), (0, 1717797501), (501609, 0)], [(9246946776887, 0), (16205283982, 0), (2160278, 0), (294,
    0)], [(7658342267, 0), (3052112, 0), (746, 0)]], 2, 3⟩, 4503599627370496, 31, 430865209948, ⟨[[(581583267506924,
    0), (163490830192, 0), (0, 31540156), (0, 20422)], [(1412404902, 0), (26778208, 0), (31646, 0), (38, 0)], [(0,
    4334115), (0, 14561), (0, 32)]], 2, 3⟩, 1099511627776, 9373642,
    50071233355635088858641644898166978188135403493534541058477758960529723592718573132644839, lc0⟩)))) (.skip)))
theorem c35 : checkC job ⟨6, 8, 5, 6, 9, 13⟩ 1 40 B1.zlims t35 1075 61 160 2559 175 3792 = true := by decide +kernel

def t36 : CTree :=
  .sx (.sy (.sy (.sx (.leaf ⟨99, 16, 9, 2541, 16, 1742, ⟨[[(1159606535303744, 0)], [(0, 1046875807131107)]], 2, 3⟩,
    ⟨[[(0, 14180810694656), (392257833842316, 0), (0, 4282434095), (1682691, 0)], [(9420070871809, 0), (30939329912,
    0), (7467234, 0), (1795, 0)], [(15104895218, 0), (11152126, 0), (4913, 0), (2, 0)]], 2, 3⟩, 4503599627370496, 39,
    2840917542170, ⟨[[(589021349612418, 0), (321207964918, 0), (0, 114979408), (0, 134678)], [(3009139288, 0),
    (106052007, 0), (228099, 0), (494, 0)], [(0, 18814919), (0, 115658), (0, 467), (0, 2)]], 2, 3⟩, 1099511627776,
    94785133, 39466196282220564406238601221640996974124784311682733934342059668895832322652509466701760, lc0⟩) (.leaf
    ⟨71, 16, 9, 2508, 16, 1719, ⟨[[(0, 458452368317440)], [(0, 1046875807131107)]], 2, 3⟩, ⟨[[(0, 1124202387697664),
    (390976275641441, 0), (0, 3248828909), (1906388, 0)], [(13132171404165, 0), (33440503191, 0), (8701335, 0),
    (2288, 0)], [(16588731756, 0), (12920143, 0), (6143, 0), (2, 0)]], 2, 3⟩, 4503599627370496, 61, 3966648251146,
    ⟨[[(589099044089259, 0), (322263110330, 0), (0, 125291746), (0, 156357)], [(4166645882, 0), (114756487, 0),
    (264596, 0), (617, 0)], [(0, 20380669), (0, 133660), (0, 574), (0, 2)]], 2, 3⟩, 1099511627776, 110066498,
    45409656268329388331434427448038090636175185049277985541883128919323376039934614127587362, lc0⟩)) (.sx (.leaf
    ⟨99, 16, 9, 2560, 16, 1734, ⟨[[(1159606535303744, 0)], [(0, 1046875807131107)]], 2, 3⟩, ⟨[[(0, 1924728562315264),
    (388116877451967, 0), (0, 2375758304), (1937937, 0)], [(21150289582086, 0), (36742382842, 0), (9690098, 0),
    (2573, 0)], [(19608017487, 0), (15312702, 0), (7347, 0), (3, 0)]], 2, 3⟩, 4503599627370496, 39, 5117689769778,
    ⟨[[(598804795106376, 0), (315166560351, 0), (0, 129608977), (0, 159210)], [(6508723682, 0), (122214424, 0),
    (283291, 0), (662, 0)], [(0, 22871180), (0, 150082), (0, 643), (0, 2)]], 2, 3⟩, 1099511627776, 130126391,
    34968790595901107637318143800407425897771534360453652199743044978665525898759966544056050, lc0⟩) (.leaf ⟨71, 16,
    9, 2519, 16, 1706, ⟨[[(0, 458452368317440)], [(0, 1046875807131107)]], 2, 3⟩, ⟨[[(0, 577901785016320),
    (386498534940848, 0), (0, 1056329756), (2264890, 0)], [(25814019671705, 0), (40187680688, 0), (11560352, 0),
    (3394, 0)], [(21819288643, 0), (18180193, 0), (9516, 0), (4, 0)]], 2, 3⟩, 4503599627370496, 61, 7871333019008,
    ⟨[[(598711120813372, 0), (316639344785, 0), (0, 142838704), (0, 188939)], [(7891261234, 0), (133606826, 0),
    (334347, 0), (841, 0)], [(0, 24999611), (0, 175756), (0, 800), (0, 3)]], 2, 3⟩, 1099511627776, 152747381,
    39590806007071018189547815962603705077190978264090078526262020478440540990885857928183328, lc0⟩))) (.sx (.sy
    (.leaf ⟨99, 16, 9, 2561, 16, 1715, ⟨[[(1159606535303744, 0)], [(0, 1046875807131107)]], 2, 3⟩,
    ⟨[[(1413946595940352, 0), (382967447032268, 0), (0, 142656589), (2315984, 0)], [(34932119574451, 0),
    (44118893712, 0), (12861210, 0), (3802, 0)], [(25729043185, 0), (21534699, 0), (11356, 0), (5, 0)]], 2, 3⟩,
    4503599627370496, 39, 10391127243519, ⟨[[(607946039025112, 0), (310520865650, 0), (0, 148019518), (0, 192715)],
    [(10360858390, 0), (142294664, 0), (358131, 0), (900, 0)], [(0, 27895205), (0, 196394), (0, 892), (0, 3)]], 2,
    3⟩, 1099511627776, 178495640,
    24901452580491109363333673388966190861935884085868173487966019742512764811505711436595164, lc0⟩) (.leaf ⟨99, 16,
    9, 2540, 16, 1681, ⟨[[(1159606535303744, 0)], [(0, 1046875807131107)]], 2, 3⟩, ⟨[[(0, 1228151825735680),
    (376177829820890, 0), (2539601127, 0), (2879384, 0)], [(51097879340804, 0), (53658587128, 0), (17508511, 0),
    (5791, 0)], [(34215299900, 0), (31106071, 0), (18077, 0), (9, 0)]], 2, 3⟩, 4503599627370496, 39, 23386063890138,
    ⟨[[(617235652775006, 0), (307050620444, 0), (0, 174035648), (0, 244040)], [(15040505200, 0), (170174481, 0),
    (471837, 0), (1280, 0)], [(0, 34778705), (0, 265541), (0, 1281), (0, 5)]], 2, 3⟩, 1099511627776, 251271470,
    11220685679034673273983809965584638924453232649442491039630104836420381245210474640706625, lc0⟩)) (.sy (.leaf
    ⟨71, 16, 9, 2507, 16, 1678, ⟨[[(0, 458452368317440)], [(0, 1046875807131107)]], 2, 3⟩, ⟨[[(308096260032512, 0),
    (380309084757727, 0), (1579488996, 0), (2803870, 0)], [(40778031322776, 0), (48912029501, 0), (15763048, 0),
    (5190, 0)], [(29071980344, 0), (26284123, 0), (15181, 0), (7, 0)]], 2, 3⟩, 4503599627370496, 61, 17480970323296,
    ⟨[[(608025092688614, 0), (312713870734, 0), (0, 166759874), (0, 237304)], [(12198793000, 0), (158639190, 0),
    (435887, 0), (1183, 0)], [(0, 31037058), (0, 235855), (0, 1138), (0, 4)]], 2, 3⟩, 1099511627776, 213958337,
    27930409036316896074615670105160612270405428658771110193114359041721945044600383438398947, lc0⟩) (.leaf ⟨71, 16,
    9, 2470, 16, 1634, ⟨[[(0, 458452368317440)], [(0, 1046875807131107)]], 2, 3⟩, ⟨[[(808167586529280, 0),
    (372513868229652, 0), (4838797817, 0), (3628375, 0)], [(58503881088729, 0), (60558242114, 0), (22124665, 0),
    (8127, 0)], [(39427178686, 0), (39079596, 0), (24659, 0), (12, 0)]], 2, 3⟩, 4503599627370496, 61, 42004261655266,
    ⟨[[(617102154093246, 0), (310348148858, 0), (0, 200254535), (0, 311142)], [(17292927597, 0), (192844605, 0),
    (588318, 0), (1726, 0)], [(0, 39105481), (0, 323717), (0, 1661), (0, 6)]], 2, 3⟩, 1099511627776, 303578881,
    11587513253459601966696168550694394294340054316540359791363731192923780821546773797262014, lc0⟩)))) (.sx (.sy
    (.sy (.sy (.leaf ⟨43, 16, 9, 4879, 16, 3354, ⟨[[(0, 2076511271938688)], [(0, 1046875807131107)]], 2, 3⟩, ⟨[[(0,
    1027068086833152), (386007940826499, 0), (0, 1296902323), (518513, 0)], [(27839155222152, 0), (34266460938, 0),
    (4710062, 0), (662, 0)], [(33776403174, 0), (13712875, 0), (3449, 0), (1, 0)]], 2, 3⟩, 4503599627370496, 22,
    4700603730206, ⟨[[(586597495686768, 0), (164460222038, 0), (0, 33981569), (0, 22626)], [(4462035126, 0),
    (60697082, 0), (74554, 0), (93, 0)], [(0, 20993340), (0, 73006), (0, 166)]], 2, 3⟩, 1099511627776, 92255642,
    49388432733433211785086793407620183756852103358842301041522190449804777372235146072595812, lc0⟩) (.leaf ⟨43, 16,
    9, 4860, 16, 3321, ⟨[[(0, 2076511271938688)], [(0, 1046875807131107)]], 2, 3⟩, ⟨[[(1997232313724928, 0),
    (381505769099987, 0), (0, 718924060), (565168, 0)], [(40041415266160, 0), (37452220173, 0), (5428438, 0), (808,
    0)], [(38648500199, 0), (16264865, 0), (4302, 0), (1, 0)]], 2, 3⟩, 4503599627370496, 22, 6509074513421,
    ⟨[[(591385237493151, 0), (164023282199, 0), (0, 36777948), (0, 25412)], [(6306406419, 0), (65964683, 0), (84992,
    0), (110, 0)], [(0, 23281865), (0, 84355), (0, 198)]], 2, 3⟩, 1099511627776, 109044692,
    46858389234806038947705858415988844726739147472350532918049846807278883733673389135064724, lc0⟩)) (.leaf ⟨43, 16,
    9, 2472, 16, 1674, ⟨[[(0, 2076511271938688)], [(0, 1046875807131107)]], 2, 3⟩, ⟨[[(1731600078909440, 0),
    (384343956241662, 0), (500703822, 0), (2698422, 0)], [(30912880802262, 0), (44256452092, 0), (13984101, 0),
    (4544, 0)], [(24461596470, 0), (21878894, 0), (12471, 0), (6, 0)]], 2, 3⟩, 4503599627370496, 22, 12859149059939,
    ⟨[[(598549545936820, 0), (318653125717, 0), (0, 158937502), (0, 227789)], [(9392923341, 0), (147128146, 0),
    (399003, 0), (1079, 0)], [(0, 27423501), (0, 206634), (0, 996), (0, 4)]], 2, 3⟩, 1099511627776, 179802853,
    43959659572915696513718816579608861731991113242719866919810145775099335791376544314463958, lc0⟩)) (.sy (.leaf
    ⟨43, 16, 9, 2447, 16, 1637, ⟨[[(0, 2076511271938688)], [(0, 1046875807131107)]], 2, 3⟩, ⟨[[(0, 56419398076416),
    (377251347880765, 0), (3662477424, 0), (3471480, 0)], [(47267010279291, 0), (54769290429, 0), (19623121, 0),
    (7124, 0)], [(33187938617, 0), (32493753, 0), (20248, 0), (10, 0)]], 2, 3⟩, 4503599627370496, 22, 30683694546414,
    ⟨[[(608054586524398, 0), (315317347771, 0), (0, 190155959), (0, 297611)], [(14251074682, 0), (178564313, 0),
    (537414, 0), (1572, 0)], [(0, 34712059), (0, 284636), (0, 1457), (0, 6)]], 2, 3⟩, 1099511627776, 257421423,
    31261155539280392500515078533064961708941380196479860563232826657971299627326457645157423, lc0⟩) (.skip)))
    (.skip))
theorem c36 : checkC job ⟨6, 8, 5, 6, 9, 13⟩ 1 40 B1.zlims t36 1075 61 160 2909 175 3792 = true := by decide +kernel

end PyX.Kron.T1ph
