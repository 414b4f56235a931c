import Verif.Lemmas.T2cJob

/-!
# Temperature from pressure and enthalpy in subregion 2c, part B of the certificate
-/

namespace PyX.Kron.T2c

set_option Elab.async false

def t16 : CTree :=
  .sy (.out ⟨175, 16, 10, 655, 16, 421, ⟨[[], [(343597383680, 0)]], 1, 1⟩, ⟨[[(446439677922, 0), (0, 3152873388689)],
    [(0, 138476361765), (0, 3982328575)]], 1, 1⟩, 1099511627776, 0, 381016259107, ⟨[], 0, 0⟩, 0, 0, 0, lc0⟩ 0 1
    1400974866814) (.sx (.out ⟨335, 16, 20, 774, 16, 508, ⟨[[], [(343597383680, 0)]], 1, 1⟩, ⟨[[(0, 70563371848), (0,
    3848659939451)], [(0, 97717368681), (0, 3069805571)]], 1, 1⟩, 1099511627776, 0, 370442465867, ⟨[], 0, 0⟩, 0, 0,
    0, lc0⟩ 0 1 771922457524) (.sy (.sy (.out ⟨365, 16, 20, 1667, 16, 1095, ⟨[[], [(343597383680, 0)]], 1, 1⟩,
    ⟨[[(489949477539, 0), (0, 2185154439824)], [(0, 206486421177), (0, 1671311647)]], 1, 1⟩, 1099511627776, 0,
    174553893736, ⟨[], 0, 0⟩, 0, 0, 0, lc0⟩ 0 1 596779041967) (.out ⟨365, 16, 20, 1593, 16, 1054, ⟨[[],
    [(343597383680, 0)]], 1, 1⟩, ⟨[[(479941892592, 0), (0, 2139968770117)], [(0, 208840470224), (0, 1756646220)]], 1,
    1⟩, 1099511627776, 0, 192991833910, ⟨[], 0, 0⟩, 0, 0, 0, lc0⟩ 0 1 382201483926)) (.sx (.sy (.out ⟨715, 16, 40,
    2256, 16, 1499, ⟨[[], [(343597383680, 0)]], 1, 1⟩, ⟨[[(211735739070, 0), (0, 3040152426227)], [(0, 154087317932),
    (0, 1319931617)]], 1, 1⟩, 1099511627776, 0, 114076316101, ⟨[], 0, 0⟩, 0, 0, 0, lc0⟩ 0 1 300768158996) (.sx (.sy
    (.out ⟨1433, 16, 81, 4443, 16, 2964, ⟨[[(0, 343597383680)], [(347892350976, 0)]], 1, 1⟩, ⟨[[(337701173996, 0),
    (0, 3019813336243)], [(0, 157208737833), (0, 686895381)]], 1, 1⟩, 1099511627776, 0, 56910974561, ⟨[], 0, 0⟩, 0,
    0, 0, lc0⟩ 0 1 210847962625) (.out ⟨1433, 16, 81, 4348, 16, 2911, ⟨[[(0, 343597383680)], [(347892350976, 0)]], 1,
    1⟩, ⟨[[(0, 458543567213), (0, 2998494107329)], [(0, 158545031864), (0, 708304052)]], 1, 1⟩, 1099511627776, 0,
    60222847082, ⟨[], 0, 0⟩, 0, 0, 0, lc0⟩ 0 1 117777297069)) (.sy (.sx (.out ⟨2911, 16, 162, 5662, 16, 3786, ⟨[[(0,
    68719476736)], [(347892350976, 0)]], 1, 1⟩, ⟨[[(367715102805, 0), (0, 3921423357091)], [(0, 101573448679), (0,
    452109172)]], 1, 1⟩, 1099511627776, 0, 45043282336, ⟨[], 0, 0⟩, 0, 0, 0, lc0⟩ 0 1 122153187848) (.leaf ⟨7121, 16,
    165, 1169, 16, 3812, ⟨[[(0, 240518168576)], [(354334801920, 0)]], 3, 4⟩, ⟨[[(378556286766, 0), (3992498923830,
    0), (3868948879, 0), (17268534, 0), (60715, 0)], [(103071255597, 0), (464527437, 0), (1937015, 0), (9011, 0),
    (47, 0)], [(4199773, 0), (49172, 0), (379, 0), (3, 0)], [(222, 0), (5, 0)]], 3, 4⟩, 1099511627776, 0, 353978,
    ⟨[[(47772674050177, 0), (0, 8309083399), (3867779, 0), (73, 0)], [(2399578059, 0), (922834, 0), (0, 658)], [(0,
    253607), (0, 267)], [(33, 0)]], 3, 4⟩, 68719476736, 23968,
    4717671334025849469967234622338597966603980819311987169170383801185012190117962186768113227039, lc0⟩)) (.leaf
    ⟨3531, 16, 82, 903, 16, 2900, ⟨[[(137438953472, 0)], [(352187318272, 0)]], 3, 4⟩, ⟨[[(0, 277362432328),
    (3056341098714, 0), (3113938675, 0), (13956345, 0), (50999, 0)], [(160517938734, 0), (735861214, 0), (3148108,
    0), (15135, 0), (83, 0)], [(13611195, 0), (162036, 0), (1284, 0), (10, 0)], [(1518, 0), (33, 0)]], 3, 4⟩,
    1099511627776, 0, 1844324, ⟨[[(47585970671480, 0), (0, 10758178188), (6707811, 0), (157, 0)], [(4877999794, 0),
    (2400481, 0), (0, 2310)], [(0, 1052724), (0, 1414), (1, 0)], [(280, 0), (1, 0)]], 3, 4⟩, 68719476736, 75951,
    3981321312877248571936514467890994655888618415431756900611905163973529664399869169922520255541, lc0⟩)))) (.sy
    (.sx (.sy (.out ⟨1493, 16, 81, 4443, 16, 2960, ⟨[[(481036337152, 0)], [(347892350976, 0)]], 1, 1⟩,
    ⟨[[(522850943443, 0), (0, 3081357877022)], [(0, 153476071850), (0, 673529538)]], 1, 1⟩, 1099511627776, 0,
    55296787931, ⟨[], 0, 0⟩, 0, 0, 0, lc0⟩ 0 1 172823594471) (.sx (.out ⟨2972, 16, 162, 5642, 16, 3770, ⟨[[(0,
    343597383680)], [(347892350976, 0)]], 1, 1⟩, ⟨[[(292775561407, 0), (0, 3946786584800)], [(0, 99995599952), (0,
    445983255)]], 1, 1⟩, 1099511627776, 0, 44999380332, ⟨[], 0, 0⟩, 0, 0, 0, lc0⟩ 0 1 102618110909) (.leaf ⟨7183, 16,
    165, 1161, 16, 3797, ⟨[[(0, 377957122048)], [(354334801920, 0)]], 3, 4⟩, ⟨[[(0, 273165068512), (4018600462936,
    0), (3910495554, 0), (17452949, 0), (61259, 0)], [(101477446167, 0), (458106748, 0), (1910712, 0), (8871, 0),
    (46, 0)], [(4017040, 0), (47119, 0), (362, 0), (3, 0)], [(203, 0), (4, 0)]], 3, 4⟩, 1099511627776, 0, 341071,
    ⟨[[(47948696437747, 0), (0, 8311712737), (3857034, 0), (71, 0)], [(2365457367, 0), (898366, 0), (0, 648)], [(0,
    246746), (0, 257)], [(31, 0)]], 3, 4⟩, 68719476736, 25112,
    4353936354440827203773391525245618859928148604770725319259891647170405824008783116654619598859, lc0⟩))) (.leaf
    ⟨3593, 16, 82, 574, 16, 1873, ⟨[[(0, 412316860416)], [(352187318272, 0)]], 3, 4⟩, ⟨[[(0, 338923234200),
    (4006353361665, 0), (7947502515, 0), (71006354, 0), (503719, 0)], [(99889222052, 0), (907826081, 0), (7633660,
    0), (71474, 0), (757, 0)], [(7818247, 0), (184599, 0), (2860, 0), (41, 0), (1, 0)], [(773, 0), (33, 0), (1, 0)]],
    3, 4⟩, 1099511627776, 0, 2235807, ⟨[[(48037182770011, 0), (0, 16724811468), (15729721, 0), (568, 0), (0, 1)],
    [(4718302112, 0), (3554198, 0), (0, 5271), (0, 1)], [(0, 984131), (0, 2040), (2, 0)], [(249, 0), (1, 0)]], 3, 4⟩,
    68719476736, 44954,
    5182289227101893217881643577760618037702640276652268476422100395187522752434095623979283115471, lc0⟩)) (.leaf
    ⟨1789, 16, 41, 444, 16, 1405, ⟨[[(0, 412316860416)], [(352187318272, 0)]], 3, 4⟩, ⟨[[(0, 542690619578),
    (3047036749062, 0), (6688767525, 0), (60477961, 0), (465367, 0)], [(157177994631, 0), (1480277409, 0), (13132335,
    0), (131891, 0), (1526, 0)], [(26690606, 0), (652777, 0), (10762, 0), (170, 0), (3, 0)], [(5907, 0), (264, 0),
    (7, 0)]], 3, 4⟩, 1099511627776, 0, 13336730, ⟨[[(47671004448072, 0), (0, 21612491878), (28146773, 0), (1177, 0),
    (0, 4)], [(9621984933, 0), (9130487, 0), (0, 19103), (0, 4)], [(0, 4128505), (0, 10741), (14, 0)], [(2170, 0),
    (10, 0)]], 3, 4⟩, 68719476736, 189320,
    3622872725106616228397983073644798109916797971300302141531658273577593451242079695072667740568, lc0⟩)))))
theorem c16 : checkC job ⟨6, 8, 8, 10, 9, 13⟩ 1 25 lims t16 560 48 32 33 3 128 = true := by decide +kernel

def t17 : CTree :=
  .sy (.out ⟨395, 16, 20, 1255, 16, 812, ⟨[[], [(343597383680, 0)]], 1, 1⟩, ⟨[[(129023710918, 0), (0,
    3295459270396)], [(0, 135615836358), (0, 2090149667)]], 1, 1⟩, 1099511627776, 0, 167508228123, ⟨[], 0, 0⟩, 0, 0,
    0, lc0⟩ 0 1 940247969376) (.sx (.out ⟨775, 16, 40, 1509, 16, 988, ⟨[[], [(343597383680, 0)]], 1, 1⟩, ⟨[[(0,
    99369401648), (0, 4060293789406)], [(0, 89761591095), (0, 1457675389)]], 1, 1⟩, 1099511627776, 0, 155286069127,
    ⟨[], 0, 0⟩, 0, 0, 0, lc0⟩ 0 1 585048268252) (.sy (.out ⟨805, 16, 40, 2362, 16, 1549, ⟨[[], [(343597383680, 0)]],
    1, 1⟩, ⟨[[(233397310375, 0), (0, 3266579164661)], [(0, 140442830893), (0, 1161323275)]], 1, 1⟩, 1099511627776, 0,
    91786447514, ⟨[], 0, 0⟩, 0, 0, 0, lc0⟩ 0 1 459421835962) (.sx (.out ⟨1615, 16, 81, 2904, 16, 1916, ⟨[[(0,
    68719476736)], [(347892350976, 0)]], 1, 1⟩, ⟨[[(0, 428035989978), (0, 4078894314058)], [(0, 90817148799), (0,
    773645418)]], 1, 1⟩, 1099511627776, 0, 81004994112, ⟨[], 0, 0⟩, 0, 0, 0, lc0⟩ 0 1 295328010944) (.sy (.out ⟨1645,
    16, 81, 4567, 16, 3016, ⟨[[(343597383680, 0)], [(347892350976, 0)]], 1, 1⟩, ⟨[[(0, 52907596423), (0,
    3253187691562)], [(0, 142831015628), (0, 614009548)]], 1, 1⟩, 1099511627776, 0, 47899521822, ⟨[], 0, 0⟩, 0, 0, 0,
    lc0⟩ 0 1 231223826906) (.sx (.out ⟨3275, 16, 162, 5689, 16, 3769, ⟨[[(481036337152, 0)], [(347892350976, 0)]], 1,
    1⟩, ⟨[[(0, 142754718064), (0, 4088321550635)], [(0, 91319148302), (0, 398861080)]], 1, 1⟩, 1099511627776, 0,
    41305941783, ⟨[], 0, 0⟩, 0, 0, 0, lc0⟩ 0 1 148508289936) (.out ⟨3306, 16, 162, 5633, 16, 3737, ⟨[[(0,
    206158430208)], [(347892350976, 0)]], 1, 1⟩, ⟨[[(0, 396028132787), (0, 4091884823056)], [(0, 91106724836), (0,
    401929887)]], 1, 1⟩, 1099511627776, 0, 42472640935, ⟨[], 0, 0⟩, 0, 0, 0, lc0⟩ 0 1 90939082403))))))
theorem c17 : checkC job ⟨6, 8, 8, 10, 9, 13⟩ 1 25 lims t17 1264 48 64 63 3 256 = true := by decide +kernel

def t18 : CTree :=
  .sx (.out ⟨835, 16, 40, 1501, 16, 978, ⟨[[], [(343597383680, 0)]], 1, 1⟩, ⟨[[(0, 165717043044), (0,
    4157773675018)], [(0, 84131878381), (0, 1362458218)]], 1, 1⟩, 1099511627776, 0, 149898481112, ⟨[], 0, 0⟩, 0, 0,
    0, lc0⟩ 0 1 591058216659) (.sy (.out ⟨865, 16, 40, 2385, 16, 1556, ⟨[[], [(343597383680, 0)]], 1, 1⟩,
    ⟨[[(356986114392, 0), (0, 3384785878370)], [(0, 133209845269), (0, 1094081684)]], 1, 1⟩, 1099511627776, 0,
    84362965056, ⟨[], 0, 0⟩, 0, 0, 0, lc0⟩ 0 1 473789169629) (.sy (.out ⟨865, 16, 40, 3338, 16, 2190, ⟨[[],
    [(343597383680, 0)]], 1, 1⟩, ⟨[[(0, 426789193486), (0, 2413864322655)], [(0, 194649093692), (0, 822600883)]], 1,
    1⟩, 1099511627776, 0, 70112217032, ⟨[], 0, 0⟩, 0, 0, 0, lc0⟩ 0 1 296142593964) (.sx (.out ⟨1736, 16, 81, 4604,
    16, 3029, ⟨[[(481036337152, 0)], [(347892350976, 0)]], 1, 1⟩, ⟨[[(0, 28492159864), (0, 3342812364031)], [(0,
    137364528688), (0, 587094929)]], 1, 1⟩, 1099511627776, 0, 45097077659, ⟨[], 0, 0⟩, 0, 0, 0, lc0⟩ 0 1
    230633493894) (.sy (.out ⟨1767, 16, 81, 6534, 16, 4306, ⟨[[(0, 206158430208)], [(347892350976, 0)]], 1, 1⟩,
    ⟨[[(454457503624, 0), (0, 2410488219032)], [(0, 196101171261), (0, 424266868)]], 1, 1⟩, 1099511627776, 0,
    35575782404, ⟨[], 0, 0⟩, 0, 0, 0, lc0⟩ 0 1 141976795361) (.leaf ⟨3839, 16, 82, 1240, 16, 4341, ⟨[[(0,
    412316860416)], [(352187318272, 0)]], 3, 4⟩, ⟨[[(0, 474113979790), (2442708056753, 0), (1073561537, 0), (2398219,
    0), (3751, 0)], [(200291599189, 0), (437841455, 0), (859886, 0), (1816, 0), (4, 0)], [(11335415, 0), (65019, 0),
    (231, 0), (1, 0)], [(637, 0), (7, 0)]], 3, 4⟩, 1099511627776, 0, 162755, ⟨[[(49786026373317, 0), (0, 7374919261),
    (2695803, 0), (45, 0)], [(4163316976, 0), (1313127, 0), (0, 819)], [(0, 764697), (0, 686)], [(163, 0)]], 3, 4⟩,
    68719476736, 51265,
    4880306005891754280793948923848345813757898454563985889711788537390304564181016220610556604849, lc0⟩)))))
theorem c18 : checkC job ⟨6, 8, 8, 10, 9, 13⟩ 1 25 lims t18 1360 48 64 123 3 512 = true := by decide +kernel

def t19 : CTree :=
  .sx (.sy (.sx (.out ⟨1676, 16, 81, 2897, 16, 1907, ⟨[[(0, 343597383680)], [(347892350976, 0)]], 1, 1⟩, ⟨[[(0,
    283958184534), (0, 4126787723297)], [(0, 87913837035), (0, 747178912)]], 1, 1⟩, 1099511627776, 0, 79665052077,
    ⟨[], 0, 0⟩, 0, 0, 0, lc0⟩ 0 1 288202316409) (.sy (.out ⟨1706, 16, 81, 4590, 16, 3024, ⟨[[(68719476736, 0)],
    [(347892350976, 0)]], 1, 1⟩, ⟨[[(320323421973, 0), (0, 3313100400129)], [(0, 139180547816), (0, 596283818)]], 1,
    1⟩, 1099511627776, 0, 46045383195, ⟨[], 0, 0⟩, 0, 0, 0, lc0⟩ 0 1 225902990318) (.sx (.out ⟨3397, 16, 162, 5678,
    16, 3753, ⟨[[(0, 68719476736)], [(347892350976, 0)]], 1, 1⟩, ⟨[[(211284067679, 0), (0, 4135361879998)], [(0,
    88383221824), (0, 384744434)]], 1, 1⟩, 1099511627776, 0, 40592694889, ⟨[], 0, 0⟩, 0, 0, 0, lc0⟩ 0 1 139570478410)
    (.leaf ⟨7616, 16, 165, 1095, 16, 3788, ⟨[[(0, 240518168576)], [(354334801920, 0)]], 3, 4⟩, ⟨[[(71607218744, 0),
    (4211491209795, 0), (3760491350, 0), (16775161, 0), (53502, 0)], [(89724753559, 0), (394256966, 0), (1562990, 0),
    (6702, 0), (32, 0)], [(2706613, 0), (31125, 0), (224, 0), (1, 0)], [(87, 0), (2, 0)]], 3, 4⟩, 1099511627776, 0,
    221654, ⟨[[(49448573654423, 0), (0, 8441934767), (3602214, 0), (68, 0)], [(2121037252, 0), (777212, 0), (0,
    554)], [(0, 198248), (0, 205)], [(22, 0)]], 3, 4⟩, 68719476736, 20106,
    4927133633499266742300592690831773126693143366227081263338304391272267638929657774992242997545, lc0⟩)))) (.sx
    (.sy (.sx (.out ⟨3336, 16, 162, 5683, 16, 3761, ⟨[[(206158430208, 0)], [(347892350976, 0)]], 1, 1⟩,
    ⟨[[(380418365041, 0), (0, 4112555739939)], [(0, 89855952178), (0, 391909026)]], 1, 1⟩, 1099511627776, 0,
    40976308699, ⟨[], 0, 0⟩, 0, 0, 0, lc0⟩ 0 1 141294375855) (.leaf ⟨7554, 16, 165, 1104, 16, 3795, ⟨[[(0,
    103079215104)], [(354334801920, 0)]], 3, 4⟩, ⟨[[(237313710620, 0), (4187995969354, 0), (3765924205, 0),
    (16790175, 0), (54078, 0)], [(91212883815, 0), (401694554, 0), (1599743, 0), (6914, 0), (33, 0)], [(2850572, 0),
    (32814, 0), (238, 0), (2, 0)], [(98, 0), (2, 0)]], 3, 4⟩, 1099511627776, 0, 222075, ⟨[[(49257350769254, 0), (0,
    8424690380), (3624979, 0), (68, 0)], [(2151438235, 0), (793821, 0), (0, 564)], [(0, 203828), (0, 212)], [(23,
    0)]], 3, 4⟩, 68719476736, 21040,
    5013050808999117274717075684019436221945481498104233969437093978006724159667939644138416569517, lc0⟩)) (.leaf
    ⟨3746, 16, 82, 878, 16, 2967, ⟨[[(412316860416, 0)], [(352187318272, 0)]], 3, 4⟩, ⟨[[(77052391629, 0),
    (3295278334242, 0), (3125573813, 0), (13920045, 0), (46585, 0)], [(146027272214, 0), (653980527, 0), (2667815,
    0), (11882, 0), (59, 0)], [(9508192, 0), (111010, 0), (825, 0), (6, 0)], [(692, 0), (15, 0)]], 3, 4⟩,
    1099511627776, 0, 560639, ⟨[[(49062994337453, 0), (0, 10615456940), (5951894, 0), (136, 0)], [(4372773262, 0),
    (2005305, 0), (0, 1875)], [(0, 846148), (0, 1090), (1, 0)], [(194, 0)]], 3, 4⟩, 68719476736, 90544,
    4014354890116011242992642615447901109850080422565610815274415326240947376054293663372372204774, lc0⟩)) (.leaf
    ⟨3777, 16, 82, 549, 16, 1847, ⟨[[(137438953472, 0)], [(352187318272, 0)]], 3, 4⟩, ⟨[[(0, 99308496637),
    (4157353234476, 0), (8108153706, 0), (72227504, 0), (490624, 0)], [(90806205501, 0), (820561930, 0), (6767960,
    0), (60977, 0), (615, 0)], [(5833304, 0), (137336, 0), (2062, 0), (28, 0)], [(410, 0), (18, 0)]], 3, 4⟩,
    1099511627776, 0, 2067678, ⟨[[(49156592722880, 0), (0, 16880345031), (15214242, 0), (532, 0), (0, 1)],
    [(4328412489, 0), (3091809, 0), (0, 4745), (0, 1)], [(0, 832535), (0, 1676), (2, 0)], [(189, 0), (1, 0)]], 3, 4⟩,
    68719476736, 95616,
    3904181120352806286517019418231993998352624028435582987225423366095721502663878813150723896158, lc0⟩))) (.sy (.sx
    (.sy (.sx (.out ⟨3458, 16, 162, 5676, 16, 3747, ⟨[[(0, 343597383680)], [(347892350976, 0)]], 1, 1⟩,
    ⟨[[(474382713140, 0), (0, 4159003936310)], [(0, 86950067112), (0, 377600031)]], 1, 1⟩, 1099511627776, 0,
    40179212642, ⟨[], 0, 0⟩, 0, 0, 0, lc0⟩ 0 1 138215187013) (.leaf ⟨7678, 16, 165, 1086, 16, 3783, ⟨[[(0,
    377957122048)], [(354334801920, 0)]], 3, 4⟩, ⟨[[(128931119000, 0), (4235829101301, 0), (3750371595, 0),
    (16743045, 0), (52830, 0)], [(88276437380, 0), (386844934, 0), (1525804, 0), (6487, 0), (30, 0)], [(2568190, 0),
    (29495, 0), (211, 0), (1, 0)], [(76, 0), (2, 0)]], 3, 4⟩, 1099511627776, 0, 266661, ⟨[[(49643026680469, 0), (0,
    8459665915), (3576099, 0), (68, 0)], [(2090980375, 0), (761453, 0), (0, 544)], [(0, 192781), (0, 199)], [(21,
    0)]], 3, 4⟩, 68719476736, 18433,
    4884985477522654807055553756002256438249891871779374603638389498316436251868789008222151959515, lc0⟩)) (.leaf
    ⟨3808, 16, 82, 870, 16, 2978, ⟨[[(0, 137438953472)], [(352187318272, 0)]], 3, 4⟩, ⟨[[(200613296498, 0),
    (3356079633257, 0), (3137025408, 0), (13970858, 0), (45799, 0)], [(142311379483, 0), (634183018, 0), (2561315,
    0), (11215, 0), (54, 0)], [(8629394, 0), (100459, 0), (736, 0), (5, 0)], [(548, 0), (12, 0)]], 3, 4⟩,
    1099511627776, 0, 383611, ⟨[[(49449321678598, 0), (0, 10586840005), (5790614, 0), (132, 0)], [(4248777865, 0),
    (1908586, 0), (0, 1782)], [(0, 799964), (0, 1017), (1, 0)], [(176, 0)]], 3, 4⟩, 68719476736, 86344,
    3834146489910004841561475528238596878537858034388910801142396466375353777063006550192419123729, lc0⟩)) (.leaf
    ⟨3839, 16, 82, 541, 16, 1843, ⟨[[(0, 412316860416)], [(352187318272, 0)]], 3, 4⟩, ⟨[[(0, 536955640086),
    (4205803849793, 0), (8061922045, 0), (71776422, 0), (476499, 0)], [(87908274172, 0), (789544569, 0), (6437237,
    0), (56901, 0), (559, 0)], [(5249787, 0), (123099, 0), (1819, 0), (24, 0)], [(320, 0), (14, 0)]], 3, 4⟩,
    1099511627776, 0, 1880625, ⟨[[(49536450262109, 0), (0, 16935299737), (14980306, 0), (526, 0), (0, 1)],
    [(4207355697, 0), (2960427, 0), (0, 4566), (0, 1)], [(0, 787915), (0, 1575), (1, 0)], [(172, 0), (1, 0)]], 3, 4⟩,
    68719476736, 100445,
    3804695249821419343555637884677941889255635811525468008265170859061582829106554947524440603214, lc0⟩)) (.leaf
    ⟨1912, 16, 41, 432, 16, 1423, ⟨[[(0, 412316860416)], [(352187318272, 0)]], 3, 4⟩, ⟨[[(164204530127, 0),
    (3296257327336, 0), (7031743977, 0), (62892883, 0), (453709, 0)], [(142549432132, 0), (1327105589, 0), (11390381,
    0), (107706, 0), (1163, 0)], [(18528410, 0), (448161, 0), (7019, 0), (104, 0), (2, 0)], [(2582, 0), (119, 0), (3,
    0)]], 3, 4⟩, 1099511627776, 0, 3897052, ⟨[[(49164098172923, 0), (0, 21269701931), (25289645, 0), (977, 0), (0,
    4)], [(8570386452, 0), (7348297, 0), (0, 15582), (0, 3)], [(0, 3299605), (0, 8025), (10, 0)], [(1496, 0), (7,
    0)]], 3, 4⟩, 68719476736, 168528,
    3103636409349318810972168820943859123694877938235252316128874898446883187011994771824303610011, lc0⟩))
theorem c19 : checkC job ⟨6, 8, 8, 10, 9, 13⟩ 1 25 lims t19 1360 48 64 129 3 512 = true := by decide +kernel

def t20 : CTree :=
  .sx (.sy (.sx (.sy (.out ⟨775, 16, 40, 2261, 16, 1497, ⟨[[], [(343597383680, 0)]], 1, 1⟩, ⟨[[(0, 260367377260), (0,
    3160349637099)], [(0, 146629950668), (0, 1262473962)]], 1, 1⟩, 1099511627776, 0, 106952090419, ⟨[], 0, 0⟩, 0, 0,
    0, lc0⟩ 0 1 250201988427) (.sx (.sy (.out ⟨1554, 16, 81, 4449, 16, 2959, ⟨[[(206158430208, 0)], [(347892350976,
    0)]], 1, 1⟩, ⟨[[(506763247240, 0), (0, 3141412280063)], [(0, 149705067636), (0, 658191067)]], 1, 1⟩,
    1099511627776, 0, 53547710584, ⟨[], 0, 0⟩, 0, 0, 0, lc0⟩ 0 1 143221193586) (.leaf ⟨3623, 16, 82, 892, 16, 2954,
    ⟨[[(412316860416, 0)], [(352187318272, 0)]], 3, 4⟩, ⟨[[(512038366760, 0), (3171190448837, 0), (3042689519, 0),
    (13564324, 0), (46718, 0)], [(153491775726, 0), (689920045, 0), (2849258, 0), (13010, 0), (67, 0)], [(11401639,
    0), (133273, 0), (1011, 0), (7, 0)], [(1043, 0), (22, 0)]], 3, 4⟩, 1099511627776, 0, 1022540, ⟨[[(48318938752966,
    0), (0, 10704258009), (6255155, 0), (148, 0)], [(4630628789, 0), (2232528, 0), (0, 2067)], [(0, 945474), (0,
    1261), (1, 0)], [(233, 0), (1, 0)]], 3, 4⟩, 68719476736, 84580,
    4863553249214673659087339199794065143821262406720360629455939220515641697906828769842690199213, lc0⟩)) (.leaf
    ⟨3654, 16, 82, 565, 16, 1861, ⟨[[(137438953472, 0)], [(352187318272, 0)]], 3, 4⟩, ⟨[[(220876195646, 0),
    (4056037903476, 0), (8050519969, 0), (71866950, 0), (504935, 0)], [(96759844076, 0), (879732329, 0), (7371578,
    0), (68394, 0), (717, 0)], [(7116967, 0), (168195, 0), (2587, 0), (37, 0), (1, 0)], [(636, 0), (27, 0), (1, 0)]],
    3, 4⟩, 1099511627776, 0, 2322116, ⟨[[(48410304668744, 0), (0, 16788052852), (15605808, 0), (554, 0), (0, 1)],
    [(4583049382, 0), (3391160, 0), (0, 5103), (0, 1)], [(0, 930046), (0, 1908), (2, 0)], [(227, 0), (1, 0)]], 3, 4⟩,
    68719476736, 64113,
    4588720559054001247881639183879452394767275673893194204440479942064566255574538279200897048933, lc0⟩))) (.sy (.sx
    (.sy (.out ⟨1615, 16, 81, 4463, 16, 2962, ⟨[[(0, 68719476736)], [(347892350976, 0)]], 1, 1⟩, ⟨[[(0,
    248265686429), (0, 3201318657149)], [(0, 145970653812), (0, 641446769)]], 1, 1⟩, 1099511627776, 0, 51708163148,
    ⟨[], 0, 0⟩, 0, 0, 0, lc0⟩ 0 1 126617845032) (.leaf ⟨3685, 16, 82, 885, 16, 2959, ⟨[[(0, 137438953472)],
    [(352187318272, 0)]], 3, 4⟩, ⟨[[(542813309839, 0), (3233759883190, 0), (3094452854, 0), (13787708, 0), (46917,
    0)], [(149761967881, 0), (672679107, 0), (2764890, 0), (12490, 0), (63, 0)], [(10434348, 0), (122001, 0), (917,
    0), (6, 0)], [(856, 0), (18, 0)]], 3, 4⟩, 1099511627776, 0, 847942, ⟨[[(48692701624017, 0), (0, 10656637481),
    (6105521, 0), (141, 0)], [(4498175358, 0), (2112564, 0), (0, 1969)], [(0, 893816), (0, 1170), (1, 0)], [(212, 0),
    (1, 0)]], 3, 4⟩, 68719476736, 88456,
    4356294441873952985011399276139693201924792434274013082098729151492901212061356461780144396244, lc0⟩)) (.leaf
    ⟨3716, 16, 82, 557, 16, 1853, ⟨[[(0, 412316860416)], [(352187318272, 0)]], 3, 4⟩, ⟨[[(155512007433, 0),
    (4107619747113, 0), (8105707214, 0), (72279665, 0), (500442, 0)], [(93761884605, 0), (850788522, 0), (7082424,
    0), (64861, 0), (669, 0)], [(6456659, 0), (152426, 0), (2320, 0), (33, 0), (1, 0)], [(515, 0), (22, 0), (1, 0)]],
    3, 4⟩, 1099511627776, 0, 2280710, ⟨[[(48784207441599, 0), (0, 16828403265), (15419626, 0), (540, 0), (0, 1)],
    [(4452422661, 0), (3232538, 0), (0, 4921), (0, 1)], [(0, 879434), (0, 1785), (2, 0)], [(207, 0), (1, 0)]], 3, 4⟩,
    68719476736, 82267,
    4165045714654293564700880114681028040885207094144794891682884470322310941326614961676826930229, lc0⟩)) (.leaf
    ⟨1850, 16, 41, 438, 16, 1410, ⟨[[(137438953472, 0)], [(352187318272, 0)]], 3, 4⟩, ⟨[[(0, 73850048067),
    (3171773456199, 0), (6946125206, 0), (62535510, 0), (470740, 0)], [(149788354813, 0), (1409146985, 0), (12370633,
    0), (121540, 0), (1375, 0)], [(22420745, 0), (547486, 0), (8861, 0), (137, 0), (2, 0)], [(4037, 0), (184, 0), (5,
    0)]], 3, 4⟩, 1099511627776, 0, 7506960, ⟨[[(48403921081947, 0), (0, 21425265402), (26816706, 0), (1050, 0), (0,
    4)], [(9080473647, 0), (8159235, 0), (0, 17327), (0, 3)], [(0, 3691137), (0, 9247), (12, 0)], [(1802, 0), (8,
    0)]], 3, 4⟩, 68719476736, 181508,
    2669130217268794620224638389033072823489792290364200763155933083884807251726796888208747487966, lc0⟩))) (.leaf
    ⟨895, 16, 20, 214, 16, 659, ⟨[[], [(343597383680, 0)]], 3, 4⟩, ⟨[[(0, 260269386865), (3024167423174, 0),
    (15222748106, 0), (282428473, 0), (4813400, 0)], [(150409260644, 0), (2984342552, 0), (56844769, 0), (1247612,
    0), (32048, 0)], [(51054000, 0), (2635078, 0), (94287, 0), (3319, 0), (120, 0)], [(22168, 0), (2166, 0), (136,
    0), (7, 0)]], 3, 4⟩, 1099511627776, 0, 181045869, ⟨[[(47846930389085, 0), (0, 43806461868), (124243285, 0),
    (7463, 0), (0, 101)], [(19178153108, 0), (33945945, 0), (0, 168170), (0, 80)], [(0, 16648551), (0, 82152), (240,
    0)], [(17534, 0), (151, 0)]], 3, 4⟩, 68719476736, 3993731,
    5102497113856868663039667192928608550359508770292497807031065574710776504737809232905321944434, lc0⟩)) (.sy (.sx
    (.leaf ⟨1881, 16, 41, 273, 16, 871, ⟨[[(0, 137438953472)], [(352187318272, 0)]], 3, 4⟩, ⟨[[(196983183973, 0),
    (4033681168347, 0), (18709899498, 0), (339180589, 0), (5299579, 0)], [(92519072600, 0), (1776748779, 0),
    (32014299, 0), (648694, 0), (15287, 0)], [(13528126, 0), (673990, 0), (22441, 0), (724, 0), (25, 0)], [(2305, 0),
    (218, 0), (13, 0), (1, 0)]], 3, 4⟩, 1099511627776, 0, 42902608, ⟨[[(48598870143070, 0), (0, 33952915972),
    (68925818, 0), (3736, 0), (0, 29)], [(8886414039, 0), (12104460, 0), (0, 43655), (0, 14)], [(0, 3563014), (0,
    13675), (29, 0)], [(1704, 0), (12, 0)]], 3, 4⟩, 68719476736, 333949,
    4374100924980659784779754962772597782850923685424013722315362833805353304561242881594040619304, lc0⟩) (.leaf
    ⟨1912, 16, 41, 270, 16, 836, ⟨[[(0, 412316860416)], [(352187318272, 0)]], 3, 4⟩, ⟨[[(72373880747, 0),
    (4041460617468, 0), (21118113087, 0), (392343205, 0), (6743304, 0)], [(91356729372, 0), (1835628699, 0),
    (35235602, 0), (775769, 0), (20145, 0)], [(13640933, 0), (711674, 0), (25579, 0), (911, 0), (33, 0)], [(2349, 0),
    (242, 0), (16, 0), (1, 0)]], 3, 4⟩, 1099511627776, 0, 58530550, ⟨[[(48596708189646, 0), (0, 33826468568),
    (73453848, 0), (2533, 0), (0, 41)], [(8761146855, 0), (11033276, 0), (0, 45878), (0, 16)], [(0, 3513274), (0,
    12710), (30, 0)], [(1672, 0), (11, 0)]], 3, 4⟩, 68719476736, 429627,
    3591149286441796561816075930034947338647449480770534038761547828242943283297497327957883761865, lc0⟩)) (.leaf
    ⟨925, 16, 20, 208, 16, 602, ⟨[[], [(343597383680, 0)]], 3, 4⟩, ⟨[[(0, 353475328497), (3048424026837, 0),
    (19812210171, 0), (402211737, 0), (8505066, 0)], [(146953351277, 0), (3250797737, 0), (72643311, 0), (1947725,
    0), (59693, 0)], [(53107633, 0), (3103189, 0), (134034, 0), (5632, 0), (215, 0)], [(25019, 0), (2937, 0), (215,
    0), (12, 0)]], 3, 4⟩, 1099511627776, 0, 302970364, ⟨[[(47843234177061, 0), (0, 43334268265), (143184550, 0), (0,
    2007), (0, 201)], [(18597595992, 0), (27492924, 0), (0, 189178), (0, 107)], [(0, 16103764), (0, 70301), (256,
    0)], [(16678, 0), (122, 0)]], 3, 4⟩, 68719476736, 4434926,
    3884151315337380684229705552481487941311391906785693723966065377548942737798061836520673068921, lc0⟩))
theorem c20 : checkC job ⟨6, 8, 8, 10, 9, 13⟩ 1 25 lims t20 656 48 32 69 3 256 = true := by decide +kernel

def t21 : CTree :=
  .sy (.sx (.sy (.sx (.sy (.out ⟨895, 16, 40, 3386, 16, 2215, ⟨[[], [(343597383680, 0)]], 1, 1⟩, ⟨[[(0,
    428283263445), (0, 2474315968994)], [(0, 190910591362), (0, 801718450)]], 1, 1⟩, 1099511627776, 0, 65449820263,
    ⟨[], 0, 0⟩, 0, 0, 0, lc0⟩ 0 1 312744891541) (.sx (.out ⟨1797, 16, 81, 4634, 16, 3040, ⟨[[(206158430208, 0)],
    [(347892350976, 0)]], 1, 1⟩, ⟨[[(0, 164629204874), (0, 3400840713134)], [(0, 133718934991), (0, 568052688)]], 1,
    1⟩, 1099511627776, 0, 43154588479, ⟨[], 0, 0⟩, 0, 0, 0, lc0⟩ 0 1 242987959421) (.out ⟨1828, 16, 81, 4560, 16,
    2999, ⟨[[(0, 481036337152)], [(347892350976, 0)]], 1, 1⟩, ⟨[[(0, 242881915439), (0, 3409484220322)], [(0,
    133233897076), (0, 575303146)]], 1, 1⟩, 1099511627776, 0, 44793638883, ⟨[], 0, 0⟩, 0, 0, 0, lc0⟩ 0 1
    127649139097))) (.sy (.sx (.out ⟨1858, 16, 81, 4579, 16, 3007, ⟨[[(0, 68719476736)], [(347892350976, 0)]], 1, 1⟩,
    ⟨[[(90874909705, 0), (0, 3438908038085)], [(0, 131457809453), (0, 565255061)]], 1, 1⟩, 1099511627776, 0,
    43766728511, ⟨[], 0, 0⟩, 0, 0, 0, lc0⟩ 0 1 136111521966) (.leaf ⟨3962, 16, 82, 848, 16, 3017, ⟨[[(0,
    412316860416)], [(352187318272, 0)]], 3, 4⟩, ⟨[[(0, 153272134773), (3505484238202, 0), (3085671934, 0),
    (13804859, 0), (42361, 0)], [(133166084963, 0), (581672051, 0), (2271464, 0), (9443, 0), (42, 0)], [(6660234, 0),
    (76650, 0), (538, 0), (3, 0)], [(275, 0), (7, 0)]], 3, 4⟩, 1099511627776, 0, 453054, ⟨[[(50431304800571, 0), (0,
    10541660891), (5375362, 0), (125, 0)], [(3959038073, 0), (1706739, 0), (0, 1566)], [(0, 696308), (0, 867)],
    [(139, 0)]], 3, 4⟩, 68719476736, 79285,
    4098825614413106639739912891820559640358626193135982942859562504832505371262475499573403908750, lc0⟩)) (.leaf
    ⟨1973, 16, 41, 615, 16, 2153, ⟨[[(137438953472, 0)], [(352187318272, 0)]], 3, 4⟩, ⟨[[(0, 518378444038),
    (2508350665803, 0), (2303156075, 0), (10267725, 0), (32486, 0)], [(194186358266, 0), (859237327, 0), (3416654,
    0), (14531, 0), (68, 0)], [(20250816, 0), (235225, 0), (1683, 0), (11, 0)], [(1826, 0), (43, 0), (1, 0)]], 3, 4⟩,
    1099511627776, 0, 1458814, ⟨[[(50222957258472, 0), (0, 14601646223), (10614789, 0), (331, 0), (0, 1)],
    [(8010130282, 0), (4739267, 0), (0, 6228), (0, 1)], [(0, 2860587), (0, 4875), (4, 0)], [(1171, 0), (4, 0)]], 3,
    4⟩, 68719476736, 152898,
    3962708550593082971308379257841441541024484071197510242040025432161879984393982381783347669386, lc0⟩))) (.sx (.sy
    (.sx (.sy (.out ⟨1797, 16, 81, 6583, 16, 4332, ⟨[[(206158430208, 0)], [(347892350976, 0)]], 1, 1⟩,
    ⟨[[(362826985490, 0), (0, 2440991063048)], [(0, 194255078878), (0, 418857580)]], 1, 1⟩, 1099511627776, 0,
    34390633960, ⟨[], 0, 0⟩, 0, 0, 0, lc0⟩ 0 1 148343094791) (.leaf ⟨3869, 16, 82, 1238, 16, 4367, ⟨[[(412316860416,
    0)], [(352187318272, 0)]], 3, 4⟩, ⟨[[(0, 502585326082), (2473359661859, 0), (1075285850, 0), (2405192, 0), (3717,
    0)], [(198387621680, 0), (432179005, 0), (843712, 0), (1765, 0), (4, 0)], [(10812456, 0), (61913, 0), (219, 0),
    (1, 0)], [(561, 0), (6, 0)]], 3, 4⟩, 1099511627776, 0, 194137, ⟨[[(49979221551075, 0), (0, 7342216197), (2638541,
    0), (44, 0)], [(4105873841, 0), (1280058, 0), (0, 793)], [(0, 744040), (0, 663)], [(155, 0)]], 3, 4⟩,
    68719476736, 49221,
    4903936493062789020553644118220980941012219180977764719621876978206768381236799522122802267579, lc0⟩)) (.leaf
    ⟨3900, 16, 82, 857, 16, 3000, ⟨[[(137438953472, 0)], [(352187318272, 0)]], 3, 4⟩, ⟨[[(449640328003, 0),
    (3446591625416, 0), (3119728311, 0), (13917165, 0), (43946, 0)], [(136813130441, 0), (603120374, 0), (2390276,
    0), (10158, 0), (47, 0)], [(7408679, 0), (85702, 0), (613, 0), (4, 0)], [(371, 0), (8, 0)]], 3, 4⟩,
    1099511627776, 0, 384368, ⟨[[(50036603189424, 0), (0, 10558603973), (5541946, 0), (128, 0)], [(4071901825, 0),
    (1783088, 0), (0, 1650)], [(0, 735854), (0, 923), (1, 0)], [(153, 0)]], 3, 4⟩, 68719476736, 83603,
    3868623339347272583831114178407620965004444608891536646062505143984800226257102434314206252246, lc0⟩)) (.leaf
    ⟨1942, 16, 41, 616, 16, 2124, ⟨[[(412316860416, 0)], [(352187318272, 0)]], 3, 4⟩, ⟨[[(114757444320, 0),
    (2446425793377, 0), (2306438421, 0), (10268869, 0), (33430, 0)], [(197900588068, 0), (883632955, 0), (3566316,
    0), (15515, 0), (75, 0)], [(22328959, 0), (260820, 0), (1902, 0), (13, 0)], [(2413, 0), (55, 0), (1, 0)]], 3, 4⟩,
    1099511627776, 0, 770457, ⟨[[(49833979323942, 0), (0, 14748441529), (11118710, 0), (345, 0), (0, 1)],
    [(8237906585, 0), (4998120, 0), (0, 6668), (0, 1)], [(0, 3021832), (0, 5239), (4, 0)], [(1284, 0), (4, 0)]], 3,
    4⟩, 68719476736, 137328,
    3816008478139663778484983533868314719352317303159067701937208586031429832625660668735721156248, lc0⟩)) (.leaf
    ⟨1973, 16, 41, 425, 16, 1441, ⟨[[(137438953472, 0)], [(352187318272, 0)]], 3, 4⟩, ⟨[[(179664761881, 0),
    (3416638260675, 0), (6953236306, 0), (61870525, 0), (421293, 0)], [(135337075967, 0), (1237504498, 0), (10293368,
    0), (92658, 0), (938, 0)], [(15067577, 0), (359224, 0), (5390, 0), (75, 0), (1, 0)], [(1512, 0), (72, 0), (2,
    0)]], 3, 4⟩, 1099511627776, 0, 2088553, ⟨[[(49935271189398, 0), (0, 21181609814), (23737119, 0), (951, 0), (0,
    3)], [(8102387992, 0), (6707686, 0), (0, 13991), (0, 2)], [(0, 2956531), (0, 7057), (8, 0)], [(1245, 0), (5,
    0)]], 3, 4⟩, 68719476736, 168390,
    3291603032912627603304480050825578531675403067630551435535664671820168307675833826981611666678, lc0⟩))) (.sy
    (.leaf ⟨985, 16, 20, 304, 16, 1033, ⟨[[], [(343597383680, 0)]], 3, 4⟩, ⟨[[(0, 225825534329), (2514544314675, 0),
    (5221334307, 0), (46411935, 0), (315823, 0)], [(189400525839, 0), (1739802782, 0), (14504505, 0), (130229, 0),
    (1319, 0)], [(38910095, 0), (931901, 0), (13936, 0), (194, 0), (3, 0)], [(6126, 0), (313, 0), (9, 0)]], 3, 4⟩,
    1099511627776, 0, 14206351, ⟨[[(50323252988629, 0), (0, 29195163873), (44961180, 0), (2338, 0), (0, 12)],
    [(16053511072, 0), (17481815, 0), (0, 52801), (0, 12)], [(0, 11706632), (0, 37289), (63, 0)], [(9744, 0), (57,
    0)]], 3, 4⟩, 68719476736, 1199505,
    5052874006938802776922737656560559875373856397705504801347752128323712286343207454388606189220, lc0⟩) (.leaf
    ⟨985, 16, 20, 304, 16, 987, ⟨[[], [(343597383680, 0)]], 3, 4⟩, ⟨[[(0, 495143211255), (2467505083854, 0),
    (5858599660, 0), (52687372, 0), (399825, 0)], [(191467945612, 0), (1843267212, 0), (16407524, 0), (161103, 0),
    (1842, 0)], [(43043235, 0), (1072973, 0), (17379, 0), (274, 0), (5, 0)], [(8003, 0), (428, 0), (14, 0)]], 3, 4⟩,
    1099511627776, 0, 15441958, ⟨[[(49918641991385, 0), (0, 29221096913), (49341101, 0), (1783, 0), (0, 19)],
    [(16290562857, 0), (16722875, 0), (0, 58425), (0, 15)], [(0, 12222241), (0, 37146), (70, 0)], [(10539, 0), (57,
    0)]], 3, 4⟩, 68719476736, 1378235,
    4627992131726130452807990182349795577932646336482473612612161523676783302619556973945445852714, lc0⟩))) (.sx (.sy
    (.leaf ⟨955, 16, 20, 304, 16, 1000, ⟨[[], [(343597383680, 0)]], 3, 4⟩, ⟨[[(0, 174680089433), (2388815836946, 0),
    (5272351127, 0), (47188920, 0), (344204, 0)], [(196383420204, 0), (1847383818, 0), (16012853, 0), (152536, 0),
    (1669, 0)], [(47586876, 0), (1162288, 0), (18327, 0), (275, 0), (5, 0)], [(11226, 0), (544, 0), (16, 0)]], 3, 4⟩,
    1099511627776, 0, 12278599, ⟨[[(49537033183697, 0), (0, 29769987443), (49810284, 0), (2432, 0), (0, 15)],
    [(16977061744, 0), (19358278, 0), (0, 61084), (0, 15)], [(0, 13063195), (0, 42898), (77, 0)], [(11705, 0), (70,
    0)]], 3, 4⟩, 68719476736, 1596146,
    4959705176824855227577002260567149786142181386731069756931711670852044532913443981244223983638, lc0⟩) (.leaf
    ⟨955, 16, 20, 302, 16, 954, ⟨[[], [(343597383680, 0)]], 3, 4⟩, ⟨[[(521638776314, 0), (2344455795010, 0),
    (5918547409, 0), (54189350, 0), (443877, 0)], [(198507821287, 0), (1962957225, 0), (18289553, 0), (192444, 0),
    (2384, 0)], [(52743093, 0), (1351200, 0), (23313, 0), (397, 0), (7, 0)], [(14459, 0), (749, 0), (24, 0), (1,
    0)]], 3, 4⟩, 1099511627776, 0, 29925609, ⟨[[(49170931699480, 0), (0, 29892607176), (54813041, 0), (1807, 0), (0,
    23)], [(17210566878, 0), (18675085, 0), (0, 67793), (0, 20)], [(0, 13589847), (0, 42922), (86, 0)], [(12561, 0),
    (70, 0)]], 3, 4⟩, 68719476736, 1703539,
    4170025888677748208245269440014769957943811179269567029831070480947971535498854266696802140416, lc0⟩)) (.leaf
    ⟨985, 16, 20, 207, 16, 630, ⟨[[], [(343597383680, 0)]], 3, 4⟩, ⟨[[(0, 58623563979), (3302651669605, 0),
    (19173436978, 0), (363056039, 0), (6640133, 0)], [(133734598855, 0), (2788164874, 0), (55838453, 0), (1293237,
    0), (35532, 0)], [(34687121, 0), (1875245, 0), (70814, 0), (2678, 0), (101, 0)], [(8489, 0), (1014, 0), (74, 0),
    (4, 0)]], 3, 4⟩, 1099511627776, 0, 93440666, ⟨[[(49345798268277, 0), (0, 42638891105), (121246979, 0), (130, 0),
    (0, 148)], [(16605826009, 0), (22451243, 0), (0, 145922), (0, 71)], [(0, 12947387), (0, 53721), (174, 0)],
    [(11663, 0), (83, 0)]], 3, 4⟩, 68719476736, 2778645,
    4439107359893578873732897991225016892086594237201521755345090349796137339236278581492066434472, lc0⟩))
theorem c21 : checkC job ⟨6, 8, 8, 10, 9, 13⟩ 1 25 lims t21 752 48 32 63 3 256 = true := by decide +kernel

def t22 : CTree :=
  .sy (.sx (.leaf ⟨1015, 16, 20, 206, 16, 648, ⟨[[], [(343597383680, 0)]], 3, 4⟩, ⟨[[(0, 228992376118),
    (3428359016090, 0), (18382207288, 0), (336719112, 0), (5583829, 0)], [(127327951924, 0), (2555786134, 0),
    (48026190, 0), (1014639, 0), (25423, 0)], [(27471063, 0), (1421684, 0), (49254, 0), (1710, 0), (62, 0)], [(4005,
    0), (513, 0), (38, 0), (2, 0)]], 3, 4⟩, 1099511627776, 0, 64491539, ⟨[[(50120324492902, 0), (0, 42374196535),
    (110607278, 0), (1810, 0), (0, 121)], [(15722344771, 0), (20670981, 0), (0, 127456), (0, 57)], [(0, 11640635),
    (0, 47547), (144, 0)], [(9788, 0), (70, 0)]], 3, 4⟩, 68719476736, 2259281,
    4350185231604526276179461027503648712579918738357611020533347351874134346081302049756899219587, lc0⟩) (.leaf
    ⟨1045, 16, 20, 203, 16, 607, ⟨[[], [(343597383680, 0)]], 3, 4⟩, ⟨[[(443482353443, 0), (3453982843146, 0),
    (21997026366, 0), (423357929, 0), (8124713, 0)], [(124310805009, 0), (2663547883, 0), (54927635, 0), (1319554,
    0), (37266, 0)], [(26727564, 0), (1477803, 0), (57862, 0), (2260, 0), (82, 0)], [(3122, 0), (533, 0), (45, 0),
    (2, 0)]], 3, 4⟩, 1099511627776, 0, 98189487, ⟨[[(50146344040148, 0), (0, 42173720379), (121736266, 0), (0, 7127),
    (0, 199)], [(15228326769, 0), (16462602, 0), (0, 138185), (0, 76)], [(0, 11242846), (0, 41633), (145, 0)],
    [(9307, 0), (59, 0)]], 3, 4⟩, 68719476736, 2406121,
    4216129485427546268217895921272886297189337661908240943191895914488906854583355747990893226551, lc0⟩)) (.leaf
    ⟨515, 16, 10, 143, 16, 399, ⟨[[], [(343597383680, 0)]], 3, 4⟩, ⟨[[(0, 452895946503), (2372681404743, 0),
    (18325064410, 0), (391825989, 0), (9104472, 0)], [(182732801726, 0), (4305528476, 0), (103455829, 0), (2989590,
    0), (95453, 0)], [(97427640, 0), (6066334, 0), (281637, 0), (12153, 0), (431, 0)], [(45235, 0), (7007, 0), (548,
    0), (25, 0)]], 3, 4⟩, 1099511627776, 0, 1414967421, ⟨[[(49324328968033, 0), (0, 59077807441), (285385431, 0), (0,
    66767), (0, 1362)], [(31599644741, 0), (41227551, 0), (0, 677310), (0, 629), (0, 2)], [(0, 49151324), (0,
    242764), (1451, 0), (1, 0)], [(86241, 0), (708, 0), (0, 4)]], 3, 4⟩, 68719476736, 39043154,
    4589811098782964507123902599577182745073502482904743696549887130119565326773483497796364023884, lc0⟩)
theorem c22 : checkC job ⟨6, 8, 8, 10, 9, 13⟩ 1 25 lims t22 848 48 32 63 3 256 = true := by decide +kernel

def t23 : CTree :=
  .sx (.sy (.sx (.leaf ⟨955, 16, 20, 207, 16, 614, ⟨[[], [(343597383680, 0)]], 3, 4⟩, ⟨[[(363964644584, 0),
    (3173787535062, 0), (19664281683, 0), (386162305, 0), (7682596, 0)], [(140186418054, 0), (3021305867, 0),
    (64210681, 0), (1614821, 0), (47587, 0)], [(43209195, 0), (2436115, 0), (99221, 0), (4008, 0), (154, 0)],
    [(15291, 0), (1799, 0), (132, 0), (7, 0)]], 3, 4⟩, 1099511627776, 0, 173691123, ⟨[[(48605398785253, 0), (0,
    43100609763), (132442073, 0), (0, 985), (0, 175)], [(17550806031, 0), (24844345, 0), (0, 166717), (0, 87)], [(0,
    14398930), (0, 61403), (211, 0)], [(13882, 0), (101, 0)]], 3, 4⟩, 68719476736, 3473474,
    4293307383914442220192393833009204103744410108877663710215904151475482992584208343858312212861, lc0⟩) (.leaf
    ⟨985, 16, 20, 202, 16, 563, ⟨[[], [(343597383680, 0)]], 3, 4⟩, ⟨[[(0, 355410854287), (3198293071239, 0),
    (24640721493, 0), (536626135, 0), (12783270, 0)], [(136557787776, 0), (3250201058, 0), (80195856, 0), (2395673,
    0), (78491, 0)], [(43991620, 0), (2794373, 0), (133748, 0), (5961, 0), (221, 0)], [(16448, 0), (2265, 0), (176,
    0), (9, 0)]], 3, 4⟩, 1099511627776, 0, 263593622, ⟨[[(48577923448399, 0), (0, 42551724403), (151374394, 0), (0,
    18847), (0, 332)], [(16979866954, 0), (18812927, 0), (0, 188339), (0, 121)], [(0, 13906634), (0, 52613), (223,
    0)], [(13157, 0), (82, 0)]], 3, 4⟩, 68719476736, 4632293,
    3539856207447393703526160359316712674391395581920644856824484785876656548174208206399787280617, lc0⟩)) (.sx
    (.leaf ⟨955, 16, 20, 200, 16, 544, ⟨[[], [(343597383680, 0)]], 3, 4⟩, ⟨[[(0, 345502198423), (3065185362716, 0),
    (25516799767, 0), (589720403, 0), (15017400, 0)], [(142688772302, 0), (3560505553, 0), (95249985, 0), (3071747,
    0), (102549, 0)], [(55380202, 0), (3747203, 0), (192443, 0), (8763, 0), (310, 0)], [(29097, 0), (3957, 0), (301,
    0), (14, 0)]], 3, 4⟩, 1099511627776, 0, 465245556, ⟨[[(47844355088848, 0), (0, 43052269978), (168115146, 0), (0,
    24283), (0, 415)], [(17957150040, 0), (20879685, 0), (0, 219273), (0, 152)], [(0, 15474330), (0, 60216), (279,
    0)], [(15647, 0), (99, 0)]], 3, 4⟩, 68719476736, 6468882,
    2783467177019311574403558147737886571244145920644883369471140943480009178662787866999247410047, lc0⟩) (.leaf
    ⟨985, 16, 20, 191, 16, 488, ⟨[[], [(343597383680, 0)]], 3, 4⟩, ⟨[[(0, 280801153548), (3090681759192, 0),
    (32940429458, 0), (877396219, 0), (25074454, 0)], [(138326399595, 0), (3949452244, 0), (126759980, 0), (4617151,
    0), (151172, 0)], [(58238547, 0), (4567285, 0), (260364, 0), (11404, 0), (323, 0)], [(33406, 0), (4765, 0), (323,
    0), (10, 0)]], 3, 4⟩, 1099511627776, 0, 660121289, ⟨[[(47847745944695, 0), (0, 42713201829), (199054677, 0), (0,
    76541), (0, 962)], [(17260934382, 0), (13577141, 0), (0, 260531), (0, 234), (0, 1)], [(0, 14796245), (0, 51078),
    (308, 0)], [(14543, 0), (79, 0)]], 3, 4⟩, 68719476736, 14215769,
    4364147222081988289874529588290532384510571688809068906129050251969951167159381250164293646638, lc0⟩))) (.sy (.sx
    (.leaf ⟨1015, 16, 20, 195, 16, 513, ⟨[[], [(343597383680, 0)]], 3, 4⟩, ⟨[[(0, 23549733859), (3223981824675, 0),
    (30740476531, 0), (755629679, 0), (20516468, 0)], [(132563785332, 0), (3512751800, 0), (101220050, 0), (3442465,
    0), (114134, 0)], [(44758259, 0), (3220355, 0), (172351, 0), (7584, 0), (227, 0)], [(17393, 0), (2571, 0), (180,
    0), (6, 0)]], 3, 4⟩, 1099511627776, 0, 368728081, ⟨[[(48591496500029, 0), (0, 42297523320), (174384797, 0), (0,
    54646), (0, 669)], [(16344358775, 0), (12721009, 0), (0, 217044), (0, 172), (0, 1)], [(0, 13321500), (0, 45164),
    (239, 0)], [(12287, 0), (67, 0)]], 3, 4⟩, 68719476736, 9441994,
    2688707380090058480647161197606044751815943323807602701720845202841857184387272915261740894018, lc0⟩) (.leaf
    ⟨1045, 16, 20, 187, 16, 464, ⟨[[], [(343597383680, 0)]], 3, 4⟩, ⟨[[(193466643585, 0), (3249981872528, 0),
    (38165103582, 0), (1048621339, 0), (30171927, 0)], [(128120809974, 0), (3801541890, 0), (125556384, 0), (4505271,
    0), (135745, 0)], [(45154397, 0), (3582766, 0), (194500, 0), (7178, 0), (114, 0)], [(16120, 0), (2146, 0), (82,
    0), (0, 4)]], 3, 4⟩, 1099511627776, 0, 631393937, ⟨[[(48600366404649, 0), (0, 42052005251), (202076211, 0), (0,
    135361), (0, 1610)], [(15668075938, 0), (5887556, 0), (0, 256827), (0, 289), (0, 3)], [(0, 12721296), (0, 38314),
    (261, 0)], [(11415, 0), (54, 0)]], 3, 4⟩, 68719476736, 25248713,
    3655748864445192998527174256655089344013541781997344960193558328927341204022328922338714562772, lc0⟩)) (.sx
    (.leaf ⟨1015, 16, 20, 180, 16, 431, ⟨[[], [(343597383680, 0)]], 3, 4⟩, ⟨[[(0, 453167534716), (3105574019144, 0),
    (42204276426, 0), (1265819689, 0), (37651025, 0)], [(132912334177, 0), (4383915756, 0), (163600849, 0), (6205948,
    0), (192322, 0)], [(60684504, 0), (5305424, 0), (304351, 0), (11910, 0), (396, 0)], [(33858, 0), (4361, 0), (211,
    0), (6, 0), (2, 0)]], 3, 4⟩, 1099511627776, 0, 1155767167, ⟨[[(47841538896015, 0), (0, 42454812055), (239897099,
    0), (0, 217612), (0, 2689)], [(16507445242, 0), (4936827, 0), (0, 325151), (0, 487), (0, 6)], [(0, 14101004), (0,
    42592), (351, 0)], [(13441, 0), (63, 0), (0, 1)]], 3, 4⟩, 68719476736, 38833484,
    4324898505319053129829072156554125459890500756783289664020655987088617675992344349721717441511, lc0⟩) (.sy (.leaf
    ⟨1045, 16, 20, 257, 16, 593, ⟨[[], [(343597383680, 0)]], 3, 4⟩, ⟨[[(262680266735, 0), (2345092205797, 0),
    (18139905930, 0), (283747933, 0), (4252534, 0)], [(189455542109, 0), (3361748571, 0), (65764417, 0), (1233256,
    0), (20686, 0)], [(84251089, 0), (3720644, 0), (100199, 0), (2016, 0), (78, 0)], [(34506, 0), (1689, 0), (25, 0),
    (4, 0), (1, 0)]], 3, 4⟩, 1099511627776, 0, 899444997, ⟨[[(48047420753516, 0), (0, 28527033347), (118785651, 0),
    (0, 122048), (0, 926)], [(15699097431, 0), (0, 1223466), (0, 167552), (0, 256), (0, 2)], [(0, 13209111), (0,
    24186), (160, 0)], [(12103, 0), (34, 0)]], 3, 4⟩, 68719476736, 8660232,
    3009549900814278675757333093525379659524615030754998844606049070481573535593358009291165989249, lc0⟩) (.leaf
    ⟨1045, 16, 20, 240, 16, 526, ⟨[[], [(343597383680, 0)]], 3, 4⟩, ⟨[[(117868806284, 0), (2304089987420, 0),
    (21588965792, 0), (370812910, 0), (6765538, 0)], [(188307151914, 0), (3820950742, 0), (83865004, 0), (1911292,
    0), (62682, 0)], [(98267252, 0), (4672104, 0), (155627, 0), (7390, 0), (530, 0)], [(42243, 0), (2971, 0), (339,
    0), (44, 0), (4, 0)]], 3, 4⟩, 1099511627776, 0, 1987391862, ⟨[[(47681839382219, 0), (0, 28611682248), (143552713,
    0), (0, 223696), (165, 0)], [(15650949658, 0), (0, 6679699), (0, 227396), (0, 350), (8, 0)], [(0, 13508049), (0,
    22423), (200, 0)], [(12512, 0), (30, 0)]], 3, 4⟩, 68719476736, 164552451,
    3477157058328648565449713664235862323952783672554175271461912978668138072029951282293750083595, lc0⟩))))
theorem c23 : checkC job ⟨6, 8, 8, 10, 9, 13⟩ 1 25 lims t23 400 48 16 69 3 256 = true := by decide +kernel

def t24 : CTree :=
  .sx (.sx (.sy (.sy (.out ⟨95, 16, 20, 1290, 16, 801, ⟨[[], [(343597383680, 0)]], 1, 1⟩, ⟨[[(0, 384861562103), (0,
    3570761809075)], [(0, 118350167779), (0, 2076793320)]], 1, 1⟩, 1099511627776, 0, 237698605332, ⟨[], 0, 0⟩, 0, 0,
    0, lc0⟩ 0 1 4114675507455) (.out ⟨95, 16, 20, 1250, 16, 788, ⟨[[], [(343597383680, 0)]], 1, 1⟩, ⟨[[(0,
    80188785410), (0, 3379187735147)], [(0, 129547480970), (0, 2339754749)]], 1, 1⟩, 1099511627776, 0, 243082700892,
    ⟨[], 0, 0⟩, 0, 0, 0, lc0⟩ 0 1 3440219560687)) (.out ⟨95, 16, 20, 740, 16, 477, ⟨[[], [(343597383680, 0)]], 1, 1⟩,
    ⟨[[(296690190852, 0), (0, 3910444587495)], [(0, 92661488219), (0, 3535157095)]], 1, 1⟩, 1099511627776, 0,
    399478047275, ⟨[], 0, 0⟩, 0, 0, 0, lc0⟩ 0 1 2572184841748)) (.out ⟨125, 16, 20, 396, 16, 254, ⟨[[],
    [(343597383680, 0)]], 1, 1⟩, ⟨[[(0, 31257045827), (0, 4622529391302)], [(0, 47056826437), (0, 3830819563)]], 1,
    1⟩, 1099511627776, 0, 787040444865, ⟨[], 0, 0⟩, 0, 0, 0, lc0⟩ 0 1 2602601878749)) (.sy (.out ⟨85, 16, 10, 515,
    16, 330, ⟨[[], [(343597383680, 0)]], 1, 1⟩, ⟨[[(349031434958, 0), (0, 3412258438156)], [(0, 118197133783), (0,
    5262493780)]], 1, 1⟩, 1099511627776, 0, 539471811995, ⟨[], 0, 0⟩, 0, 0, 0, lc0⟩ 0 1 2414711933449) (.sx (.out
    ⟨155, 16, 20, 597, 16, 394, ⟨[[], [(343597383680, 0)]], 1, 1⟩, ⟨[[(0, 19082293070), (0, 3918035986377)], [(0,
    89948007709), (0, 4378039412)]], 1, 1⟩, 1099511627776, 0, 480822814372, ⟨[], 0, 0⟩, 0, 0, 0, lc0⟩ 0 1
    1505837854482) (.out ⟨185, 16, 20, 526, 16, 352, ⟨[[], [(343597383680, 0)]], 1, 1⟩, ⟨[[(2941950529, 0), (0,
    3922427703612)], [(0, 88080030038), (0, 4943261999)]], 1, 1⟩, 1099511627776, 0, 828304224652, ⟨[], 0, 0⟩, 0, 0,
    0, lc0⟩ 0 1 973481693538)))
theorem c24 : checkC job ⟨6, 8, 8, 10, 9, 13⟩ 1 25 lims t24 112 48 16 21 3 64 = true := by decide +kernel

def t25 : CTree :=
  .sy (.out ⟨115, 16, 10, 689, 16, 446, ⟨[[], [(343597383680, 0)]], 1, 1⟩, ⟨[[(0, 40178081148), (0, 2676224917390)],
    [(0, 167188062908), (0, 4300227644)]], 1, 1⟩, 1099511627776, 0, 458229036520, ⟨[], 0, 0⟩, 0, 0, 0, lc0⟩ 0 1
    1749021867067) (.sx (.out ⟨215, 16, 20, 885, 16, 582, ⟨[[], [(343597383680, 0)]], 1, 1⟩, ⟨[[(283875561063, 0),
    (0, 3424548325547)], [(0, 123652534100), (0, 3334319449)]], 1, 1⟩, 1099511627776, 0, 305789102487, ⟨[], 0, 0⟩, 0,
    0, 0, lc0⟩ 0 1 1311662910068) (.out ⟨245, 16, 20, 796, 16, 530, ⟨[[], [(343597383680, 0)]], 1, 1⟩, ⟨[[(0,
    48830010684), (0, 3439973923663)], [(0, 121449258439), (0, 3690983152)]], 1, 1⟩, 1099511627776, 0, 421449974999,
    ⟨[], 0, 0⟩, 0, 0, 0, lc0⟩ 0 1 806704514039))
theorem c25 : checkC job ⟨6, 8, 8, 10, 9, 13⟩ 1 25 lims t25 368 48 32 39 3 128 = true := by decide +kernel

def t26 : CTree :=
  .sx (.out ⟨275, 16, 20, 816, 16, 537, ⟨[[], [(343597383680, 0)]], 1, 1⟩, ⟨[[(0, 285216519294), (0, 3642212346401)],
    [(0, 110329511864), (0, 3283284532)]], 1, 1⟩, 1099511627776, 0, 352565599775, ⟨[], 0, 0⟩, 0, 0, 0, lc0⟩ 0 1
    990508049789) (.sy (.out ⟨305, 16, 20, 1175, 16, 778, ⟨[[], [(343597383680, 0)]], 1, 1⟩, ⟨[[(244516409825, 0),
    (0, 2839617080601)], [(0, 162723979809), (0, 2591490844)]], 1, 1⟩, 1099511627776, 0, 252931806983, ⟨[], 0, 0⟩, 0,
    0, 0, lc0⟩ 0 1 661358370532) (.sx (.out ⟨595, 16, 40, 1488, 16, 995, ⟨[[], [(343597383680, 0)]], 1, 1⟩, ⟨[[(0,
    191619730956), (0, 3671631215703)], [(0, 112821147085), (0, 1890688282)]], 1, 1⟩, 1099511627776, 0, 196502334060,
    ⟨[], 0, 0⟩, 0, 0, 0, lc0⟩ 0 1 431005368728) (.sy (.out ⟨625, 16, 40, 2182, 16, 1464, ⟨[[], [(343597383680, 0)]],
    1, 1⟩, ⟨[[(72529112876, 0), (0, 2810480722409)], [(0, 167842438611), (0, 1459495160)]], 1, 1⟩, 1099511627776, 0,
    136893308188, ⟨[], 0, 0⟩, 0, 0, 0, lc0⟩ 0 1 269944589357) (.sx (.out ⟨1250, 16, 81, 2826, 16, 1906,
    ⟨[[(481036337152, 0)], [(347892350976, 0)]], 1, 1⟩, ⟨[[(0, 355963039254), (0, 3692921374309)], [(0,
    114111802714), (0, 1023102589)]], 1, 1⟩, 1099511627776, 0, 103349136946, ⟨[], 0, 0⟩, 0, 0, 0, lc0⟩ 0 1
    161969426968) (.leaf ⟨3347, 16, 82, 608, 16, 1884, ⟨[[(0, 412316860416)], [(352187318272, 0)]], 3, 4⟩,
    ⟨[[(94451574009, 0), (3749931407841, 0), (7900564651, 0), (71303983, 0), (545634, 0)], [(115067782895, 0),
    (1065130619, 0), (9389420, 0), (94604, 0), (1077, 0)], [(12095949, 0), (291279, 0), (4811, 0), (76, 0), (1, 0)],
    [(1825, 0), (78, 0), (2, 0)]], 3, 4⟩, 1099511627776, 0, 4482156, ⟨[[(46288684650609, 0), (0, 16594379468),
    (17020475, 0), (677, 0), (0, 1)], [(5392036875, 0), (4345827, 0), (0, 6387), (0, 1)], [(0, 1288527), (0, 2770),
    (3, 0)], [(394, 0), (2, 0)]], 3, 4⟩, 68719476736, 120170,
    5116012389664546800847792376188040991333415241755913806822831571565281979471526648945114909108, lc0⟩)))))
theorem c26 : checkC job ⟨6, 8, 8, 10, 9, 13⟩ 1 25 lims t26 464 48 32 75 3 256 = true := by decide +kernel

def t27 : CTree :=
  .sx (.sy (.sy (.out ⟨275, 16, 20, 1503, 16, 1005, ⟨[[], [(343597383680, 0)]], 1, 1⟩, ⟨[[(23959936597, 0), (0,
    1766370697934)], [(0, 232012240970), (0, 1887995911)]], 1, 1⟩, 1099511627776, 0, 277997064818, ⟨[], 0, 0⟩, 0, 0,
    0, lc0⟩ 0 1 544285477826) (.out ⟨275, 16, 20, 1432, 16, 964, ⟨[[], [(343597383680, 0)]], 1, 1⟩, ⟨[[(412128991006,
    0), (0, 1725885060953)], [(0, 233918977931), (0, 1984102376)]], 1, 1⟩, 1099511627776, 0, 306007735649, ⟨[], 0,
    0⟩, 0, 0, 0, lc0⟩ 0 1 375295382772)) (.sx (.sy (.out ⟨535, 16, 40, 2156, 16, 1455, ⟨[[], [(343597383680, 0)]], 1,
    1⟩, ⟨[[(0, 440916179315), (0, 2583881009958)], [(0, 181835011318), (0, 1557100088)]], 1, 1⟩, 1099511627776, 0,
    158091396108, ⟨[], 0, 0⟩, 0, 0, 0, lc0⟩ 0 1 353311702085) (.sx (.out ⟨1068, 16, 81, 2875, 16, 1950,
    ⟨[[(206158430208, 0)], [(347892350976, 0)]], 1, 1⟩, ⟨[[(460622514020, 0), (0, 3485335476570)], [(0,
    126900522768), (0, 1116971711)]], 1, 1⟩, 1099511627776, 0, 107518779068, ⟨[], 0, 0⟩, 0, 0, 0, lc0⟩ 0 1
    256791623721) (.sy (.out ⟨1099, 16, 81, 4131, 16, 2808, ⟨[[(0, 481036337152)], [(347892350976, 0)]], 1, 1⟩,
    ⟨[[(547920411836, 0), (0, 2573400836808)], [(0, 184655487002), (0, 834130685)]], 1, 1⟩, 1099511627776, 0,
    82153343486, ⟨[], 0, 0⟩, 0, 0, 0, lc0⟩ 0 1 170427857757) (.leaf ⟨3162, 16, 82, 932, 16, 2792, ⟨[[(137438953472,
    0)], [(352187318272, 0)]], 3, 4⟩, ⟨[[(0, 338972223883), (2590607371110, 0), (2764620377, 0), (12460605, 0),
    (47977, 0)], [(188712479977, 0), (874352936, 0), (3920968, 0), (20086, 0), (112, 0)], [(24573539, 0), (297018,
    0), (2498, 0), (20, 0)], [(4872, 0), (104, 0), (1, 0)]], 3, 4⟩, 1099511627776, 0, 8243678, ⟨[[(44886542545143,
    0), (0, 11294344921), (8358490, 0), (270, 0)], [(6026341188, 0), (3532477, 0), (0, 3460), (0, 1)], [(0, 1622569),
    (0, 2480), (2, 0)], [(588, 0), (2, 0)]], 3, 4⟩, 68719476736, 133093,
    3898454655390646044076971202481790400298772103542271928381815605610048951234513465498041927164, lc0⟩)))) (.sy
    (.sx (.out ⟨1129, 16, 81, 2811, 16, 1908, ⟨[[(0, 68719476736)], [(347892350976, 0)]], 1, 1⟩, ⟨[[(0,
    172208498164), (0, 3541985200234)], [(0, 123335230419), (0, 1114992020)]], 1, 1⟩, 1099511627776, 0, 111241877986,
    ⟨[], 0, 0⟩, 0, 0, 0, lc0⟩ 0 1 165031747989) (.leaf ⟨3224, 16, 82, 624, 16, 1878, ⟨[[(0, 412316860416)],
    [(352187318272, 0)]], 3, 4⟩, ⟨[[(523395588758, 0), (3594913817787, 0), (7908381965, 0), (71835798, 0), (567259,
    0)], [(124272810117, 0), (1166532547, 0), (10614061, 0), (110894, 0), (1279, 0)], [(15384044, 0), (376903, 0),
    (6449, 0), (104, 0), (2, 0)], [(2867, 0), (125, 0), (3, 0)]], 3, 4⟩, 1099511627776, 0, 7306587,
    ⟨[[(45301963531706, 0), (0, 16583552121), (18006363, 0), (785, 0), (0, 1)], [(5817642331, 0), (4861468, 0), (0,
    7219), (0, 2)], [(0, 1509791), (0, 3311), (3, 0)], [(518, 0), (2, 0)]], 3, 4⟩, 68719476736, 78161,
    4151434264501852210152336161424995258083756659366644354756989353417512292909662320768197341439, lc0⟩)) (.leaf
    ⟨1604, 16, 41, 453, 16, 1332, ⟨[[(137438953472, 0)], [(352187318272, 0)]], 3, 4⟩, ⟨[[(0, 26139555182),
    (2579183678905, 0), (6196003890, 0), (57349461, 0), (479631, 0)], [(184390163919, 0), (1792226789, 0), (17193521,
    0), (190194, 0), (2290, 0)], [(49293942, 0), (1255881, 0), (22705, 0), (383, 0), (6, 0)], [(20239, 0), (922, 0),
    (27, 0), (1, 0)]], 3, 4⟩, 1099511627776, 0, 84163733, ⟨[[(44967651421098, 0), (0, 22740811926), (36093004, 0),
    (2059, 0), (0, 6)], [(11875523288, 0), (13401601, 0), (0, 29438), (0, 11)], [(0, 6337498), (0, 18673), (26, 0)],
    [(4505, 0), (23, 0)]], 3, 4⟩, 68719476736, 533321,
    3210943659826723877922241888275471510029225803560712087636369941226172499298940846417925528997, lc0⟩)))) (.sy
    (.sx (.sy (.sx (.out ⟨1190, 16, 81, 2872, 16, 1937, ⟨[[(0, 343597383680)], [(347892350976, 0)]], 1, 1⟩, ⟨[[(0,
    158967852991), (0, 3637352290550)], [(0, 117497760341), (0, 1035175061)]], 1, 1⟩, 1099511627776, 0, 101237764441,
    ⟨[], 0, 0⟩, 0, 0, 0, lc0⟩ 0 1 236347307022) (.sy (.out ⟨1220, 16, 81, 4225, 16, 2855, ⟨[[(68719476736, 0)],
    [(347892350976, 0)]], 1, 1⟩, ⟨[[(141644959173, 0), (0, 2739460969353)], [(0, 174430077083), (0, 784720919)]], 1,
    1⟩, 1099511627776, 0, 72340812039, ⟨[], 0, 0⟩, 0, 0, 0, lc0⟩ 0 1 154131022145) (.leaf ⟨3285, 16, 82, 925, 16,
    2842, ⟨[[(137438953472, 0)], [(352187318272, 0)]], 3, 4⟩, ⟨[[(0, 351187396267), (2760264575756, 0), (2886770822,
    0), (13011008, 0), (49653, 0)], [(178445720819, 0), (822766748, 0), (3625644, 0), (18278, 0), (103, 0)],
    [(19959565, 0), (239565, 0), (1980, 0), (15, 0)], [(3270, 0), (70, 0), (1, 0)]], 3, 4⟩, 1099511627776, 0,
    4435847, ⟨[[(45862135756480, 0), (0, 11066490265), (7663405, 0), (216, 0)], [(5580783812, 0), (3074294, 0), (0,
    2965)], [(0, 1381418), (0, 2016), (1, 0)], [(444, 0), (1, 0)]], 3, 4⟩, 68719476736, 91218,
    4551291597136562483490135868309962325166550089737570771443008409394818197304282352502928610454, lc0⟩))) (.leaf
    ⟨1635, 16, 41, 455, 16, 1377, ⟨[[(0, 137438953472)], [(352187318272, 0)]], 3, 4⟩, ⟨[[(180028937441, 0),
    (2687447413792, 0), (5948310033, 0), (54142390, 0), (430181, 0)], [(178346985039, 0), (1679493088, 0), (15296227,
    0), (160247, 0), (1872, 0)], [(42108693, 0), (1034500, 0), (17731, 0), (288, 0), (5, 0)], [(14778, 0), (648, 0),
    (18, 0)]], 3, 4⟩, 1099511627776, 0, 51258878, ⟨[[(45623193486614, 0), (0, 22488137755), (32873339, 0), (1838, 0),
    (0, 4)], [(11332147503, 0), (12592923, 0), (0, 25744), (0, 8)], [(0, 5722074), (0, 16777), (22, 0)], [(3775, 0),
    (19, 0)]], 3, 4⟩, 68719476736, 397772,
    5249627291046758804082553495367897128151721074319099728211389382445745683645949932615002048557, lc0⟩)) (.leaf
    ⟨1666, 16, 41, 297, 16, 884, ⟨[[(0, 412316860416)], [(352187318272, 0)]], 3, 4⟩, ⟨[[(512759464236, 0),
    (3614491779201, 0), (17919806977, 0), (335229244, 0), (5793771, 0)], [(116415548205, 0), (2295809515, 0),
    (44594514, 0), (1008442, 0), (25510, 0)], [(27748254, 0), (1434023, 0), (52789, 0), (1855, 0), (62, 0)], [(9862,
    0), (926, 0), (56, 0), (3, 0)]], 3, 4⟩, 1099511627776, 0, 91977015, ⟨[[(45802145467582, 0), (0, 33681944868),
    (77962264, 0), (5475, 0), (0, 30)], [(11075071100, 0), (17494799, 0), (0, 59700), (0, 28)], [(0, 5502791), (0,
    23055), (50, 0)], [(3532, 0), (25, 0)]], 3, 4⟩, 68719476736, 630531,
    3955740685447988193871502669765650878598862099210038750084660754008769996718066617999994067799, lc0⟩)) (.leaf
    ⟨805, 16, 20, 213, 16, 602, ⟨[[], [(343597383680, 0)]], 3, 4⟩, ⟨[[(0, 458197419621), (2543112539381, 0),
    (15245163414, 0), (304123554, 0), (5966625, 0)], [(174952162088, 0), (3753349768, 0), (82872979, 0), (2138621,
    0), (58137, 0)], [(98836722, 0), (5639900, 0), (236157, 0), (9013, 0), (292, 0)], [(87862, 0), (9146, 0), (590,
    0), (28, 0), (1, 0)]], 3, 4⟩, 1099511627776, 0, 1448892958, ⟨[[(45110146528743, 0), (0, 46210619265), (170666802,
    0), (12000, 0), (0, 180)], [(23623153091, 0), (49016194, 0), (0, 277584), (0, 214)], [(0, 25401461), (0, 139587),
    (496, 0), (1, 0)], [(35686, 0), (327, 0), (0, 1)]], 3, 4⟩, 68719476736, 8863497,
    2956844234188028984987593418988546733045100165935172490038096530280414035397391066327311412484, lc0⟩))
theorem c27 : checkC job ⟨6, 8, 8, 10, 9, 13⟩ 1 25 lims t27 464 48 32 81 3 256 = true := by decide +kernel

def t28 : CTree :=
  .sy (.out ⟨215, 16, 20, 786, 16, 528, ⟨[[], [(343597383680, 0)]], 1, 1⟩, ⟨[[(0, 169595274798), (0, 3240207653082)],
    [(0, 133199741294), (0, 4068705912)]], 1, 1⟩, 1099511627776, 0, 485289012530, ⟨[], 0, 0⟩, 0, 0, 0, lc0⟩ 0 1
    727327609061) (.sy (.sx (.out ⟨415, 16, 40, 1487, 16, 1012, ⟨[[], [(343597383680, 0)]], 1, 1⟩, ⟨[[(0,
    547763729216), (0, 3156591420944)], [(0, 143432005619), (0, 2366656786)]], 1, 1⟩, 1099511627776, 0, 246072781540,
    ⟨[], 0, 0⟩, 0, 0, 0, lc0⟩ 0 1 463372445664) (.sy (.out ⟨445, 16, 40, 2000, 16, 1369, ⟨[[], [(343597383680, 0)]],
    1, 1⟩, ⟨[[(0, 353258447872), (0, 2273926520754)], [(0, 200561635120), (0, 1776013863)]], 1, 1⟩, 1099511627776, 0,
    214123006542, ⟨[], 0, 0⟩, 0, 0, 0, lc0⟩ 0 1 268213484788) (.leaf ⟨1481, 16, 41, 460, 16, 1319, ⟨[[(137438953472,
    0)], [(352187318272, 0)]], 3, 4⟩, ⟨[[(0, 377841120613), (2245552742688, 0), (4928205610, 0), (43781481, 0),
    (327832, 0)], [(204058764116, 0), (1901866393, 0), (17351156, 0), (175452, 0), (1809, 0)], [(69423192, 0),
    (1683928, 0), (28134, 0), (414, 0), (6, 0)], [(37401, 0), (1553, 0), (39, 0), (1, 0)]], 3, 4⟩, 1099511627776, 0,
    195791558, ⟨[[(43121799994202, 0), (0, 24027935167), (41091922, 0), (3691, 0), (0, 5)], [(13894291834, 0),
    (18596737, 0), (0, 38670), (0, 20)], [(0, 8841278), (0, 29848), (40, 0)], [(8101, 0), (44, 0)]], 3, 4⟩,
    68719476736, 1063307,
    3727880222183681192919506767559984023021064587083828708217998465754351481887400978688109268367, lc0⟩))) (.sx (.sy
    (.out ⟨415, 16, 40, 1965, 16, 1350, ⟨[[], [(343597383680, 0)]], 1, 1⟩, ⟨[[(532277543598, 0), (0, 2172453907404)],
    [(0, 206613555860), (0, 1826202864)]], 1, 1⟩, 1099511627776, 0, 232820978694, ⟨[], 0, 0⟩, 0, 0, 0, lc0⟩ 0 1
    270697047236) (.leaf ⟨1450, 16, 41, 459, 16, 1299, ⟨[[(412316860416, 0)], [(352187318272, 0)]], 3, 4⟩, ⟨[[(0,
    535060391148), (2142581816473, 0), (4701723380, 0), (41396723, 0), (305074, 0)], [(209921088659, 0), (1952760633,
    0), (17768024, 0), (176795, 0), (1776, 0)], [(77710797, 0), (1874159, 0), (30826, 0), (440, 0), (6, 0)], [(45739,
    0), (1860, 0), (46, 0), (1, 0)]], 3, 4⟩, 1099511627776, 0, 261690290, ⟨[[(42534431799819, 0), (0, 24491733190),
    (43725026, 0), (4429, 0), (0, 6)], [(14590408469, 0), (20386801, 0), (0, 43030), (0, 25)], [(0, 9863427), (0,
    34286), (47, 0)], [(9811, 0), (53, 0)]], 3, 4⟩, 68719476736, 1353288,
    4160949390322334319440797519987781663389216969167900065537097256060788452686628759814918039953, lc0⟩)) (.leaf
    ⟨1481, 16, 41, 314, 16, 866, ⟨[[(137438953472, 0)], [(352187318272, 0)]], 3, 4⟩, ⟨[[(129713308912, 0),
    (3080507282665, 0), (16523435474, 0), (305371766, 0), (5066650, 0)], [(146229887585, 0), (2971279331, 0),
    (60723308, 0), (1358664, 0), (30798, 0)], [(57251752, 0), (3032771, 0), (111859, 0), (3594, 0), (106, 0)],
    [(36259, 0), (3275, 0), (179, 0), (8, 0)]], 3, 4⟩, 1099511627776, 0, 358433716, ⟨[[(42696959160520, 0), (0,
    34306772104), (95767995, 0), (11499, 0), (0, 36)], [(14220710738, 0), (26143973, 0), (0, 92288), (0, 74)], [(0,
    9372272), (0, 43136), (100, 0)], [(8883, 0), (64, 0)]], 3, 4⟩, 68719476736, 1625483,
    4379290335446924269777926120732037019054362296818558065176188943996012971510884386395572337799, lc0⟩)))
theorem c28 : checkC job ⟨6, 8, 8, 10, 9, 13⟩ 1 25 lims t28 688 48 64 45 3 128 = true := by decide +kernel

def t29 : CTree :=
  .sy (.sy (.sx (.out ⟨475, 16, 40, 1504, 16, 1016, ⟨[[], [(343597383680, 0)]], 1, 1⟩, ⟨[[(787464800, 0), (0,
    3361198698577)], [(0, 131300274185), (0, 2161847547)]], 1, 1⟩, 1099511627776, 0, 218653731267, ⟨[], 0, 0⟩, 0, 0,
    0, lc0⟩ 0 1 479973867141) (.sy (.out ⟨505, 16, 40, 2095, 16, 1422, ⟨[[], [(343597383680, 0)]], 1, 1⟩,
    ⟨[[(400179602510, 0), (0, 2479165972940)], [(0, 188112495067), (0, 1637383518)]], 1, 1⟩, 1099511627776, 0,
    176209223105, ⟨[], 0, 0⟩, 0, 0, 0, lc0⟩ 0 1 296458806101) (.sx (.out ⟨1007, 16, 81, 2831, 16, 1930,
    ⟨[[(481036337152, 0)], [(347892350976, 0)]], 1, 1⟩, ⟨[[(205953236188, 0), (0, 3385770485102)], [(0,
    132892669398), (0, 1188908111)]], 1, 1⟩, 1099511627776, 0, 116148091799, ⟨[], 0, 0⟩, 0, 0, 0, lc0⟩ 0 1
    220932826705) (.leaf ⟨3101, 16, 82, 642, 16, 1893, ⟨[[(0, 412316860416)], [(352187318272, 0)]], 3, 4⟩,
    ⟨[[(25508936754, 0), (3436793844165, 0), (7516640069, 0), (67778140, 0), (524941, 0)], [(133892147665, 0),
    (1250660916, 0), (11394553, 0), (117970, 0), (1303, 0)], [(19059047, 0), (464880, 0), (7912, 0), (123, 0), (2,
    0)], [(4205, 0), (180, 0), (5, 0)]], 3, 4⟩, 1099511627776, 0, 10404626, ⟨[[(44343131551181, 0), (0, 16613097620),
    (18684364, 0), (950, 0), (0, 1)], [(6287686745, 0), (5521616, 0), (0, 8032), (0, 2)], [(0, 1777930), (0, 4033),
    (4, 0)], [(690, 0), (3, 0)]], 3, 4⟩, 68719476736, 117635,
    3808478841880863493638710947566133676948330374879586340152249951612884106815594404586771906407, lc0⟩)))) (.sx
    (.sy (.out ⟨475, 16, 40, 2043, 16, 1393, ⟨[[], [(343597383680, 0)]], 1, 1⟩, ⟨[[(0, 68703988000), (0,
    2375738473216)], [(0, 194349842049), (0, 1711468969)]], 1, 1⟩, 1099511627776, 0, 195024290182, ⟨[], 0, 0⟩, 0, 0,
    0, lc0⟩ 0 1 273469336834) (.leaf ⟨1512, 16, 41, 461, 16, 1345, ⟨[[(0, 137438953472)], [(352187318272, 0)]], 3,
    4⟩, ⟨[[(136886161920, 0), (2349919512122, 0), (5053314692, 0), (45109316, 0), (340052, 0)], [(198098175112, 0),
    (1834601418, 0), (16569578, 0), (168073, 0), (1776, 0)], [(61352609, 0), (1481479, 0), (24784, 0), (372, 0), (5,
    0)], [(29790, 0), (1246, 0), (32, 0), (1, 0)]], 3, 4⟩, 1099511627776, 0, 139654604, ⟨[[(43732510546356, 0), (0,
    23644036087), (38328701, 0), (3105, 0), (0, 5)], [(13232670136, 0), (17098726, 0), (0, 34507), (0, 16)], [(0,
    7932488), (0, 26187), (34, 0)], [(6698, 0), (36, 0)]], 3, 4⟩, 68719476736, 838720,
    5091813247838258723046721842840852007753820888507681881117906270649030374409307743643701124723, lc0⟩)) (.leaf
    ⟨1543, 16, 41, 311, 16, 886, ⟨[[(0, 412316860416)], [(352187318272, 0)]], 3, 4⟩, ⟨[[(0, 24332002523),
    (3295239068022, 0), (16721387725, 0), (310784381, 0), (5216183, 0)], [(134707937627, 0), (2675288340, 0),
    (53200254, 0), (1196485, 0), (27850, 0)], [(43263345, 0), (2255726, 0), (83318, 0), (2757, 0), (80, 0)], [(22093,
    0), (2024, 0), (115, 0), (5, 0)]], 3, 4⟩, 1099511627776, 0, 187521042, ⟨[[(43882695629236, 0), (0, 33864970709),
    (86131816, 0), (8425, 0), (0, 31)], [(12928398260, 0), (22538697, 0), (0, 75903), (0, 49)], [(0, 7603283), (0,
    33968), (74, 0)], [(6181, 0), (45, 0)]], 3, 4⟩, 68719476736, 1102658,
    4170849256148911548147313560978313981157985443074982615673360024612273227316056837090489167244, lc0⟩))) (.sx (.sy
    (.leaf ⟨1512, 16, 41, 312, 16, 874, ⟨[[(0, 137438953472)], [(352187318272, 0)]], 3, 4⟩, ⟨[[(447783695939, 0),
    (3187904147232, 0), (16791154102, 0), (312234247, 0), (5229970, 0)], [(140416437790, 0), (2832593784, 0),
    (57503346, 0), (1298166, 0), (29669, 0)], [(50037050, 0), (2644941, 0), (98335, 0), (3206, 0), (92, 0)], [(28705,
    0), (2628, 0), (146, 0), (6, 0)]], 3, 4⟩, 1099511627776, 0, 260619209, ⟨[[(43294085992080, 0), (0, 34123220325),
    (91166033, 0), (9814, 0), (0, 34)], [(13547144261, 0), (24253702, 0), (0, 83919), (0, 61)], [(0, 8420789), (0,
    38212), (86, 0)], [(7380, 0), (54, 0)]], 3, 4⟩, 68719476736, 1340490,
    4300883183737278793780395849803364603570934412622521936501573939371163669180736908363635792643, lc0⟩) (.leaf
    ⟨1512, 16, 41, 297, 16, 785, ⟨[[(0, 137438953472)], [(352187318272, 0)]], 3, 4⟩, ⟨[[(0, 247912685680),
    (3079231012510, 0), (21362860555, 0), (432246091, 0), (8444046, 0)], [(143533560667, 0), (3317375879, 0),
    (79975900, 0), (2095816, 0), (56135, 0)], [(63123615, 0), (3835120, 0), (164274, 0), (6074, 0), (219, 0)],
    [(46133, 0), (4729, 0), (287, 0), (14, 0), (1, 0)]], 3, 4⟩, 1099511627776, 0, 616285858, ⟨[[(42688762328225, 0),
    (0, 34191003959), (113591645, 0), (9338, 0), (0, 74)], [(13970360009, 0), (23441284, 0), (0, 108441), (0, 92)],
    [(0, 9103247), (0, 38785), (117, 0)], [(8350, 0), (56, 0)]], 3, 4⟩, 68719476736, 1829766,
    3095262254424813175801449404342780649404583103730793482863957817033768887201653653767961177464, lc0⟩)) (.leaf
    ⟨1543, 16, 41, 176, 16, 459, ⟨[[(0, 412316860416)], [(352187318272, 0)]], 3, 4⟩, ⟨[[(0, 173070305720),
    (3824112061945, 0), (59170462218, 0), (2526439274, 0), (105822716, 0)], [(85061597273, 0), (4175518742, 0),
    (217646835, 0), (12247683, 0), (690262, 0)], [(37813549, 0), (4913906, 0), (450282, 0), (34952, 0), (2650, 0)],
    [(28211, 0), (6125, 0), (774, 0), (78, 0), (9, 0)]], 3, 4⟩, 1099511627776, 0, 5037343335, ⟨[[(42981029871066, 0),
    (0, 55782069029), (322943414, 0), (26911, 0), (0, 719)], [(13512064628, 0), (34839230, 0), (0, 299901), (0, 411),
    (0, 1)], [(0, 8515135), (0, 56780), (314, 0), (1, 0)], [(7415, 0), (78, 0)]], 3, 4⟩, 68719476736, 7967366,
    3997981109047725557903201700218399680518828611121181584134086666577391733823294221052683600624, lc0⟩))
theorem c29 : checkC job ⟨6, 8, 8, 10, 9, 13⟩ 1 25 lims t29 784 48 64 45 3 128 = true := by decide +kernel

def t30 : CTree :=
  .sx (.sy (.sx (.leaf ⟨1573, 16, 41, 309, 16, 901, ⟨[[(412316860416, 0)], [(352187318272, 0)]], 3, 4⟩,
    ⟨[[(470588723870, 0), (3401588432516, 0), (16348807222, 0), (301625398, 0), (4990558, 0)], [(129071661345, 0),
    (2507066425, 0), (48216303, 0), (1061508, 0), (24953, 0)], [(37063487, 0), (1887443, 0), (68075, 0), (2257, 0),
    (68, 0)], [(16584, 0), (1498, 0), (85, 0), (4, 0)]], 3, 4⟩, 1099511627776, 0, 132770496, ⟨[[(44505467299592, 0),
    (0, 33843208275), (80993634, 0), (7525, 0), (0, 27)], [(12337272723, 0), (21273451, 0), (0, 68388), (0, 40)],
    [(0, 6861550), (0, 30641), (64, 0)], [(5174, 0), (39, 0)]], 3, 4⟩, 68719476736, 854289,
    4740554370218573425078851561058437087610101965222099689010069664929377041722734468881959873710, lc0⟩) (.leaf
    ⟨1604, 16, 41, 299, 16, 838, ⟨[[(137438953472, 0)], [(352187318272, 0)]], 3, 4⟩, ⟨[[(0, 466588474161),
    (3405118510409, 0), (20173030748, 0), (398171114, 0), (7569106, 0)], [(127127059436, 0), (2712297281, 0),
    (59561180, 0), (1504535, 0), (39081, 0)], [(39484020, 0), (2237225, 0), (92127, 0), (3385, 0), (104, 0)],
    [(19642, 0), (1995, 0), (124, 0), (6, 0)]], 3, 4⟩, 1099511627776, 0, 197325592, ⟨[[(44479343512573, 0), (0,
    33587936650), (91489765, 0), (5938, 0), (0, 47)], [(12159137240, 0), (19192629, 0), (0, 76258), (0, 47)], [(0,
    6739842), (0, 27761), (70, 0)], [(4994, 0), (34, 0)]], 3, 4⟩, 68719476736, 970690,
    2151081474998249787526155438835006134149527404741547736998139982226916736806052329091488170912, lc0⟩)) (.leaf
    ⟨775, 16, 20, 204, 16, 549, ⟨[[], [(343597383680, 0)]], 3, 4⟩, ⟨[[(189863544592, 0), (2313916458385, 0),
    (16434605103, 0), (345713546, 0), (7089062, 0)], [(184343399956, 0), (4312239858, 0), (107023669, 0), (2953023,
    0), (78315, 0)], [(136568076, 0), (8546999, 0), (384770, 0), (14472, 0), (442, 0)], [(167984, 0), (18223, 0),
    (1141, 0), (49, 0), (2, 0)]], 3, 4⟩, 1099511627776, 0, 4753102919, ⟨[[(43886770090767, 0), (0, 48217103854),
    (216384048, 0), (14605, 0), (0, 313)], [(25839571466, 0), (56626468, 0), (0, 383849), (0, 387), (0, 1)], [(0,
    30794557), (0, 176432), (759, 0), (2, 0)], [(49494, 0), (458, 0), (0, 2)]], 3, 4⟩, 68719476736, 14670062,
    3273000872964217323240165166201005947456974130510274267047854284097726654965169093137562303141, lc0⟩)) (.sy
    (.leaf ⟨805, 16, 20, 199, 16, 529, ⟨[[], [(343597383680, 0)]], 3, 4⟩, ⟨[[(547501082831, 0), (2429722767908, 0),
    (19630896111, 0), (444613107, 0), (10063511, 0)], [(176630872397, 0), (4428397356, 0), (120858925, 0), (3665608,
    0), (103617, 0)], [(126152930, 0), (8567174, 0), (420700, 0), (16801, 0), (526, 0)], [(150423, 0), (17638, 0),
    (1160, 0), (51, 0), (2, 0)]], 3, 4⟩, 1099511627776, 0, 4143786071, ⟨[[(44519042595474, 0), (0, 47353423509),
    (221363510, 0), (792, 0), (0, 418)], [(24232135403, 0), (47138152, 0), (0, 371338), (0, 354), (0, 1)], [(0,
    27188649), (0, 143157), (685, 0), (1, 0)], [(39904, 0), (340, 0), (0, 1)]], 3, 4⟩, 68719476736, 12113890,
    2389595273689145010778356234201223490422066552733330977552822746309679116790255148900147656279, lc0⟩) (.leaf
    ⟨805, 16, 20, 180, 16, 447, ⟨[[], [(343597383680, 0)]], 3, 4⟩, ⟨[[(446394026966, 0), (2301490277848, 0),
    (25684893314, 0), (670500457, 0), (17678379, 0)], [(176182297264, 0), (5395376581, 0), (183267037, 0), (6468202,
    0), (235825, 0)], [(166634149, 0), (13571404, 0), (765532, 0), (37651, 0), (2197, 0)], [(264709, 0), (34111, 0),
    (2665, 0), (208, 0), (20, 0)]], 3, 4⟩, 1099511627776, 0, 15093324522, ⟨[[(43898638070036, 0), (0, 48699901467),
    (309286144, 0), (0, 46230), (0, 1215)], [(24819013927, 0), (43202998, 0), (0, 542610), (0, 688), (0, 3)], [(0,
    29057665), (0, 145813), (1034, 0), (2, 0)], [(44380, 0), (352, 0), (0, 2)]], 3, 4⟩, 68719476736, 22751721,
    3106647172754707897335898380657574770353767533752900823789137886349657827913771575118592377595, lc0⟩))
theorem c30 : checkC job ⟨6, 8, 8, 10, 9, 13⟩ 1 25 lims t30 464 48 32 87 3 256 = true := by decide +kernel

end PyX.Kron.T2c
