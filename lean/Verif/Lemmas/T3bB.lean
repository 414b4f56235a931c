import Verif.Lemmas.T3bJob

/-!
# The temperature from pressure and enthalpy in subregion 3b, part B of the certificate
-/

namespace PyX.Kron.T3b

set_option Elab.async false

def t36 : CTree :=
  .sy (.out ⟨86, 16, 67, 452, 16, 393, ⟨[[(20501557849075712, 0), (0, 2017803162445574), (103740636139, 0)],
    [(24397366777821248, 0), (0, 5317596808276), (0, 682479414)], [(70446103319588, 0), (6677570473, 0), (0,
    8391259)]], 2, 2⟩, ⟨[[(19895097603948544, 0), (0, 3269594475942380), (241178419943, 0)], [(0, 10943805835979176),
    (0, 2042981081824), (548055676, 0)], [(34365544476762, 0), (0, 5588717017), (145971, 0)]], 2, 2⟩,
    72057594037927936, 1711709661741096, 963326142682020, ⟨[], 0, 0⟩, 0, 0, 0, lc0⟩ 0 90 26) (.sy (.sy (.out ⟨132,
    16, 114, 1052, 16, 943, ⟨[[(8529100069337088, 0), (0, 828323307363770), (12758349584, 0)], [(38576902821836550,
    0), (0, 2401686524775), (0, 39834522)], [(122124290027478, 0), (841140481, 0), (0, 704026)]], 2, 2⟩, ⟨[[(0,
    11882697195585536), (0, 1875351874506078), (32402409867, 0)], [(0, 27670111062594670), (0, 1024517889898),
    (77036659, 0)], [(78317913880153, 0), (0, 3225697737), (75488, 0)]], 2, 2⟩, 72057594037927936, 2079363922009467,
    1154514660839709, ⟨[], 0, 0⟩, 0, 0, 0, lc0⟩ 0 228 36) (.out ⟨131, 16, 118, 1038, 16, 942, ⟨[[(0,
    12407653805944832), (0, 843855553649915), (13732207664, 0)], [(38673141842166827, 0), (0, 2521396657907), (0,
    29543196)], [(126668920879268, 0), (175584315, 0), (0, 656399)]], 2, 2⟩, ⟨[[(0, 15840641098874880), (0,
    1841572519486198), (30972484302, 0)], [(0, 28135419147156894), (0, 947880859920), (73416944, 0)],
    [(76637633200849, 0), (0, 3138644166), (90587, 0)]], 2, 2⟩, 72057594037927936, 2267213925749777,
    1135511906028095, ⟨[], 0, 0⟩, 0, 0, 0, lc0⟩ 2 1 75487090595987)) (.out ⟨105, 16, 101, 716, 16, 662, ⟨[[(0,
    34165916697673728), (0, 1408344554778182), (49063221668, 0)], [(31464778251940681, 0), (0, 4371899344638), (0,
    47908876)], [(108231499811630, 0), (0, 1257835386), (0, 1895797)]], 2, 2⟩, ⟨[[(0, 3321749037219840), (0,
    2524895082756434), (81611847935, 0)], [(0, 20245623835929240), (0, 1183613278628), (187774014, 0)],
    [(52235450628144, 0), (0, 4201395194), (299290, 0)]], 2, 2⟩, 72057594037927936, 2167147444441253,
    855427017281669, ⟨[], 0, 0⟩, 0, 0, 0, lc0⟩ 2 1 101675661512214))
theorem c36 : checkR job con0 false ⟨7, 9, 7, 9, 13, 17⟩ 1 34400 t36 579 21 320 6745 251 8000 = true := by decide +kernel

def t37 : CTree :=
  .sx (.sx (.sy (.out ⟨87, 16, 57, 462, 16, 406, ⟨[[(4308817306046464, 0), (0, 1891058414283022), (49102804846, 0)],
    [(26239652527443919, 0), (0, 3633491564067), (0, 1339221468)], [(70319471401203, 0), (16287933874, 0), (0,
    11091825)]], 2, 2⟩, ⟨[[(0, 30724379397971968), (0, 3476846128039031), (272862759795, 0)], [(0, 8022101399870827),
    (0, 2613167449505), (553820139, 0)], [(42962328262528, 0), (0, 6115621011), (0, 481866)]], 2, 2⟩,
    72057594037927936, 1748601908174810, 1136648549770488, ⟨[], 0, 0⟩, 0, 0, 0, lc0⟩ 0 17 9) (.out ⟨78, 16, 60, 458,
    16, 424, ⟨[[(790324548903936, 0), (0, 1915432542272122), (94584294948, 0)], [(25404301234574872, 0), (0,
    4895673930108), (0, 753310600)], [(79973362978488, 0), (7123961087, 0), (0, 8372796)]], 2, 2⟩, ⟨[[(0,
    22608207659458560), (0, 3367195599491632), (240926904958, 0)], [(0, 9600553678139106), (0, 2145470258063),
    (562177271, 0)], [(41619323338021, 0), (0, 6399772041), (409164, 0)]], 2, 2⟩, 72057594037927936,
    1910146706849680, 1129278625633324, ⟨[], 0, 0⟩, 0, 0, 0, lc0⟩ 0 120 36)) (.out ⟨60, 16, 35, 248, 16, 226, ⟨[[(0,
    25400203605318144), (0, 2469665840302772), (25755913679, 0)], [(19600569776131215, 0), (0, 3393236110982), (0,
    4867517750)], [(51867412027476, 0), (29935909258, 0), (0, 34133747)]], 2, 2⟩, ⟨[[(8762352620175360, 0), (0,
    3845722519365825), (611746346077, 0)], [(0, 2673504817286875), (0, 3191178200742), (1194483959, 0)],
    [(27933560218693, 0), (0, 7140818771), (0, 1394974)]], 2, 2⟩, 72057594037927936, 6193846187098675,
    2740887171260749, ⟨[], 0, 0⟩, 0, 0, 0, lc0⟩ 0 16 11)) (.out ⟨43, 16, 19, 220, 16, 201, ⟨[[(20578521895533056, 0),
    (0, 1368924782952114), (0, 239262316102)], [(28652484222629547, 0), (2708104740475, 0), (0, 11225161554)],
    [(115724041807567, 0), (142767391507, 0), (0, 114982241)]], 2, 2⟩, ⟨[[(6219210080643072, 0), (0,
    3623736094267824), (603486139483, 0)], [(2328644222778708, 0), (0, 7207674330159), (1569934391, 0)],
    [(124168041737526, 0), (0, 22392594127), (0, 12243890)]], 2, 2⟩, 72057594037927936, 12191481261459679,
    4954867043451756, ⟨[], 0, 0⟩, 0, 0, 0, lc0⟩ 0 10 13)
theorem c37 : checkR job con0 false ⟨7, 9, 7, 9, 13, 17⟩ 1 34400 t37 171 21 80 6745 251 8000 = true := by decide +kernel

def t38 : CTree :=
  .sy (.out ⟨89, 16, 334, 847, 16, 1165, ⟨[[(15003220044390400, 0), (0, 1110384308633777), (50719931823, 0)],
    [(33290198098759948, 0), (0, 11059023862221), (574650157, 0)], [(0, 120219444698996), (0, 4956516885), (1585957,
    0)]], 2, 2⟩, ⟨[[(0, 9873251296821248), (0, 4284414020840282), (300808398571, 0)]], 2, 2⟩, 72057594037927936,
    4368835694829005, 339962743707373, ⟨[], 0, 0⟩, 0, 0, 0, lc0⟩ 1 1 1160112657318) (.sy (.out ⟨110, 16, 440, 1755,
    16, 2478, ⟨[[(424720952008704, 0), (0, 706912059437814), (15776744957, 0)], [(38474194863109486, 0), (0,
    7013120822810), (169487086, 0)], [(0, 160564644961975), (0, 2600262745), (347414, 0)]], 2, 2⟩, ⟨[[(0,
    5718926769143808), (0, 4324886576483272), (147914996289, 0)]], 2, 2⟩, 72057594037927936, 5710502541555399,
    80689145982778, ⟨[], 0, 0⟩, 0, 0, 0, lc0⟩ 1 1 768531241384) (.out ⟨113, 16, 473, 1785, 16, 2564,
    ⟨[[(1481140620855296, 0), (0, 743310654420724), (16107020368, 0)], [(37619391797972736, 0), (0, 7366374222694),
    (160527661, 0)], [(0, 173930254420544), (0, 2507184253), (190783, 0)]], 2, 2⟩, ⟨[[(12714098615844864, 0), (0,
    4325191468219536), (145428582368, 0)]], 2, 2⟩, 72057594037927936, 6277540252736044, 77982322031606, ⟨[], 0, 0⟩,
    0, 0, 0, lc0⟩ 1 1 560891466635))
theorem c38 : checkR job con0 false ⟨7, 9, 7, 9, 13, 17⟩ 1 34400 t38 117 21 320 7247 251 8000 = true := by decide +kernel

def t39 : CTree :=
  .sx (.out ⟨161, 16, 527, 847, 16, 1165, ⟨[[(27198101109725184, 0), (0, 2308145874684069), (111193025632, 0)],
    [(21198364873127439, 0), (0, 8914182141964), (538221127, 0)], [(0, 33555734654237), (0, 1182211849), (730724,
    0)]], 2, 2⟩, ⟨[[(0, 9873251296821248), (0, 4284414020840282), (300808398571, 0)]], 2, 2⟩, 72057594037927936,
    764521184716694, 339962743707373, ⟨[], 0, 0⟩, 0, 0, 0, lc0⟩ 1 1 769754853002) (.sy (.out ⟨244, 16, 725, 1694, 16,
    2310, ⟨[[(31535925592371200, 0), (0, 1870154816261537), (47549004652, 0)], [(27298968952266990, 0), (0,
    6300396323090), (214022834, 0)], [(0, 35630104001164), (0, 855062778), (284640, 0)]], 2, 2⟩,
    ⟨[[(8284824107565056, 0), (0, 4323493859548698), (153125335915, 0)]], 2, 2⟩, 72057594037927936, 752940847729486,
    86528350918520, ⟨[], 0, 0⟩, 0, 0, 0, lc0⟩ 1 1 661557034815) (.out ⟨249, 16, 780, 1724, 16, 2393,
    ⟨[[(10110746671632384, 0), (0, 1961836059125990), (48780895741, 0)], [(26024043419078040, 0), (0, 6554277077152),
    (215722599, 0)], [(0, 38717950390219), (0, 613438992), (306269, 0)]], 2, 2⟩, ⟨[[(23658862400241664, 0), (0,
    4323727284817065), (150458547685, 0)]], 2, 2⟩, 72057594037927936, 816308169818862, 83523091347558, ⟨[], 0, 0⟩, 0,
    0, 0, lc0⟩ 1 1 428926914397))
theorem c39 : checkR job con0 false ⟨7, 9, 7, 9, 13, 17⟩ 1 34400 t39 159 21 320 14243 251 16000 = true := by decide +kernel

def t40 : CTree :=
  .sy (.out ⟨236, 16, 830, 1755, 16, 2478, ⟨[[(0, 35700657375113216), (0, 1753967068294635), (40580951633, 0)],
    [(28216257156170472, 0), (0, 6719035970451), (185587382, 0)], [(0, 53392839565199), (0, 522388375), (255650,
    0)]], 2, 2⟩, ⟨[[(0, 5718926769143808), (0, 4324886576483272), (147914996289, 0)]], 2, 2⟩, 72057594037927936,
    1033647792073989, 80689145982778, ⟨[], 0, 0⟩, 0, 0, 0, lc0⟩ 1 1 425157747408) (.sy (.out ⟨310, 16, 1138, 3571,
    16, 5107, ⟨[[(31635092782325760, 0), (0, 1181995214948864), (13184218291, 0)], [(35253363836994731, 0), (0,
    4514932591722), (57304514, 0)], [(0, 73426982094229), (0, 229765152), (82952, 0)]], 2, 2⟩, ⟨[[(0,
    14437543288897536), (0, 4344063594505441), (73341047669, 0)]], 2, 2⟩, 72057594037927936, 1377154415481710,
    19663621528788, ⟨[], 0, 0⟩, 0, 0, 0, lc0⟩ 1 1 303859671132) (.out ⟨317, 16, 1194, 3601, 16, 5194,
    ⟨[[(8890710866448384, 0), (0, 1226575604224137), (13209802937, 0)], [(34624835833860456, 0), (0, 4679405328261),
    (54661607, 0)], [(0, 77139588220456), (0, 155119928), (84261, 0)]], 2, 2⟩, ⟨[[(7878451358138368, 0), (0,
    4344119240318361), (72725616331, 0)]], 2, 2⟩, 72057594037927936, 1458622684901173, 19334057805178, ⟨[], 0, 0⟩, 0,
    0, 0, lc0⟩ 1 1 223266986921))
theorem c40 : checkR job con0 false ⟨7, 9, 7, 9, 13, 17⟩ 1 34400 t40 297 21 640 14745 251 16000 = true := by decide +kernel

def t41 : CTree :=
  .sy (.out ⟨339, 16, 1106, 3510, 16, 4935, ⟨[[(0, 9537957144879104), (0, 1365386460757737), (16558416695, 0)],
    [(33444238194050213, 0), (0, 4535000359493), (71889590, 0)], [(0, 55165525376215), (0, 269312886), (111935, 0)]],
    2, 2⟩, ⟨[[(2512975642853376, 0), (0, 4343769523567587), (74600606653, 0)]], 2, 2⟩, 72057594037927936,
    1112233205563476, 20347697660487, ⟨[], 0, 0⟩, 0, 0, 0, lc0⟩ 1 1 287721795080) (.sy (.out ⟨416, 16, 1387, 7080,
    16, 10019, ⟨[[(4116359412641792, 0), (0, 848423887344152), (5059117379, 0)], [(39812769046899962, 0), (0,
    2810267793889), (21715002, 0)], [(0, 69288448827979), (0, 115317600), (36081, 0)]], 2, 2⟩, ⟨[[(19093797377474560,
    0), (0, 4352870217528879), (37138312708, 0)]], 2, 2⟩, 72057594037927936, 1384011256525133, 5021353879268, ⟨[], 0,
    0⟩, 0, 0, 0, lc0⟩ 1 1 225936029997) (.out ⟨422, 16, 1427, 7111, 16, 10105, ⟨[[(0, 515339589349376), (0,
    867715149028718), (5105723391, 0)], [(39515078135233908, 0), (0, 2869188269193), (21726146, 0)], [(0,
    71336807090299), (0, 80942642), (38009, 0)]], 2, 2⟩, ⟨[[(0, 29903610746306560), (0, 4352867219948851),
    (36979901451, 0)]], 2, 2⟩, 72057594037927936, 1426715830071510, 4978566532591, ⟨[], 0, 0⟩, 0, 0, 0, lc0⟩ 1 1
    188294168779))
theorem c41 : checkR job con0 false ⟨7, 9, 7, 9, 13, 17⟩ 1 34400 t41 339 21 640 29239 251 32000 = true := by decide +kernel

def t42 : CTree :=
  .sy (.out ⟨525, 16, 1838, 3571, 16, 5107, ⟨[[(0, 18095658946936832), (0, 2139034600104132), (24359343644, 0)],
    [(25062255849734263, 0), (0, 3653470435265), (51311357, 0)], [(0, 24541307621968), (0, 29411260), (46614, 0)]],
    2, 2⟩, ⟨[[(0, 14437543288897536), (0, 4344063594505441), (73341047669, 0)]], 2, 2⟩, 72057594037927936,
    252372244488531, 19663621528788, ⟨[], 0, 0⟩, 0, 0, 0, lc0⟩ 1 1 171571384980) (.sy (.out ⟨717, 16, 2565, 7202, 16,
    10366, ⟨[[(0, 16121905744723968), (0, 1479984508039891), (8185495189, 0)], [(33065696170781324, 0), (0,
    2523096109506), (16849107, 0)], [(0, 34254458841542), (4443319, 0), (16923, 0)]], 2, 2⟩, ⟨[[(7013493797879808,
    0), (0, 4353192180136349), (36515473557, 0)]], 2, 2⟩, 72057594037927936, 336257600982647, 4853807516421, ⟨[], 0,
    0⟩, 0, 0, 0, lc0⟩ 1 1 119329187475) (.sy (.out ⟨881, 16, 3186, 14465, 16, 20885, ⟨[[(0, 19718085518712832), (0,
    915360222548793), (2488205229, 0)], [(39894076017816363, 0), (0, 1559229446522), (5052943, 0)], [(0,
    42542563133963), (10765863, 0), (5380, 0)]], 2, 2⟩, ⟨[[(0, 13407894860857344), (0, 4357749881320022),
    (18219312749, 0)]], 2, 2⟩, 72057594037927936, 414794474178398, 1205809997172, ⟨[], 0, 0⟩, 0, 0, 0, lc0⟩ 1 1
    95861839307) (.out ⟨888, 16, 3237, 14495, 16, 20973, ⟨[[(25532596319338496, 0), (0, 927493862424857),
    (2489642975, 0)], [(39738702064395118, 0), (0, 1579098225015), (5005990, 0)], [(0, 43216688346519), (16473049,
    0), (5561, 0)]], 2, 2⟩, ⟨[[(24439619809050624, 0), (0, 4357799884012659), (18181362555, 0)]], 2, 2⟩,
    72057594037927936, 422255317684400, 1200775393962, ⟨[], 0, 0⟩, 0, 0, 0, lc0⟩ 1 1 81909213727)))
theorem c42 : checkR job con0 false ⟨7, 9, 7, 9, 13, 17⟩ 1 34400 t42 657 21 1280 29741 251 32000 = true := by decide +kernel

def t43 : CTree :=
  .sy (.out ⟨739, 16, 2504, 7141, 16, 10192, ⟨[[(32907679429697536, 0), (0, 1566179280828834), (9166686943, 0)],
    [(32138214006975451, 0), (0, 2499093036806), (19232180, 0)], [(0, 29278088512861), (0, 11236964), (18584, 0)]],
    2, 2⟩, ⟨[[(25089982316740608, 0), (0, 4353134386877365), (36825121071, 0)]], 2, 2⟩, 72057594037927936,
    299003740444157, 4936630131220, ⟨[], 0, 0⟩, 0, 0, 0, lc0⟩ 1 1 113310164283) (.sy (.out ⟨920, 16, 3149, 14344, 16,
    20536, ⟨[[(0, 24274702418911232), (0, 980501546302849), (2831280918, 0)], [(39236755033478839, 0), (0,
    1562412598186), (5906965, 0)], [(0, 36821744224050), (1862427, 0), (6017, 0)]], 2, 2⟩, ⟨[[(0, 34864501853257728),
    (0, 4357791775601076), (18373739962, 0)]], 2, 2⟩, 72057594037927936, 373028813225264, 1226336665700, ⟨[], 0, 0⟩,
    0, 0, 0, lc0⟩ 1 1 86917029483) (.out ⟨927, 16, 3199, 14374, 16, 20623, ⟨[[(24235165387915264, 0), (0,
    993200293923644), (2840065793, 0)], [(39064477651440542, 0), (0, 1581245265285), (5901841, 0)], [(0,
    37403900930165), (8094056, 0), (6243, 0)]], 2, 2⟩, ⟨[[(0, 10196106050797568), (0, 4357786662550963),
    (18334911088, 0)]], 2, 2⟩, 72057594037927936, 379378830118599, 1221157609504, ⟨[], 0, 0⟩, 0, 0, 0, lc0⟩ 1 1
    72623352980))
theorem c43 : checkR job con0 false ⟨7, 9, 7, 9, 13, 17⟩ 1 34400 t43 699 21 1280 59231 251 64000 = true := by decide +kernel

def t44 : CTree :=
  .sx (.sy (.sy (.out ⟨1510, 16, 5281, 14404, 16, 20710, ⟨[[(11880917244968960, 0), (0, 1607617623798656),
    (4526776910, 0)], [(32249756529701858, 0), (0, 1300557747652), (4678541, 0)], [(0, 15965680354332), (4693366, 0),
    (2517, 0)]], 2, 2⟩, ⟨[[(5255936497025024, 0), (0, 4357742875983235), (18296083517, 0)]], 2, 2⟩,
    72057594037927936, 80277889613663, 1216000510789, ⟨[], 0, 0⟩, 0, 0, 0, lc0⟩ 1 1 73789391329) (.out ⟨1519, 16,
    5353, 14435, 16, 20798, ⟨[[(30099125215674368, 0), (0, 1624960600262830), (4524448362, 0)], [(32028848909647768,
    0), (0, 1313573695918), (4650647, 0)], [(0, 16180317180709), (7346650, 0), (2607, 0)]], 2, 2⟩, ⟨[[(0,
    10496234455957504), (0, 4357870436704362), (18258137165, 0)]], 2, 2⟩, 72057594037927936, 81514350449221,
    1210923603210, ⟨[], 0, 0⟩, 0, 0, 0, lc0⟩ 1 1 59244751462)) (.sx (.sy (.out ⟨2219, 16, 7901, 14465, 16, 20885,
    ⟨[[(13183015851720704, 0), (0, 2371490143576926), (6509119660, 0)], [(23404237039756212, 0), (0, 966151708422),
    (3320993, 0)], [(0, 6070184697262), (3384312, 0), (959, 0)]], 2, 2⟩, ⟨[[(0, 13407894860857344), (0,
    4357749881320022), (18219312749, 0)]], 2, 2⟩, 72057594037927936, 16124377976997, 1205809997172, ⟨[], 0, 0⟩, 0, 0,
    0, lc0⟩ 1 1 52579436776) (.sy (.out ⟨3073, 16, 11004, 28991, 16, 41925, ⟨[[(35622327181639680, 0), (0,
    1648035401638794), (2239957780, 0)], [(32089938453637870, 0), (0, 671069723535), (1137044, 0)], [(0,
    8452194229722), (2863949, 0), (340, 0)]], 2, 2⟩, ⟨[[(24810622012096512, 0), (0, 4360183001249337), (9100417644,
    0)]], 2, 2⟩, 72057594037927936, 21155386304948, 300515385147, ⟨[], 0, 0⟩, 0, 0, 0, lc0⟩ 1 1 41528341287) (.out
    ⟨3083, 16, 11081, 29022, 16, 42013, ⟨[[(32227157324103680, 0), (0, 1657311920914289), (2237397685, 0)],
    [(31975539521801265, 0), (0, 674622561654), (1131732, 0)], [(0, 8509803782077), (3229434, 0), (346, 0)]], 2, 2⟩,
    ⟨[[(0, 15205202960580608), (0, 4360193338001847), (9090914155, 0)]], 2, 2⟩, 72057594037927936, 21325697349729,
    299887214001, ⟨[], 0, 0⟩, 0, 0, 0, lc0⟩ 1 1 34730669715))) (.sy (.sy (.out ⟨3094, 16, 10928, 28930, 16, 41749,
    ⟨[[(0, 9751014630064128), (0, 1669237562243558), (2308351437, 0)], [(31845002075262574, 0), (0, 668528221914),
    (1183000, 0)], [(0, 8117845864180), (2576116, 0), (347, 0)]], 2, 2⟩, ⟨[[(18964500753678336, 0), (0,
    4360133357075199), (9119423898, 0)]], 2, 2⟩, 72057594037927936, 20514216092943, 301775754083, ⟨[], 0, 0⟩, 0, 0,
    0, lc0⟩ 1 1 38364553356) (.out ⟨3104, 16, 11004, 28961, 16, 41837, ⟨[[(0, 23091133254762496), (0,
    1678521681813051), (2306564845, 0)], [(31728835729912747, 0), (0, 671987748790), (1178906, 0)], [(0,
    8172911779333), (2946730, 0), (353, 0)]], 2, 2⟩, ⟨[[(0, 11833040986177536), (0, 4360163027831115), (9109920934,
    0)]], 2, 2⟩, 72057594037927936, 20676153020518, 301144925025, ⟨[], 0, 0⟩, 0, 0, 0, lc0⟩ 1 1 31294425827)) (.sy
    (.out ⟨3114, 16, 11082, 28991, 16, 41925, ⟨[[(0, 6413312973045760), (0, 1688096581548336), (2304543920, 0)],
    [(31614309360970563, 0), (0, 675565340736), (1174608, 0)], [(0, 8229264279550), (3327178, 0), (360, 0)]], 2, 2⟩,
    ⟨[[(24810622012096512, 0), (0, 4360183001249337), (9100417644, 0)]], 2, 2⟩, 72057594037927936, 20842891469504,
    300515385147, ⟨[], 0, 0⟩, 0, 0, 0, lc0⟩ 1 1 24187105723) (.leaf ⟨6579, 16, 11383, 1767, 16, 8138, ⟨[[(0,
    32361594311278592), (0, 1731580290501517), (2347842135, 0), (0, 12957)], [(32124948615027846, 0), (0,
    692709776961), (1193253, 0), (0, 9)], [(0, 8450971384911), (3791513, 0), (375, 0)], [(2281793392, 0), (3605,
    0)]], 3, 4⟩, ⟨[[(6596130760310784, 0), (0, 1168859033943194), (214411677, 0), (0, 17420)], [(0,
    39085670712694924), (0, 73900343660), (0, 560752), (0, 18)], [(4937252789706, 0), (20837709, 0), (14, 0)], [(0,
    611612816), (233, 0)]], 3, 4⟩, 72057594037927936, 60333978209, 16576121403, ⟨[[(14131169009009, 0), (660694690,
    0), (402100, 0), (355, 0), (1, 0)], [(788923581, 0), (64808, 0), (0, 144)], [(0, 121980), (11, 0)], [(19, 0)]],
    3, 4⟩, 17592186044416, 55896,
    4587158823048528251893562686041133850541013676438263432386513439586420703248113068684547150483945425219271341959833311787965050,
    lc0⟩))))) (.sy (.sx (.sy (.out ⟨2232, 16, 7735, 14404, 16, 20710, ⟨[[(17862705899405312, 0), (0,
    2414649787897900), (6849901171, 0)], [(22899624992997138, 0), (0, 952193294915), (3546491, 0)], [(0,
    5556030923091), (2392261, 0), (986, 0)]], 2, 2⟩, ⟨[[(5255936497025024, 0), (0, 4357742875983235), (18296083517,
    0)]], 2, 2⟩, 72057594037927936, 15073044136001, 1216000510789, ⟨[], 0, 0⟩, 0, 0, 0, lc0⟩ 1 1 47511337539) (.sy
    (.out ⟨3113, 16, 10847, 28870, 16, 41574, ⟨[[(0, 23920656712663040), (0, 1689466739397778), (2376180726, 0)],
    [(31610730874986466, 0), (0, 665783206441), (1226730, 0)], [(0, 7789912416582), (2202645, 0), (352, 0)]], 2, 2⟩,
    ⟨[[(0, 27425166415101952), (0, 4360149555781703), (9138648146, 0)]], 2, 2⟩, 72057594037927936, 19888802197437,
    303048599297, ⟨[], 0, 0⟩, 0, 0, 0, lc0⟩ 1 1 36099716522) (.out ⟨3123, 16, 10923, 28900, 16, 41662, ⟨[[(0,
    26441985345486848), (0, 1698910383145620), (2375397790, 0)], [(31495958335051520, 0), (0, 669213491969),
    (1223912, 0)], [(0, 7843289633980), (2576122, 0), (359, 0)]], 2, 2⟩, ⟨[[(23058801836163072, 0), (0,
    4360198584414481), (9129145531, 0)]], 2, 2⟩, 72057594037927936, 20044495568504, 302415372577, ⟨[], 0, 0⟩, 0, 0,
    0, lc0⟩ 1 1 28416895455))) (.sy (.sy (.out ⟨3130, 16, 10761, 28809, 16, 41399, ⟨[[(0, 10473624023826432), (0,
    1708680999392277), (2443230524, 0)], [(31386199292433164, 0), (0, 662833915133), (1268114, 0)], [(0,
    7468298463446), (1751018, 0), (355, 0)]], 2, 2⟩, ⟨[[(0, 20187234024816640), (0, 4360127113032661), (9157872312,
    0)]], 2, 2⟩, 72057594037927936, 19279169074703, 304326864398, ⟨[], 0, 0⟩, 0, 0, 0, lc0⟩ 1 1 33908628055) (.out
    ⟨3140, 16, 10836, 28840, 16, 41487, ⟨[[(0, 22311811041099776), (0, 1718128251749324), (2443250099, 0)],
    [(31270208141800271, 0), (0, 666176827838), (1266408, 0)], [(0, 7519373911663), (2124779, 0), (362, 0)]], 2, 2⟩,
    ⟨[[(0, 32478670764900352), (0, 4360195744065003), (9148370560, 0)]], 2, 2⟩, 72057594037927936, 19427053008439,
    303690773686, ⟨[], 0, 0⟩, 0, 0, 0, lc0⟩ 1 1 26539538344)) (.leaf ⟨4673, 16, 7973, 1410, 16, 6522, ⟨[[(0,
    6894958259142656), (0, 2522970862482609), (7113713897, 0), (0, 69416), (0, 2)], [(22639679333956434, 0), (0,
    977541222664), (3679616, 0), (0, 43)], [(0, 5531336553264), (3937696, 0), (1087, 0)], [(1523860211, 0), (3260,
    0)]], 3, 4⟩, ⟨[[(0, 29468184485527552), (0, 1884876641417055), (920130529, 0), (0, 105249), (0, 3)], [(0,
    30544400417015144), (0, 109226401407), (0, 1418363), (0, 100)], [(3798240402833, 0), (33201625, 0), (117, 0)],
    [(0, 469917528), (0, 442)]], 3, 4⟩, 72057594037927936, 41970032687, 13281120008, ⟨[[(14198132736650, 0),
    (824663636, 0), (594044, 0), (616, 0), (1, 0)], [(1094023471, 0), (122671, 0), (0, 298), (0, 1)], [(0, 238442),
    (25, 0)], [(52, 0)]], 3, 4⟩, 17592186044416, 52832,
    4342684161129721370216092807839665952307096391163089382532660927684926108215337716519403535596441848753718751786902319528314850,
    lc0⟩))) (.leaf ⟨2341, 16, 4023, 695, 16, 3241, ⟨[[(23844604927344640, 0), (0, 2514778485947752), (13879825326,
    0), (0, 295412), (0, 13)], [(22342561462729999, 0), (0, 1962412981911), (14262643, 0), (0, 372)], [(0,
    11351909752267), (21636019, 0), (8939, 0)], [(6231353266, 0), (32807, 0), (6, 0)]], 3, 4⟩, ⟨[[(9756772651360256,
    0), (0, 1869780424243040), (1402471377, 0), (0, 450842), (0, 28)], [(0, 30599869207122066), (0, 224495721742),
    (0, 6600262), (0, 870)], [(7658893138721, 0), (132733686, 0), (940, 0)], [(0, 1888031134), (1241, 0), (7, 0)]],
    3, 4⟩, 72057594037927936, 332522838169, 101203596304, ⟨[[(14151941555693, 0), (1624014848, 0), (2361554, 0),
    (4766, 0), (18, 0)], [(2197369474, 0), (509020, 0), (0, 2265), (0, 9)], [(0, 958346), (193, 0), (1, 0)], [(415,
    0)]], 3, 4⟩, 17592186044416, 187577,
    5119536577706741179507755939332281095869790095817035982387768648635702326809353167565070728863901038516346651252710198963151367,
    lc0⟩))
theorem c44 : checkR job con0 false ⟨7, 9, 7, 9, 13, 17⟩ 1 34400 t44 699 21 1280 59733 251 64000 = true := by decide +kernel

def t45 : CTree :=
  .sy (.sy (.out ⟨186, 16, 859, 1816, 16, 2652, ⟨[[(32865922437918720, 0), (0, 1184416065241120), (24638421640, 0)],
    [(34374978903338490, 0), (0, 6500732287151), (118852283, 0)], [(0, 89132473692465), (0, 1543005208), (0,
    65802)]], 2, 2⟩, ⟨[[(0, 14612745410838528), (0, 4326355785717895), (143053129178, 0)]], 2, 2⟩, 72057594037927936,
    1590655637777709, 75424614527826, ⟨[], 0, 0⟩, 0, 0, 0, lc0⟩ 1 1 510246629781) (.out ⟨191, 16, 921, 1846, 16,
    2741, ⟨[[(11296599682056192, 0), (0, 1244528750472032), (23979759819, 0)], [(33386372666193908, 0), (0,
    6859895800488), (89236431, 0)], [(0, 96429246439182), (0, 1818795440), (0, 268651)]], 2, 2⟩,
    ⟨[[(6596045987823616, 0), (0, 4326717015449758), (140729127190, 0)]], 2, 2⟩, 72057594037927936, 1759722540244187,
    72977799301236, ⟨[], 0, 0⟩, 0, 0, 0, lc0⟩ 1 1 356441254161)) (.sx (.sy (.out ⟨297, 16, 1536, 1876, 16, 2831,
    ⟨[[(0, 4218049991950336), (0, 1919599129193637), (33409530151, 0)], [(26740290673158327, 0), (0, 5626295904582),
    (37163590, 0)], [(0, 43044634494650), (0, 1046795608), (0, 239953)]], 2, 2⟩, ⟨[[(5416557836566528, 0), (0,
    4326350144749555), (138456496456, 0)]], 2, 2⟩, 72057594037927936, 458609715623345, 70636447665655, ⟨[], 0, 0⟩, 0,
    0, 0, lc0⟩ 1 1 286101375385) (.out ⟨302, 16, 1637, 1907, 16, 2924, ⟨[[(23837527550484480, 0), (0,
    2013668022752374), (27999170179, 0)], [(25493464154432296, 0), (0, 5987356177859), (0, 25907654)], [(0,
    46513741968541), (0, 1459920253), (0, 440950)]], 2, 2⟩, ⟨[[(4846798629257216, 0), (0, 4328283682287878),
    (136328189306, 0)]], 2, 2⟩, 72057594037927936, 534498863587032, 68442182898917, ⟨[], 0, 0⟩, 0, 0, 0, lc0⟩ 1 1
    193605929548)) (.sy (.sy (.out ⟨427, 16, 2078, 3753, 16, 5640, ⟨[[(0, 33901285759959040), (0, 1465514904040573),
    (12360460165, 0)], [(32526405978380233, 0), (0, 3862746014302), (11120097, 0)], [(0, 51700731714281), (0,
    509386501), (0, 60843)]], 2, 2⟩, ⟨[[(0, 25708456558723072), (0, 4344367109036917), (69796878509, 0)]], 2, 2⟩,
    72057594037927936, 473849224107053, 17804161175270, ⟨[], 0, 0⟩, 0, 0, 0, lc0⟩ 1 1 216357582115) (.out ⟨434, 16,
    2164, 3783, 16, 5732, ⟨[[(0, 29329547643768832), (0, 1513956956512764), (11405205126, 0)], [(31855229092548370,
    0), (0, 4016334640581), (576575, 0)], [(0, 54124531965050), (0, 605328523), (0, 86431)]], 2, 2⟩,
    ⟨[[(24735132040593408, 0), (0, 4344865939557288), (69246409109, 0)]], 2, 2⟩, 72057594037927936, 503727460022647,
    17521855684621, ⟨[], 0, 0⟩, 0, 0, 0, lc0⟩ 1 1 165569426940)) (.sy (.out ⟨441, 16, 2257, 3814, 16, 5824,
    ⟨[[(19176250497167360, 0), (0, 1567970950320997), (10061462914, 0)], [(31120434748029513, 0), (0, 4195056985443),
    (0, 13206285)], [(0, 56792537617805), (0, 735798518), (0, 118758)]], 2, 2⟩, ⟨[[(0, 31995481227264000), (0,
    4344801621886095), (68695774059, 0)]], 2, 2⟩, 72057594037927936, 537410996682003, 17244007883179, ⟨[], 0, 0⟩, 0,
    0, 0, lc0⟩ 1 1 128895476063) (.sy (.out ⟨556, 16, 2898, 7688, 16, 11811, ⟨[[(6685397410643968, 0), (0,
    1002156960555173), (2714602512, 0)], [(37927680817626715, 0), (0, 2702487806728), (0, 8132344)], [(0,
    73300705897649), (0, 535695576), (0, 46129)]], 2, 2⟩, ⟨[[(5647844853350400, 0), (0, 4353614865642752),
    (34213890038, 0)]], 2, 2⟩, 72057594037927936, 664934857235496, 4260235227153, ⟨[], 0, 0⟩, 0, 0, 0, lc0⟩ 1 1
    99421575640) (.out ⟨564, 16, 2977, 7719, 16, 11905, ⟨[[(6432841623085056, 0), (0, 1026870623905472), (2395656560,
    0)], [(37565614849566714, 0), (0, 2786019041235), (0, 11333186)], [(0, 75587589719217), (0, 600895637), (0,
    53491)]], 2, 2⟩, ⟨[[(0, 13403302493618176), (0, 4353843592327707), (34081234235, 0)]], 2, 2⟩, 72057594037927936,
    689406475934674, 4227008422179, ⟨[], 0, 0⟩, 0, 0, 0, lc0⟩ 1 1 83604701507)))))
theorem c45 : checkR job con0 false ⟨7, 9, 7, 9, 13, 17⟩ 1 34400 t45 213 21 640 7749 251 8000 = true := by decide +kernel

def t46 : CTree :=
  .sx (.sy (.out ⟨321, 16, 1376, 1816, 16, 2652, ⟨[[(0, 7965452300775424), (0, 2227389778720423), (45386933052, 0)],
    [(23398135225710437, 0), (0, 5267939551740), (93296006, 0)], [(0, 30056481436920), (0, 362583371), (530, 0)]], 2,
    2⟩, ⟨[[(0, 14612745410838528), (0, 4326355785717895), (143053129178, 0)]], 2, 2⟩, 72057594037927936,
    327630085846989, 75424614527826, ⟨[], 0, 0⟩, 0, 0, 0, lc0⟩ 1 1 342706290825) (.sy (.out ⟨450, 16, 2000, 3692, 16,
    5459, ⟨[[(0, 27422228316295168), (0, 1594967615495377), (15011178851, 0)], [(31143643086703244, 0), (0,
    3784243829093), (24335635, 0)], [(0, 43887696595832), (0, 273954755), (0, 14674)]], 2, 2⟩, ⟨[[(0,
    17150909929422848), (0, 4343955425106558), (70934460476, 0)]], 2, 2⟩, 72057594037927936, 404664997636799,
    18392215341270, ⟨[], 0, 0⟩, 0, 0, 0, lc0⟩ 1 1 239479290952) (.out ⟨457, 16, 2083, 3723, 16, 5550, ⟨[[(0,
    17353867360841728), (0, 1646094888613594), (14332417826, 0)], [(30463289189997982, 0), (0, 3919941304769),
    (16913340, 0)], [(0, 45857139234214), (0, 306845183), (0, 27937)]], 2, 2⟩, ⟨[[(0, 15456768823328768), (0,
    4344843229529525), (70372090338, 0)]], 2, 2⟩, 72057594037927936, 430156471187318, 18097439118073, ⟨[], 0, 0⟩, 0,
    0, 0, lc0⟩ 1 1 182191457855))) (.sy (.sy (.out ⟨468, 16, 1905, 3632, 16, 5282, ⟨[[(5503952154804224, 0), (0,
    1704087110160133), (17570831265, 0)], [(30016986032641256, 0), (0, 3680427090470), (35516577, 0)], [(0,
    36948278152273), (0, 154353982), (13740, 0)]], 2, 2⟩, ⟨[[(0, 28724215771922432), (0, 4344392086494269),
    (72124048917, 0)]], 2, 2⟩, 72057594037927936, 342604336310208, 19013665147494, ⟨[], 0, 0⟩, 0, 0, 0, lc0⟩ 1 1
    284940367519) (.out ⟨475, 16, 1983, 3662, 16, 5370, ⟨[[(0, 3847736000593920), (0, 1756027925287484),
    (17199062037, 0)], [(29331635293279000, 0), (0, 3796956989019), (30894026, 0)], [(0, 38538659447284), (0,
    149242406), (8334, 0)]], 2, 2⟩, ⟨[[(0, 29589348778737664), (0, 4344062433411485), (71522505778, 0)]], 2, 2⟩,
    72057594037927936, 363196219924023, 18698597002131, ⟨[], 0, 0⟩, 0, 0, 0, lc0⟩ 1 1 216278283459)) (.sy (.out ⟨482,
    16, 2066, 3692, 16, 5459, ⟨[[(10183276406333440, 0), (0, 1812205199800342), (16544717108, 0)],
    [(28580979546692175, 0), (0, 3927287305955), (24531879, 0)], [(0, 40228171610446), (0, 150275162), (1535, 0)]],
    2, 2⟩, ⟨[[(0, 17150909929422848), (0, 4343955425106558), (70934460476, 0)]], 2, 2⟩, 72057594037927936,
    386421970229156, 18392215341270, ⟨[], 0, 0⟩, 0, 0, 0, lc0⟩ 1 1 156468642355) (.sy (.out ⟨629, 16, 2747, 7445, 16,
    11077, ⟨[[(0, 34708696107483136), (0, 1196789323631893), (5095148978, 0)], [(36040114421312622, 0), (0,
    2600278419582), (5904498, 0)], [(0, 53563590796391), (0, 100629862), (0, 1510)]], 2, 2⟩, ⟨[[(19969419838554112,
    0), (0, 4353521086676340), (35328132423, 0)]], 2, 2⟩, 72057594037927936, 494478105004678, 4542629939558, ⟨[], 0,
    0⟩, 0, 0, 0, lc0⟩ 1 1 112638644042) (.out ⟨637, 16, 2821, 7475, 16, 11167, ⟨[[(0, 6818277895790592), (0,
    1223929601233976), (4920872680, 0)], [(35671862633365077, 0), (0, 2665093679990), (4332376, 0)], [(0,
    55058905298670), (0, 105649577), (0, 3067)]], 2, 2⟩, ⟨[[(22896845161037824, 0), (0, 4353352883051994),
    (35183442437, 0)]], 2, 2⟩, 72057594037927936, 512133164942126, 4505633324588, ⟨[], 0, 0⟩, 0, 0, 0, lc0⟩ 1 1
    89683233771))))
theorem c46 : checkR job con0 false ⟨7, 9, 7, 9, 13, 17⟩ 1 34400 t46 255 21 640 15247 251 16000 = true := by decide +kernel

def t47 : CTree :=
  .sy (.out ⟨464, 16, 2172, 3753, 16, 5640, ⟨[[(26498246907904000, 0), (0, 1702220041657709), (13305301347, 0)],
    [(29716593635252541, 0), (0, 4074889319299), (7008533, 0)], [(0, 47985682779545), (0, 356805378), (0, 44708)]],
    2, 2⟩, ⟨[[(0, 25708456558723072), (0, 4344367109036917), (69796878509, 0)]], 2, 2⟩, 72057594037927936,
    458966001094628, 17804161175270, ⟨[], 0, 0⟩, 0, 0, 0, lc0⟩ 1 1 134938098513) (.sy (.out ⟨596, 16, 2843, 7567, 16,
    11441, ⟨[[(15639796210999296, 0), (0, 1107836161628459), (3880647675, 0)], [(36889578748913189, 0), (0,
    2665679911163), (0, 775718)], [(0, 62994932485915), (0, 258810696), (0, 19053)]], 2, 2⟩, ⟨[[(0,
    25931500465750016), (0, 4353547078661877), (34761911854, 0)]], 2, 2⟩, 72057594037927936, 578269678830228,
    4398012930548, ⟨[], 0, 0⟩, 0, 0, 0, lc0⟩ 1 1 100148136985) (.out ⟨604, 16, 2920, 7597, 16, 11533,
    ⟨[[(32542253542703104, 0), (0, 1134018772488115), (3622477253, 0)], [(36513889861475998, 0), (0, 2739842381637),
    (0, 3153604)], [(0, 64839741299464), (0, 287132273), (0, 22932)]], 2, 2⟩, ⟨[[(2446124401557504, 0), (0,
    4353583859127413), (34623423220, 0)]], 2, 2⟩, 72057594037927936, 599603734135387, 4362968270354, ⟨[], 0, 0⟩, 0,
    0, 0, lc0⟩ 1 1 80314095339))
theorem c47 : checkR job con0 false ⟨7, 9, 7, 9, 13, 17⟩ 1 34400 t47 489 21 1280 31247 251 32000 = true := by decide +kernel

def t48 : CTree :=
  .sy (.sy (.out ⟨959, 16, 4737, 7628, 16, 11626, ⟨[[(22492868443602944, 0), (0, 1787405167065185), (5324243746, 0)],
    [(29625276867381742, 0), (0, 2220331962933), (0, 4175282)], [(0, 27178881361010), (0, 141985211), (0, 11901)]],
    2, 2⟩, ⟨[[(0, 11374436455088128), (0, 4353856870360014), (34487907214, 0)]], 2, 2⟩, 72057594037927936,
    130926873001776, 4328575924618, ⟨[], 0, 0⟩, 0, 0, 0, lc0⟩ 1 1 79284426914) (.out ⟨969, 16, 4846, 7658, 16, 11718,
    ⟨[[(0, 24083087417147392), (0, 1823398360684914), (4773603920, 0)], [(29165447547926248, 0), (0, 2276834672769),
    (0, 6543797)], [(0, 27880407839675), (0, 158356275), (0, 13954)]], 2, 2⟩, ⟨[[(0, 17812553104621568), (0,
    4353617441235137), (34349421604, 0)]], 2, 2⟩, 72057594037927936, 135849734799560, 4294085335696, ⟨[], 0, 0⟩, 0,
    0, 0, lc0⟩ 1 1 60725485830)) (.sx (.sy (.out ⟨1371, 16, 6978, 7688, 16, 11811, ⟨[[(0, 27340722529402880), (0,
    2584711243800105), (5949172806, 0)], [(20600233969726903, 0), (0, 1642191513286), (0, 6255406)], [(0,
    10223200944246), (0, 65602645), (0, 5956)]], 2, 2⟩, ⟨[[(5647844853350400, 0), (0, 4353614865642752),
    (34213890038, 0)]], 2, 2⟩, 72057594037927936, 35197642126947, 4260235227153, ⟨[], 0, 0⟩, 0, 0, 0, lc0⟩ 1 1
    53239757242) (.sy (.out ⟨1975, 16, 10155, 15438, 16, 23787, ⟨[[(735413108867072, 0), (0, 1877713983097673),
    (1863800674, 0)], [(29078104498508623, 0), (0, 1198744618893), (0, 2794651)], [(0, 14914914913175), (0,
    51156468), (0, 2379)]], 2, 2⟩, ⟨[[(0, 8529203503693824), (0, 4358196599975819), (17074428299, 0)]], 2, 2⟩,
    72057594037927936, 36460011095451, 1058848895183, ⟨[], 0, 0⟩, 0, 0, 0, lc0⟩ 1 1 43007293503) (.out ⟨1986, 16,
    10277, 15468, 16, 23880, ⟨[[(0, 35641546394320896), (0, 1898485366412798), (1672185695, 0)], [(28817699853511217,
    0), (0, 1216169894067), (0, 3198012)], [(0, 15120707737815), (0, 54263021), (0, 2558)]], 2, 2⟩, ⟨[[(0,
    13100620518260736), (0, 4358076723499021), (17040444825, 0)]], 2, 2⟩, 72057594037927936, 37186784988736,
    1054665266170, ⟨[], 0, 0⟩, 0, 0, 0, lc0⟩ 1 1 35739421570))) (.sy (.sy (.out ⟨1995, 16, 10037, 15377, 16, 23600,
    ⟨[[(2503864642338816, 0), (0, 1909630322819865), (2142956246, 0)], [(28711848771891218, 0), (0, 1183641219989),
    (0, 2253202)], [(0, 14245881394965), (0, 41546224), (0, 1905)]], 2, 2⟩, ⟨[[(165120590610432, 0), (0,
    4358152588829617), (17141681733, 0)]], 2, 2⟩, 72057594037927936, 34977745752558, 1067221600562, ⟨[], 0, 0⟩, 0, 0,
    0, lc0⟩ 1 1 40755183048) (.out ⟨2006, 16, 10158, 15407, 16, 23693, ⟨[[(0, 26739282594037760), (0,
    1930578043792255), (1960431644, 0)], [(28456027004843002, 0), (0, 1200372257635), (0, 2626120)], [(0,
    14439225315392), (0, 44046750), (0, 2056)]], 2, 2⟩, ⟨[[(12740136768765952, 0), (0, 4358099634847100),
    (17107694498, 0)]], 2, 2⟩, 72057594037927936, 35679033549265, 1063004570772, ⟨[], 0, 0⟩, 0, 0, 0, lc0⟩ 1 1
    32969622256)) (.sy (.out ⟨2016, 16, 10281, 15438, 16, 23787, ⟨[[(22237645329563648, 0), (0, 1952072446469037),
    (1763956787, 0)], [(28190008412277888, 0), (0, 1217757988970), (0, 3023660)], [(0, 14636980102779), (0,
    46736420), (0, 2216)]], 2, 2⟩, ⟨[[(0, 8529203503693824), (0, 4358196599975819), (17074428299, 0)]], 2, 2⟩,
    72057594037927936, 36405022907515, 1058848895183, ⟨[], 0, 0⟩, 0, 0, 0, lc0⟩ 1 1 26963299599) (.sy (.out ⟨2625,
    16, 13451, 30937, 16, 47738, ⟨[[(0, 23878411353292800), (0, 1276156204518255), (520870617, 0)],
    [(36281564499654949, 0), (0, 798177406461), (0, 1082226)], [(0, 19173523706668), (0, 31690512), (0, 759)]], 2,
    2⟩, ⟨[[(0, 31175409313775616), (0, 4360347564566761), (8528847239, 0)]], 2, 2⟩, 72057594037927936,
    44904959503938, 263933360914, ⟨[], 0, 0⟩, 0, 0, 0, lc0⟩ 1 1 21589589594) (.out ⟨2636, 16, 13557, 30966, 16,
    47831, ⟨[[(28347462825869312, 0), (0, 1285705183836013), (486265895, 0)], [(36163356843471726, 0), (0,
    805594728486), (0, 1155139)], [(0, 19340848548414), (0, 32720091), (0, 789)]], 2, 2⟩, ⟨[[(30954807723294720, 0),
    (0, 4360275079748470), (8520339228, 0)]], 2, 2⟩, 72057594037927936, 45399286710426, 263411309231, ⟨[], 0, 0⟩, 0,
    0, 0, lc0⟩ 1 1 18714055714)))))
theorem c48 : checkR job con0 false ⟨7, 9, 7, 9, 13, 17⟩ 1 34400 t48 957 21 2560 31749 251 32000 = true := by decide +kernel

def t49 : CTree :=
  .sx (.sy (.out ⟨1384, 16, 6746, 7628, 16, 11626, ⟨[[(5942871096606720, 0), (0, 2645250672208139), (7378960723, 0)],
    [(19903199771739227, 0), (0, 1586845500053), (0, 3469312)], [(0, 9240164903933), (0, 42230685), (0, 3626)]], 2,
    2⟩, ⟨[[(0, 11374436455088128), (0, 4353856870360014), (34487907214, 0)]], 2, 2⟩, 72057594037927936,
    32233403115963, 4328575924618, ⟨[], 0, 0⟩, 0, 0, 0, lc0⟩ 1 1 52186374423) (.sy (.out ⟨2014, 16, 9913, 15316, 16,
    23414, ⟨[[(0, 31051314372231168), (0, 1939677876740940), (2427678776, 0)], [(28368289884331063, 0), (0,
    1168160864582), (0, 1725488)], [(0, 13602231530621), (0, 33146321), (0, 1482)]], 2, 2⟩, ⟨[[(21211736106598400,
    0), (0, 4358157005915404), (17209659673, 0)]], 2, 2⟩, 72057594037927936, 33510593620855, 1075705934279, ⟨[], 0,
    0⟩, 0, 0, 0, lc0⟩ 1 1 38812804576) (.out ⟨2024, 16, 10031, 15347, 16, 23507, ⟨[[(0, 9211268443291648), (0,
    1960401122231349), (2254745346, 0)], [(28112109622071534, 0), (0, 1183979449505), (0, 2067742)], [(0,
    13781370911818), (0, 35100043), (0, 1607)]], 2, 2⟩, ⟨[[(0, 21013156584882176), (0, 4358171846660552),
    (17175670651, 0)]], 2, 2⟩, 72057594037927936, 34177916418718, 1071455294289, ⟨[], 0, 0⟩, 0, 0, 0, lc0⟩ 1 1
    31796241392))) (.sy (.sy (.out ⟨2031, 16, 9784, 15255, 16, 23228, ⟨[[(0, 18386755865608192), (0,
    1967979492992262), (2715544538, 0)], [(28047375335469720, 0), (0, 1152484822163), (0, 1215932)], [(0,
    12984045259526), (0, 25888266), (0, 1107)]], 2, 2⟩, ⟨[[(7433965734068224, 0), (0, 4358023394906832),
    (17277631554, 0)]], 2, 2⟩, 72057594037927936, 32068225212577, 1084257511968, ⟨[], 0, 0⟩, 0, 0, 0, lc0⟩ 1 1
    38791602578) (.out ⟨2041, 16, 9900, 15286, 16, 23321, ⟨[[(0, 3016227456155648), (0, 1988650282827870),
    (2553110888, 0)], [(27794166087005452, 0), (0, 1167532553384), (0, 1528392)], [(0, 13151424963809), (0,
    27364060), (0, 1209)]], 2, 2⟩, ⟨[[(0, 17326959077883904), (0, 4358107659364037), (17243647188, 0)]], 2, 2⟩,
    72057594037927936, 32704150745723, 1079973274510, ⟨[], 0, 0⟩, 0, 0, 0, lc0⟩ 1 1 31043383174)) (.sx (.sy (.out
    ⟨2808, 16, 13743, 15316, 16, 23414, ⟨[[(33811262345641984, 0), (0, 2740152527853692), (3288308658, 0)],
    [(19077240542717629, 0), (0, 811121147791), (0, 1257914)], [(0, 4605082540233), (0, 10326629), (0, 467)]], 2, 2⟩,
    ⟨[[(21211736106598400, 0), (0, 4358157005915404), (17209659673, 0)]], 2, 2⟩, 72057594037927936, 8402707608299,
    1075705934279, ⟨[], 0, 0⟩, 0, 0, 0, lc0⟩ 1 1 27266378171) (.sy (.out ⟨4123, 16, 20280, 30693, 16, 46990,
    ⟨[[(16469780397817856, 0), (0, 2020000128043000), (1133161409, 0)], [(27700604821522456, 0), (0, 599214853964),
    (0, 525924)], [(0, 6801374501880), (0, 7885983), (0, 182)]], 2, 2⟩, ⟨[[(0, 5124203542216704), (0,
    4360259151358218), (8596200057, 0)]], 2, 2⟩, 72057594037927936, 8485256988507, 268124797621, ⟨[], 0, 0⟩, 0, 0, 0,
    lc0⟩ 1 1 21625458768) (.out ⟨4134, 16, 20403, 30724, 16, 47084, ⟨[[(5926723608051712, 0), (0, 2031134580839610),
    (1084917794, 0)], [(27565844274949285, 0), (0, 603401712227), (0, 571775)], [(0, 6846654846354), (0, 8120672),
    (0, 189)]], 2, 2⟩, ⟨[[(0, 5711329526022144), (0, 4360346496863060), (8587872951, 0)]], 2, 2⟩, 72057594037927936,
    8572257956733, 267600046393, ⟨[], 0, 0⟩, 0, 0, 0, lc0⟩ 1 1 17919473382))) (.sy (.sy (.out ⟨4139, 16, 20140,
    30633, 16, 46805, ⟨[[(0, 3629766072926208), (0, 2033387073498335), (1211811911, 0)], [(27544041315261867, 0), (0,
    594716360683), (0, 454473)], [(0, 6641449725668), (0, 6909295), (0, 156)]], 2, 2⟩, ⟨[[(0, 19872663603511296), (0,
    4360337171862115), (8613403022, 0)]], 2, 2⟩, 72057594037927936, 8296314600651, 269194574397, ⟨[], 0, 0⟩, 0, 0, 0,
    lc0⟩ 1 1 21088344136) (.out ⟨4150, 16, 20262, 30663, 16, 46897, ⟨[[(0, 16269906060443648), (0, 2044507533963506),
    (1165067374, 0)], [(27410417268805333, 0), (0, 598798484021), (0, 498248)], [(0, 6685210580648), (0, 7112100),
    (0, 163)]], 2, 2⟩, ⟨[[(0, 33906178291400704), (0, 4360255876033724), (8604709571, 0)]], 2, 2⟩, 72057594037927936,
    8381204160802, 268656216048, ⟨[], 0, 0⟩, 0, 0, 0, lc0⟩ 1 1 17314975801)) (.sx (.sy (.out ⟨5656, 16, 27739, 30693,
    16, 46990, ⟨[[(13750878119133184, 0), (0, 2788785875218613), (1527036680, 0)], [(18653139323068602, 0), (0,
    410133382270), (0, 367313)], [(0, 2298355044611), (0, 2542890), (0, 59)]], 2, 2⟩, ⟨[[(0, 5124203542216704), (0,
    4360259151358218), (8596200057, 0)]], 2, 2⟩, 72057594037927936, 2147063765586, 268124797621, ⟨[], 0, 0⟩, 0, 0, 0,
    lc0⟩ 1 1 15656481105) (.out ⟨5661, 16, 27859, 30724, 16, 47084, ⟨[[(10986392019206144, 0), (0, 2799349057840184),
    (1456541304, 0)], [(18526960480495241, 0), (0, 412292716403), (0, 398300)], [(0, 2309594977983), (0, 2614431),
    (0, 61)]], 2, 2⟩, ⟨[[(0, 5711329526022144), (0, 4360346496863060), (8587872951, 0)]], 2, 2⟩, 72057594037927936,
    2178271180792, 267600046393, ⟨[], 0, 0⟩, 0, 0, 0, lc0⟩ 1 1 12073716793)) (.sy (.out ⟨5666, 16, 27732, 30693, 16,
    46990, ⟨[[(0, 30485112041570304), (0, 2805307797690695), (1511125299, 0)], [(18456181174499831, 0), (0,
    410239094300), (0, 372084)], [(0, 2279644785136), (0, 2438817), (0, 57)]], 2, 2⟩, ⟨[[(0, 5124203542216704), (0,
    4360259151358218), (8596200057, 0)]], 2, 2⟩, 72057594037927936, 2152625261469, 268124797621, ⟨[], 0, 0⟩, 0, 0, 0,
    lc0⟩ 1 1 11535860697) (.leaf ⟨14249, 16, 28408, 3652, 16, 16667, ⟨[[(18110837307604992, 0), (0,
    2872176264834115), (1468077144, 0), (0, 53629), (0, 1)], [(18695013593839412, 0), (0, 420636913705), (0, 411310),
    (0, 20)], [(0, 2336482768132), (0, 2557742), (0, 60)], [(147451515, 0), (862, 0)]], 3, 4⟩, ⟨[[(29447333513494528,
    0), (0, 2247000774787054), (0, 1746071998), (0, 79289), (0, 1)], [(0, 26277282101927061), (0, 96667457339), (0,
    1651688), (0, 31)], [(885695392504, 0), (0, 1205645), (0, 130)], [(0, 28770907), (363, 0)]], 3, 4⟩,
    72057594037927936, 2644692316, 1536117415, ⟨[[(13348282240723, 0), (310187662, 0), (142944, 0), (100, 0)],
    [(423275117, 0), (3840, 0), (0, 27)], [(0, 31192), (4, 0)], [(3, 0)]], 3, 4⟩, 17592186044416, 17024,
    4057291906228560621128642428962274514542628556143503473334473137966399885400631406414951056249932323496444272842118364118102435,
    lc0⟩))))))
theorem c49 : checkR job con0 false ⟨7, 9, 7, 9, 13, 17⟩ 1 34400 t49 999 21 2560 63247 251 64000 = true := by decide +kernel

def t50 : CTree :=
  .sy (.sx (.sy (.out ⟨2798, 16, 13989, 15377, 16, 23600, ⟨[[(0, 15266085488951296), (0, 2713555306069830),
    (2885236050, 0)], [(19390286918373858, 0), (0, 826592353077), (0, 1650845)], [(0, 4848966371126), (0, 13239164),
    (0, 616)]], 2, 2⟩, ⟨[[(165120590610432, 0), (0, 4358152588829617), (17141681733, 0)]], 2, 2⟩, 72057594037927936,
    8796623567960, 1067221600562, ⟨[], 0, 0⟩, 0, 0, 0, lc0⟩ 1 1 28257924442) (.sy (.out ⟨4090, 16, 20552, 30815, 16,
    47363, ⟨[[(0, 31661995945263104), (0, 1991781826220002), (976947091, 0)], [(28029749305338027, 0), (0,
    608158952719), (0, 673027)], [(0, 7131333391573), (0, 10074269), (0, 237)]], 2, 2⟩, ⟨[[(0, 30417921909981184),
    (0, 4360279441199200), (8562343892, 0)]], 2, 2⟩, 72057594037927936, 8868090200368, 266015301979, ⟨[], 0, 0⟩, 0,
    0, 0, lc0⟩ 1 1 23043983725) (.out ⟨4100, 16, 20677, 30845, 16, 47457, ⟨[[(34355839015780352, 0), (0,
    2002937818647127), (925848790, 0)], [(27892902849751832, 0), (0, 612560683880), (0, 723103)], [(0,
    7179856017576), (0, 10379337), (0, 247)]], 2, 2⟩, ⟨[[(23622792588296192, 0), (0, 4360332229293848), (8554015136,
    0)]], 2, 2⟩, 72057594037927936, 8959202143567, 265494621422, ⟨[], 0, 0⟩, 0, 0, 0, lc0⟩ 1 1 19833406379))) (.sy
    (.sy (.out ⟨4107, 16, 20417, 30754, 16, 47177, ⟨[[(0, 22152768402292736), (0, 2006096222127886), (1054794757,
    0)], [(27861928355201298, 0), (0, 603687057372), (0, 598808)], [(0, 6964523514477), (0, 8939903), (0, 209)]], 2,
    2⟩, ⟨[[(14373933478051840, 0), (0, 4360332564612657), (8579363020, 0)]], 2, 2⟩, 72057594037927936, 8675769933325,
    267070688021, ⟨[], 0, 0⟩, 0, 0, 0, lc0⟩ 1 1 21969502990) (.out ⟨4118, 16, 20541, 30784, 16, 47270, ⟨[[(0,
    30478200530075648), (0, 2017242602142631), (1005099049, 0)], [(27726097197794700, 0), (0, 607980491307), (0,
    646760)], [(0, 7011390261116), (0, 9208653), (0, 217)]], 2, 2⟩, ⟨[[(30153356064587776, 0), (0, 4360310196073096),
    (8570853302, 0)]], 2, 2⟩, 72057594037927936, 8764842145919, 266542431591, ⟨[], 0, 0⟩, 0, 0, 0, lc0⟩ 1 1
    18321260037)) (.sy (.out ⟨4129, 16, 20667, 30815, 16, 47363, ⟨[[(0, 21733124485611520), (0, 2028630061944986),
    (953574639, 0)], [(27588924953051307, 0), (0, 612386017311), (0, 696311)], [(0, 7059105416318), (0, 9488168), (0,
    226)]], 2, 2⟩, ⟨[[(0, 30417921909981184), (0, 4360279441199200), (8562343892, 0)]], 2, 2⟩, 72057594037927936,
    8855940971699, 266015301979, ⟨[], 0, 0⟩, 0, 0, 0, lc0⟩ 1 1 15246940384) (.sy (.out ⟨5408, 16, 27141, 61690, 16,
    94890, ⟨[[(7790387733397504, 0), (0, 1331591656559849), (298593442, 0)], [(35928319022152375, 0), (0,
    402461767831), (0, 240051)], [(0, 9275125158382), (0, 6343207), (0, 76)]], 2, 2⟩, ⟨[[(17645977794510848, 0), (0,
    4361376981447355), (4279085881, 0)]], 2, 2⟩, 72057594037927936, 10924106266616, 66406144943, ⟨[], 0, 0⟩, 0, 0, 0,
    lc0⟩ 1 1 12752575157) (.out ⟨5420, 16, 27249, 61721, 16, 94984, ⟨[[(22738050200895488, 0), (0, 1336594293392228),
    (289959292, 0)], [(35868384557072396, 0), (0, 404309113272), (0, 248772)], [(0, 9315249203764), (0, 6445646), (0,
    78)]], 2, 2⟩, ⟨[[(0, 3083308335366144), (0, 4361400168776155), (4277002087, 0)]], 2, 2⟩, 72057594037927936,
    10984877582641, 66341203608, ⟨[], 0, 0⟩, 0, 0, 0, lc0⟩ 1 1 11242876222))))) (.sx (.sy (.sy (.out ⟨4112, 16,
    20804, 30875, 16, 47550, ⟨[[(0, 26949517403947008), (0, 2014334116046586), (872889819, 0)], [(27754642091506700,
    0), (0, 617077196673), (0, 774840)], [(0, 7229261002835), (0, 10696348), (0, 256)]], 2, 2⟩,
    ⟨[[(26514818685206528, 0), (0, 4360284669735225), (8545506101, 0)]], 2, 2⟩, 72057594037927936, 9052376813905,
    264969408535, ⟨[], 0, 0⟩, 0, 0, 0, lc0⟩ 1 1 16107138386) (.out ⟨4123, 16, 20933, 30906, 16, 47644,
    ⟨[[(281872320626688, 0), (0, 2025972803317354), (818007231, 0)], [(27614847043259904, 0), (0, 621710620104), (0,
    828291)], [(0, 7279556236259), (0, 11025691), (0, 266)]], 2, 2⟩, ⟨[[(0, 163108105224192), (0, 4360320391248266),
    (8537176852, 0)]], 2, 2⟩, 72057594037927936, 9147642616186, 264450838651, ⟨[], 0, 0⟩, 0, 0, 0, lc0⟩ 1 1
    13206764262)) (.sx (.sy (.out ⟨5636, 16, 28742, 30937, 16, 47738, ⟨[[(16282089208741888, 0), (0,
    2771697397514830), (1051193536, 0)], [(18849075252129758, 0), (0, 427242919049), (0, 598795)], [(0,
    2510639873133), (0, 3937707), (0, 95)]], 2, 2⟩, ⟨[[(0, 31175409313775616), (0, 4360347564566761), (8528847239,
    0)]], 2, 2⟩, 72057594037927936, 2365975080842, 263933360914, ⟨[], 0, 0⟩, 0, 0, 0, lc0⟩ 1 1 12223891038) (.leaf
    ⟨14529, 16, 29445, 3585, 16, 16428, ⟨[[(0, 6180548085809152), (0, 2838452984887995), (989124499, 0), (0, 58911),
    (0, 1)], [(19090225031403657, 0), (0, 438326554270), (0, 649058), (0, 24)], [(0, 2574097539408), (0, 4133727),
    (0, 101)], [(162045152, 0), (991, 0)]], 3, 4⟩, ⟨[[(0, 33262071643963392), (0, 2200611078892773), (0, 2204889768),
    (0, 88985), (0, 1)], [(0, 26827812320700227), (0, 108413081864), (0, 1926550), (0, 34)], [(890900039011, 0), (0,
    2714329), (0, 169)], [(0, 29793190), (415, 0)]], 3, 4⟩, 72057594037927936, 2480357359, 1973120375,
    ⟨[[(13243945239640, 0), (309574574, 0), (149157, 0), (108, 0)], [(422710028, 0), (2800, 0), (0, 29)], [(0,
    30925), (4, 0)], [(3, 0)]], 3, 4⟩, 17592186044416, 16145,
    3964580338659296097192191542254546892763157730168629671822976024312547309558143232040200986237459205956368820249161892139628708,
    lc0⟩)) (.leaf ⟨8836, 16, 17882, 2392, 16, 10988, ⟨[[(14293620994867200, 0), (0, 3470564273643304), (2445159380,
    0), (0, 288021), (0, 6)], [(11529576201325122, 0), (0, 532412982985), (0, 1553204), (0, 116)], [(0,
    1550276555909), (0, 4808936), (0, 235)], [(97789799, 0), (1204, 0)]], 3, 4⟩, ⟨[[(17246427122761728, 0), (0,
    2948377863070991), (0, 5935513304), (0, 476628), (0, 14)], [(0, 17875891419624771), (0, 144033352903), (0,
    5123686), (0, 181)], [(593834502766, 0), (0, 3448786), (0, 440)], [(0, 19683276), (561, 0)]], 3, 4⟩,
    72057594037927936, 1560032478, 1882162641, ⟨[[(13249942040832, 0), (459075874, 0), (325944, 0), (343, 0), (1,
    0)], [(693907182, 0), (8484, 0), (0, 100)], [(0, 83489), (15, 0)], [(12, 0)]], 3, 4⟩, 17592186044416, 49819,
    3716359889744036571648337120872144261885196736475307889709682985282685297984156808812978826074245192165014954861635610802207789,
    lc0⟩))) (.leaf ⟨4385, 16, 8852, 1193, 16, 5491, ⟨[[(8068433916198912, 0), (0, 3470465546583810), (5081749590, 0),
    (0, 1144849), (0, 49)], [(11354924278845275, 0), (0, 1053868494975), (0, 5921031), (0, 906)], [(0,
    3030975979839), (0, 17694899), (0, 1731)], [(383293778, 0), (9480, 0), (1, 0)]], 3, 4⟩, ⟨[[(0,
    13109542108856320), (0, 2952801049753118), (0, 11789435316), (0, 1893987), (0, 113)], [(0, 17755663668334107),
    (0, 283636400817), (0, 20159857), (0, 1429)], [(1181293677975, 0), (0, 12498375), (0, 3372)], [(0, 77424274),
    (4493, 0), (1, 0)]], 3, 4⟩, 72057594037927936, 10498464451, 14454275596, ⟨[[(13263139068085, 0), (913003968, 0),
    (1277595, 0), (2625, 0), (9, 0)], [(1394231908, 0), (40662, 0), (0, 772), (0, 3)], [(0, 337768), (118, 0), (1,
    0)], [(97, 0)]], 3, 4⟩, 17592186044416, 114803,
    4928233405584769220596263340363290747923407212914496602803804168652317805765968246686010292514510849937629728210647325558661506,
    lc0⟩))
theorem c50 : checkR job con0 false ⟨7, 9, 7, 9, 13, 17⟩ 1 34400 t50 1977 21 5120 63749 251 64000 = true := by decide +kernel

def t51 : CTree :=
  .sy (.sx (.sy (.sy (.out ⟨4145, 16, 20527, 30754, 16, 47177, ⟨[[(0, 1812917195177984), (0, 2042411350664079),
    (1034829336, 0)], [(27428479507029571, 0), (0, 607668408297), (0, 619134)], [(0, 6892415563793), (0, 8364610),
    (0, 197)]], 2, 2⟩, ⟨[[(14373933478051840, 0), (0, 4360332564612657), (8579363020, 0)]], 2, 2⟩, 72057594037927936,
    8660818958955, 267070688021, ⟨[], 0, 0⟩, 0, 0, 0, lc0⟩ 1 1 14236833308) (.sy (.out ⟨5440, 16, 27012, 61569, 16,
    94517, ⟨[[(31502486176333824, 0), (0, 1343328456010827), (326183755, 0)], [(35792647560199674, 0), (0,
    400138173945), (0, 214723)], [(0, 9074085776213), (0, 5602524), (0, 67)]], 2, 2⟩, ⟨[[(3363945891495936, 0), (0,
    4361400962490109), (4287556379, 0)]], 2, 2⟩, 72057594037927936, 10701935317744, 66668937945, ⟨[], 0, 0⟩, 0, 0, 0,
    lc0⟩ 1 1 11887392846) (.out ⟨5453, 16, 27119, 61599, 16, 94610, ⟨[[(0, 29297001190850560), (0, 1348325712997842),
    (317803313, 0)], [(35732709482026331, 0), (0, 401943392464), (0, 223066)], [(0, 9112870599248), (0, 5692335), (0,
    68)]], 2, 2⟩, ⟨[[(16450736151330816, 0), (0, 4361386608247291), (4285427407, 0)]], 2, 2⟩, 72057594037927936,
    10761144589450, 66602815139, ⟨[], 0, 0⟩, 0, 0, 0, lc0⟩ 1 1 9853925631))) (.leaf ⟨7167, 16, 14385, 1806, 16, 8276,
    ⟨[[(0, 32404245769617408), (0, 2859195929681264), (2488029337, 0), (0, 225267), (0, 5)], [(18686289108457557, 0),
    (0, 854065849223), (0, 2055232), (0, 175)], [(0, 4837677222420), (0, 12447081), (0, 601)], [(611176065, 0),
    (7369, 0)]], 3, 4⟩, ⟨[[(0, 31336480651231232), (0, 2227649434632777), (0, 3967815872), (0, 336608), (0, 10)],
    [(0, 26454995225668788), (0, 203376227131), (0, 7104182), (0, 257)], [(1772037335734, 0), (0, 7181707), (0,
    1155)], [(0, 115670289), (3148, 0)]], 3, 4⟩, 72057594037927936, 8473498510, 5679737512, ⟨[[(13303047212038, 0),
    (615412219, 0), (572280, 0), (798, 0), (2, 0)], [(847689215, 0), (15675, 0), (0, 215), (0, 1)], [(0, 124933),
    (29, 0)], [(22, 0)]], 3, 4⟩, 17592186044416, 58674,
    4516772934709491426605063494510570480460555501311050717645802867751854011152487473412488846225414158493466464573564573849968083,
    lc0⟩)) (.leaf ⟨4329, 16, 8664, 1197, 16, 5512, ⟨[[(0, 4697619276627968), (0, 3488892994207624), (6201134352, 0),
    (0, 1096855), (0, 48)], [(11141019407301774, 0), (0, 1028777401684), (0, 4751940), (0, 833)], [(0,
    2865831611130), (0, 13531754), (0, 1307)], [(363375116, 0), (8839, 0), (1, 0)]], 3, 4⟩, ⟨[[(35374975891472384,
    0), (0, 2975955232867602), (0, 10684249636), (0, 1796435), (0, 108)], [(0, 17487083244491371), (0, 266937652959),
    (0, 18665541), (0, 1355)], [(1171734738738, 0), (0, 8282546), (0, 2919)], [(0, 75377631), (4238, 0), (1, 0)]], 3,
    4⟩, 72057594037927936, 11386242257, 12462788557, ⟨[[(13315036060560, 0), (909833929, 0), (1235502, 0), (2457, 0),
    (8, 0)], [(1398695278, 0), (50927, 0), (0, 733), (0, 3)], [(0, 341418), (111, 0), (1, 0)], [(98, 0)]], 3, 4⟩,
    17592186044416, 119205,
    4189874509297901147391296298876838792762256542592033174072563920118571706437315314600446550833861722804333831498450642928321297,
    lc0⟩)) (.leaf ⟨3595, 16, 7240, 882, 16, 4112, ⟨[[(0, 32988311151706112), (0, 2892832381363607), (3845782940, 0),
    (0, 983507), (0, 42)], [(17956972015058389, 0), (0, 1727366623118), (0, 10026681), (0, 1511)], [(0,
    9680773686667), (0, 51942953), (0, 5161)], [(2472013090, 0), (63825, 0), (5, 0)]], 3, 4⟩, ⟨[[(0,
    23115327393243136), (0, 2224657601176805), (0, 9789642435), (0, 1486316), (0, 87)], [(0, 26371509538714420), (0,
    427085086445), (0, 30816362), (0, 2176)], [(3495671060410, 0), (0, 34785118), (0, 9657), (0, 1)], [(0,
    442811370), (29205, 0), (5, 0)]], 3, 4⟩, 72057594037927936, 66399116020, 46473187928, ⟨[[(13264038800676, 0),
    (1170430268, 0), (2074156, 0), (4970, 0), (24, 0)], [(1695077802, 0), (104769, 0), (0, 1380), (0, 7)], [(0,
    502829), (196, 0), (1, 0)], [(177, 0)]], 3, 4⟩, 17592186044416, 224889,
    4636168432397999322732388205149997248690875914232028495880781441499196535500238555891003734488531647690310906864780463623857698,
    lc0⟩)
theorem c51 : checkR job con0 false ⟨7, 9, 7, 9, 13, 17⟩ 1 34400 t51 2019 21 5120 63749 251 64000 = true := by decide +kernel

def t52 : CTree :=
  .sx (.sy (.out ⟨996, 16, 4506, 7506, 16, 11258, ⟨[[(0, 27945741728735232), (0, 1902748597979210), (7271675085, 0)],
    [(28360467350221525, 0), (0, 2123679100402), (2041257, 0)], [(0, 22698386680071), (0, 55385166), (0, 2812)]], 2,
    2⟩, ⟨[[(0, 15685625368543232), (0, 4353431925168580), (35041911902, 0)]], 2, 2⟩, 72057594037927936,
    110159857714435, 4469339251424, ⟨[], 0, 0⟩, 0, 0, 0, lc0⟩ 1 1 85625937467) (.out ⟨1005, 16, 4608, 7537, 16,
    11350, ⟨[[(0, 27465774092115968), (0, 1938639953460777), (6857913861, 0)], [(27912618300704780, 0), (0,
    2170481129297), (417910, 0)], [(0, 23241424256881), (0, 59937847), (0, 3706)]], 2, 2⟩, ⟨[[(0, 24089212366028800),
    (0, 4353752271190560), (34903455039, 0)]], 2, 2⟩, 72057594037927936, 114209237362032, 4433728265218, ⟨[], 0, 0⟩,
    0, 0, 0, lc0⟩ 1 1 64429500229)) (.sy (.sy (.out ⟨1343, 16, 5961, 15012, 16, 22494, ⟨[[(0, 11680216013996032), (0,
    1318862482215541), (2481559264, 0)], [(35425478861336850, 0), (0, 1407486307393), (755196, 0)], [(0,
    28215982123419), (0, 21046650), (0, 247)]], 2, 2⟩, ⟨[[(4468431855550464, 0), (0, 4357978519489763), (17556990075,
    0)]], 2, 2⟩, 72057594037927936, 131929625472307, 1119632795260, ⟨[], 0, 0⟩, 0, 0, 0, lc0⟩ 1 1 55597579421) (.out
    ⟨1353, 16, 6046, 15042, 16, 22585, ⟨[[(0, 23381224267857920), (0, 1335192253436560), (2415240201, 0)],
    [(35214160593921701, 0), (0, 1426922074141), (495056, 0)], [(0, 28629111006022), (0, 21646314), (0, 346)]], 2,
    2⟩, ⟨[[(26794632610316288, 0), (0, 4357963839607923), (17521495329, 0)]], 2, 2⟩, 72057594037927936,
    134458100968740, 1115111774015, ⟨[], 0, 0⟩, 0, 0, 0, lc0⟩ 1 1 44614831946)) (.sx (.sy (.out ⟨2074, 16, 9370,
    15073, 16, 22677, ⟨[[(6799547612102656, 0), (0, 2042374939897363), (3574446221, 0)], [(27201935688713868, 0), (0,
    1105042645075), (172548, 0)], [(0, 11272198960718), (0, 10167892), (0, 243)]], 2, 2⟩, ⟨[[(16160850964774912, 0),
    (0, 4358106096887738), (17486773279, 0)]], 2, 2⟩, 72057594037927936, 27945007520221, 1110658006750, ⟨[], 0, 0⟩,
    0, 0, 0, lc0⟩ 1 1 43753892816) (.out ⟨2084, 16, 9479, 15103, 16, 22768, ⟨[[(0, 11496357005557760), (0,
    2062587866168931), (3445924197, 0)], [(26957212572100901, 0), (0, 1117837294448), (0, 56460)], [(0,
    11408556338584), (0, 10555264), (0, 290)]], 2, 2⟩, ⟨[[(20846817553940480, 0), (0, 4358020580928539),
    (17451278730, 0)]], 2, 2⟩, 72057594037927936, 28482219800959, 1106173231935, ⟨[], 0, 0⟩, 0, 0, 0, lc0⟩ 1 1
    33689267902)) (.sy (.sy (.out ⟨2780, 16, 12442, 30146, 16, 45331, ⟨[[(0, 27474557234937856), (0,
    1387413861136429), (1203212212, 0)], [(35066760370328753, 0), (0, 734175416987), (71160, 0)], [(0,
    14502612580319), (0, 4569850), (0, 30)]], 2, 2⟩, ⟨[[(24591717687099392, 0), (0, 4360286276628755), (8752167879,
    0)]], 2, 2⟩, 72057594037927936, 34172054184899, 277943466480, ⟨[], 0, 0⟩, 0, 0, 0, lc0⟩ 1 1 29179726163) (.out
    ⟨2790, 16, 12534, 30176, 16, 45422, ⟨[[(31646539488624640, 0), (0, 1396470397981833), (1183059174, 0)],
    [(34954788478915505, 0), (0, 739551099642), (33822, 0)], [(0, 14612168619706), (0, 4637312), (0, 36)]], 2, 2⟩,
    ⟨[[(32556609223262208, 0), (0, 4360247834452055), (8743280658, 0)]], 2, 2⟩, 72057594037927936, 34513676112059,
    277381667974, ⟨[], 0, 0⟩, 0, 0, 0, lc0⟩ 1 1 24982132230)) (.sy (.out ⟨2801, 16, 12627, 30207, 16, 45514,
    ⟨[[(25001351884832768, 0), (0, 1405650326901318), (1161886867, 0)], [(34840142683726933, 0), (0, 745023742733),
    (0, 4955)], [(0, 14722943224270), (0, 4711646), (0, 43)]], 2, 2⟩, ⟨[[(11924044106694656, 0), (0,
    4360296529335587), (8734585865, 0)]], 2, 2⟩, 72057594037927936, 34861375665249, 276826946169, ⟨[], 0, 0⟩, 0, 0,
    0, lc0⟩ 1 1 20324697832) (.sy (.out ⟨3360, 16, 15185, 60475, 16, 91188, ⟨[[(1379947177017344, 0), (0,
    844683832641538), (342424941, 0)], [(41560791977434069, 0), (0, 447984969773), (0, 10467)], [(0, 17707683967546),
    (0, 2853483), (0, 14)]], 2, 2⟩, ⟨[[(0, 6441353826271232), (0, 4361379369174295), (4365085327, 0)]], 2, 2⟩,
    72057594037927936, 41609682687809, 69102762628, ⟨[], 0, 0⟩, 0, 0, 0, lc0⟩ 1 1 16694636554) (.out ⟨3369, 16,
    15252, 60505, 16, 91279, ⟨[[(0, 4683143222132736), (0, 848067821881440), (339254610, 0)], [(41518284658481134,
    0), (0, 449975201796), (0, 16611)], [(0, 17787257130874), (0, 2880910), (0, 15)]], 2, 2⟩, ⟨[[(0,
    9973506892103680), (0, 4361348141563061), (4362862055, 0)]], 2, 2⟩, 72057594037927936, 41846107469634,
    69032672707, ⟨[], 0, 0⟩, 0, 0, 0, lc0⟩ 1 1 14380906209))))))
theorem c52 : checkR job con0 false ⟨7, 9, 7, 9, 13, 17⟩ 1 34400 t52 531 21 1280 62243 251 64000 = true := by decide +kernel

def t53 : CTree :=
  .sx (.sy (.out ⟨1395, 16, 6512, 7567, 16, 11441, ⟨[[(6783167147376640, 0), (0, 2698184428949235), (8815205357, 0)],
    [(19301087802253428, 0), (0, 1532996023064), (0, 925537)], [(0, 8351240489500), (0, 25101476), (0, 1827)]], 2,
    2⟩, ⟨[[(0, 25931500465750016), (0, 4353547078661877), (34761911854, 0)]], 2, 2⟩, 72057594037927936,
    29308137311609, 4398012930548, ⟨[], 0, 0⟩, 0, 0, 0, lc0⟩ 1 1 54326186265) (.sy (.out ⟨2046, 16, 9650, 15195, 16,
    23044, ⟨[[(35673152798097408, 0), (0, 1994468838419484), (3004026649, 0)], [(27746321538997547, 0), (0,
    1136660836472), (0, 727987)], [(0, 12389940403166), (0, 19693362), (0, 778)]], 2, 2⟩, ⟨[[(0, 18616689524736000),
    (0, 4358126683079677), (17347089663, 0)]], 2, 2⟩, 72057594037927936, 30655710141259, 1092971146599, ⟨[], 0, 0⟩,
    0, 0, 0, lc0⟩ 1 1 40456075000) (.out ⟨2056, 16, 9763, 15225, 16, 23136, ⟨[[(29698266469466112, 0), (0,
    2014865482261821), (2852367685, 0)], [(27493732796493312, 0), (0, 1150847368295), (0, 1011400)], [(0,
    12545230759516), (0, 20749673), (0, 858)]], 2, 2⟩, ⟨[[(0, 1254520556748800), (0, 4358092163947103), (17312359381,
    0)]], 2, 2⟩, 72057594037927936, 31256534530309, 1088605529745, ⟨[], 0, 0⟩, 0, 0, 0, lc0⟩ 1 1 31467288460))) (.sy
    (.sy (.out ⟨2061, 16, 9512, 15134, 16, 22860, ⟨[[(0, 2497967571795968), (0, 2019287079540928), (3291053438, 0)],
    [(27465348608024716, 0), (0, 1120840027614), (0, 264480)], [(0, 11819803021055), (0, 14481361), (0, 491)]], 2,
    2⟩, ⟨[[(0, 7513292911280128), (0, 4358091312596523), (17416551022, 0)]], 2, 2⟩, 72057594037927936,
    29280291891639, 1101754948329, ⟨[], 0, 0⟩, 0, 0, 0, lc0⟩ 1 1 41358642142) (.out ⟨2071, 16, 9623, 15164, 16,
    22952, ⟨[[(0, 14748906849075200), (0, 2039597300986788), (3150829935, 0)], [(27216538618459035, 0), (0,
    1134314069461), (0, 520074)], [(0, 11965218198883), (0, 15177263), (0, 553)]], 2, 2⟩, ⟨[[(27352954522304512, 0),
    (0, 4358126538795518), (17381820766, 0)]], 2, 2⟩, 72057594037927936, 29849214773677, 1097354264161, ⟨[], 0, 0⟩,
    0, 0, 0, lc0⟩ 1 1 31579852837)) (.sy (.sy (.out ⟨2729, 16, 12747, 30389, 16, 46065, ⟨[[(0, 3776573963468800), (0,
    1349328116169806), (997254869, 0)], [(35486262980615564, 0), (0, 751586499122), (0, 237487)], [(0,
    15857269282532), (0, 10339199), (0, 198)]], 2, 2⟩, ⟨[[(35908614701449216, 0), (0, 4360306990156117), (8682221198,
    0)]], 2, 2⟩, 72057594037927936, 37298832953136, 273516226865, ⟨[], 0, 0⟩, 0, 0, 0, lc0⟩ 1 1 25221558473) (.out
    ⟨2740, 16, 12843, 30420, 16, 46157, ⟨[[(2318883277570048, 0), (0, 1358497326660214), (972858077, 0)],
    [(35373314573561192, 0), (0, 757509619582), (0, 284369)], [(0, 15981973756021), (0, 10622326), (0, 210)]], 2, 2⟩,
    ⟨[[(0, 15523894163931136), (0, 4360294018136797), (8673525487, 0)]], 2, 2⟩, 72057594037927936, 37684808228540,
    272969351760, ⟨[], 0, 0⟩, 0, 0, 0, lc0⟩ 1 1 21272366276)) (.sx (.sy (.out ⟨4182, 16, 19708, 30450, 16, 46249,
    ⟨[[(20753222036226048, 0), (0, 2070975855424631), (1448084148, 0)], [(27107543311172931, 0), (0, 581268250540),
    (0, 249919)], [(0, 6182012928758), (0, 4415700), (0, 90)]], 2, 2⟩, ⟨[[(747023668609024, 0), (0,
    4360272419301043), (8664829982, 0)]], 2, 2⟩, 72057594037927936, 7742913636589, 272423463018, ⟨[], 0, 0⟩, 0, 0, 0,
    lc0⟩ 1 1 21112892626) (.out ⟨4193, 16, 19826, 30480, 16, 46341, ⟨[[(0, 12970653998252032), (0, 2081938461141420),
    (1405980561, 0)], [(26976237302588968, 0), (0, 585019091163), (0, 287657)], [(0, 6221280299845), (0, 4535003),
    (0, 95)]], 2, 2⟩, ⟨[[(12676792137547776, 0), (0, 4360242245284914), (8656134785, 0)]], 2, 2⟩, 72057594037927936,
    7821044321675, 271878695772, ⟨[], 0, 0⟩, 0, 0, 0, lc0⟩ 1 1 16692826554)) (.sy (.sy (.out ⟨5562, 16, 26087, 60900,
    16, 92475, ⟨[[(0, 33223786026106880), (0, 1387052603011334), (479915530, 0)], [(35296252552019584, 0), (0,
    384894506769), (0, 82080)], [(0, 8053663881661), (0, 2567226), (0, 26)]], 2, 2⟩, ⟨[[(4752548879138816, 0), (0,
    4361363365224965), (4334579995, 0)]], 2, 2⟩, 72057594037927936, 9514644548109, 68139975647, ⟨[], 0, 0⟩, 0, 0, 0,
    lc0⟩ 1 1 13865924371) (.out ⟨5573, 16, 26187, 60931, 16, 92568, ⟨[[(11503859041566720, 0), (0, 1391890225136986),
    (473216746, 0)], [(35237575657446814, 0), (0, 386455649799), (0, 88367)], [(0, 8085836456326), (0, 2603310), (0,
    26)]], 2, 2⟩, ⟨[[(0, 6320625206427648), (0, 4361396452003943), (4332451345, 0)]], 2, 2⟩, 72057594037927936,
    9564948627143, 68072656939, ⟨[], 0, 0⟩, 0, 0, 0, lc0⟩ 1 1 12088887740)) (.sy (.out ⟨5585, 16, 26287, 60961, 16,
    92660, ⟨[[(0, 20924050686279680), (0, 1396732840000095), (466355421, 0)], [(35177372561849941, 0), (0,
    388023500329), (0, 94767)], [(0, 8118032347783), (0, 2640241), (0, 27)]], 2, 2⟩, ⟨[[(5041372303196160, 0), (0,
    4361380237274088), (4330275866, 0)]], 2, 2⟩, 72057594037927936, 9615496210763, 68004640936, ⟨[], 0, 0⟩, 0, 0, 0,
    lc0⟩ 1 1 9870382340) (.leaf ⟨13729, 16, 26916, 3025, 16, 13771, ⟨[[(25063093842345984, 0), (0, 1429679184414637),
    (468538006, 0), (0, 5994)], [(35819629280790242, 0), (0, 397408763833), (0, 103313), (0, 4)], [(0,
    8313646257250), (0, 2731719), (0, 29)], [(1051643191, 0), (2894, 0)]], 3, 4⟩, ⟨[[(9256789532049408, 0), (0,
    935133030461372), (0, 279148769), (0, 7268)], [(0, 41929135896923106), (0, 70418096376), (0, 573040), (0, 6)],
    [(2847027674904, 0), (0, 26666), (0, 79)], [(0, 181345073), (1008, 0)]], 3, 4⟩, 72057594037927936, 13096738517,
    5295647714, ⟨[[(13451384982347, 0), (379835512, 0), (203917, 0), (168, 0)], [(431395339, 0), (6365, 0), (0, 40)],
    [(0, 32666), (4, 0)], [(3, 0)]], 3, 4⟩, 17592186044416, 22809,
    4489998428566582167966533096556709708012393102296098791569028730661845253156794898263380129817542572140054244549268108197621750,
    lc0⟩))))))
theorem c53 : checkR job con0 false ⟨7, 9, 7, 9, 13, 17⟩ 1 34400 t53 1041 21 2560 62745 251 64000 = true := by decide +kernel

def t54 : CTree :=
  .sx (.sy (.sy (.out ⟨2755, 16, 12598, 30268, 16, 45697, ⟨[[(14388664542789632, 0), (0, 1368942888833185),
    (1100811872, 0)], [(35267928064274066, 0), (0, 742900109854), (0, 78676)], [(0, 15167802147618), (0, 7167987),
    (0, 108)]], 2, 2⟩, ⟨[[(0, 18337993941319680), (0, 4360271566436150), (8717004029, 0)]], 2, 2⟩, 72057594037927936,
    35711838742945, 275714911838, ⟨[], 0, 0⟩, 0, 0, 0, lc0⟩ 1 1 27330197509) (.out ⟨2766, 16, 12692, 30298, 16,
    45789, ⟨[[(11049908800389120, 0), (0, 1378059051977317), (1078520562, 0)], [(35155337824336774, 0), (0,
    748543546755), (0, 120668)], [(0, 15284629943430), (0, 7334471), (0, 116)]], 2, 2⟩, ⟨[[(19834986320101376, 0),
    (0, 4360293624284680), (8708308534, 0)]], 2, 2⟩, 72057594037927936, 36075342001968, 275163693117, ⟨[], 0, 0⟩, 0,
    0, 0, lc0⟩ 1 1 22534838843)) (.sx (.sy (.out ⟨4208, 16, 19411, 30329, 16, 45881, ⟨[[(4288024396759040, 0), (0,
    2093934048606584), (1604337914, 0)], [(26842196576810493, 0), (0, 572391125056), (0, 122556)], [(0,
    5891947190622), (0, 3087248), (0, 53)]], 2, 2⟩, ⟨[[(0, 18456390340182016), (0, 4360306845646561), (8699612826,
    0)]], 2, 2⟩, 72057594037927936, 7386833141710, 274613365578, ⟨[], 0, 0⟩, 0, 0, 0, lc0⟩ 1 1 22227637046) (.out
    ⟨4218, 16, 19525, 30359, 16, 45973, ⟨[[(7600474542178304, 0), (0, 2104635639383080), (1565333103, 0)],
    [(26710777965462540, 0), (0, 575893124481), (0, 156471)], [(0, 5928122906663), (0, 3160323), (0, 56)]], 2, 2⟩,
    ⟨[[(10916292110319616, 0), (0, 4360311283412425), (8690917012, 0)]], 2, 2⟩, 72057594037927936, 7459956585609,
    274064324148, ⟨[], 0, 0⟩, 0, 0, 0, lc0⟩ 1 1 17717155366)) (.sy (.sy (.out ⟨5612, 16, 25768, 60657, 16, 91739,
    ⟨[[(0, 25013056925597696), (0, 1406070825816958), (534751971, 0)], [(35076443591947197, 0), (0, 380061622424),
    (0, 39279)], [(0, 7697987271312), (0, 1727423), (0, 14)]], 2, 2⟩, ⟨[[(34039277962657792, 0), (0,
    4361397817357613), (4351984475, 0)]], 2, 2⟩, 72057594037927936, 9102521558582, 68687715675, ⟨[], 0, 0⟩, 0, 0, 0,
    lc0⟩ 1 1 14971077210) (.out ⟨5623, 16, 25866, 60687, 16, 91830, ⟨[[(11812866086993920, 0), (0, 1410883501891070),
    (528628416, 0)], [(35018318215724276, 0), (0, 381549390721), (0, 44906)], [(0, 7728137997665), (0, 1748150), (0,
    14)]], 2, 2⟩, ⟨[[(17437678321008640, 0), (0, 4361353639608497), (4349761525, 0)]], 2, 2⟩, 72057594037927936,
    9149893911533, 68618581792, ⟨[], 0, 0⟩, 0, 0, 0, lc0⟩ 1 1 13044014862)) (.sy (.out ⟨5635, 16, 25965, 60718, 16,
    91922, ⟨[[(0, 12881605467570176), (0, 1415754918758904), (522369148, 0)], [(34960065250274353, 0), (0,
    383057784668), (0, 50639)], [(0, 7758601414834), (0, 1769548), (0, 15)]], 2, 2⟩, ⟨[[(0, 25771903793233920), (0,
    4361354812200876), (4347586007, 0)]], 2, 2⟩, 72057594037927936, 9197849575403, 68549863583, ⟨[], 0, 0⟩, 0, 0, 0,
    lc0⟩ 1 1 10885117423) (.leaf ⟨13682, 16, 26585, 3070, 16, 13956, ⟨[[(0, 28502404187291648), (0,
    1449028052147616), (526264870, 0), (0, 5728)], [(35597951862398104, 0), (0, 392259494203), (0, 57608), (0, 4)],
    [(0, 7944777020899), (0, 1827374), (0, 16)], [(1005880723, 0), (2659, 0)]], 3, 4⟩, ⟨[[(0, 28898131815727104), (0,
    951385593829218), (0, 243364485), (0, 6924)], [(0, 41734203585064058), (0, 66847115468), (0, 527520), (0, 5)],
    [(2837875709573, 0), (814254, 0), (0, 68)], [(0, 179593317), (918, 0)]], 3, 4⟩, 72057594037927936, 12724177639,
    4811570261, ⟨[[(13505747850075, 0), (377336059, 0), (195897, 0), (156, 0)], [(428766823, 0), (7008, 0), (0, 38)],
    [(0, 32427), (4, 0)], [(3, 0)]], 3, 4⟩, 17592186044416, 21592,
    4703963191813244330120061889957913206023239416360838613805276752821391325119186731049703892585812607789929046620928194916652497,
    lc0⟩))))) (.sy (.sx (.sy (.out ⟨4251, 16, 19332, 30268, 16, 45697, ⟨[[(19819920370171904, 0), (0,
    2136603037584281), (1685280632, 0)], [(26335295077264942, 0), (0, 570304646499), (0, 64633)], [(0,
    5682135184764), (0, 2069141), (0, 26)]], 2, 2⟩, ⟨[[(0, 18337993941319680), (0, 4360271566436150), (8717004029,
    0)]], 2, 2⟩, 72057594037927936, 7181183804566, 275714911838, ⟨[], 0, 0⟩, 0, 0, 0, lc0⟩ 1 1 15240499056) (.sy
    (.out ⟨5658, 16, 25797, 60597, 16, 91555, ⟨[[(6638378239328256, 0), (0, 1424724879518543), (550127321, 0)],
    [(34855794420291706, 0), (0, 380551298451), (0, 29517)], [(0, 7583397292970), (0, 1394236), (0, 9)]], 2, 2⟩,
    ⟨[[(0, 34595127573348352), (0, 4361384586053510), (4356335593, 0)]], 2, 2⟩, 72057594037927936, 8993160391359,
    68825531934, ⟨[], 0, 0⟩, 0, 0, 0, lc0⟩ 1 1 11804549289) (.leaf ⟨13654, 16, 26413, 3092, 16, 14048,
    ⟨[[(8190053276975104, 0), (0, 1458184200393063), (554891783, 0), (0, 5591)], [(35492500520580645, 0), (0,
    389671487787), (0, 35729), (0, 4)], [(0, 7765198391793), (0, 1437423), (0, 10)], [(983489584, 0), (2541, 0)]], 3,
    4⟩, ⟨[[(12198916244897792, 0), (0, 959493215993342), (0, 225393264), (0, 6754)], [(0, 41637473861138743), (0,
    65122453654), (0, 505166), (0, 5)], [(2831900240791, 0), (1197641, 0), (0, 63)], [(0, 178807037), (871, 0)]], 3,
    4⟩, 72057594037927936, 12588758403, 4568407426, ⟨[[(13532408011762, 0), (375977758, 0), (191857, 0), (150, 0)],
    [(427626409, 0), (7335, 0), (0, 37)], [(0, 32340), (4, 0)], [(3, 0)]], 3, 4⟩, 17592186044416, 23363,
    4922167235360798578615041169929057917351755708461391942020385186886785064136497343121379577384179301919151926073707836972582786,
    lc0⟩))) (.leaf ⟨6852, 16, 13220, 1871, 16, 8541, ⟨[[(709089618427904, 0), (0, 2953808073199725), (4534587845, 0),
    (0, 180921), (0, 4)], [(17587406959609167, 0), (0, 780257114351), (0, 225283), (0, 117)], [(0, 3824460025747),
    (0, 2216451), (0, 47)], [(485999615, 0), (5028, 0)]], 3, 4⟩, ⟨[[(28640227078438912, 0), (0, 2339208648770414),
    (0, 2248688811), (0, 264840), (0, 8)], [(0, 25141391257913865), (0, 156270371187), (0, 4852382), (0, 197)],
    [(1707579839431, 0), (3404548, 0), (0, 579)], [(0, 106913865), (2124, 0)]], 3, 4⟩, 72057594037927936, 7277284606,
    4728811964, ⟨[[(13542298657772, 0), (609823467, 0), (498405, 0), (615, 0), (1, 0)], [(849510149, 0), (28395, 0),
    (0, 185), (0, 1)], [(0, 128129), (22, 0)], [(22, 0)]], 3, 4⟩, 17592186044416, 61646,
    4316937537850479932308576697141379819725791100361711983305975884457167606783590733200804286905100896490341566782110724595026164,
    lc0⟩)) (.leaf ⟨5150, 16, 9973, 1257, 16, 5766, ⟨[[(0, 17384571870576640), (0, 2212620386042964), (3216904905, 0),
    (0, 140943), (0, 3)], [(26187752698437486, 0), (0, 1177554026266), (0, 606601), (0, 183)], [(0, 11637024912526),
    (0, 7848496), (0, 225)], [(2964546431, 0), (31689, 0), (1, 0)]], 3, 4⟩, ⟨[[(24208549089820672, 0), (0,
    1578566513145180), (0, 1723083378), (0, 187464), (0, 6)], [(0, 34150451639888079), (0, 217932543576), (0,
    6926815), (0, 277)], [(4633433411585, 0), (7197580, 0), (0, 1665)], [(0, 577348797), (12433, 0), (1, 0)]], 3, 4⟩,
    72057594037927936, 75940271329, 30117493635, ⟨[[(13515282905760, 0), (889013752, 0), (1067861, 0), (1900, 0), (6,
    0)], [(1134384801, 0), (59947, 0), (0, 510), (0, 2)], [(0, 228414), (58, 0)], [(52, 0)]], 3, 4⟩, 17592186044416,
    79867,
    4048801741006430005757159113256201006111148024984760775238654128665705085366374718705466896969335371415426122382377759424734244,
    lc0⟩))
theorem c54 : checkR job con0 false ⟨7, 9, 7, 9, 13, 17⟩ 1 34400 t54 1083 21 2560 125239 251 128000 = true := by decide +kernel

def t55 : CTree :=
  .sx (.sy (.sx (.sy (.sy (.out ⟨5587, 16, 25929, 60779, 16, 92107, ⟨[[(102851409477632, 0), (0, 1396693873706324),
    (507385530, 0)], [(35183668756447299, 0), (0, 382474649263), (0, 60379)], [(0, 7874077387286), (0, 2127243), (0,
    20)]], 2, 2⟩, ⟨[[(844848238690304, 0), (0, 4361397961980042), (4343282132, 0)]], 2, 2⟩, 72057594037927936,
    9306967147942, 68413566714, ⟨[], 0, 0⟩, 0, 0, 0, lc0⟩ 1 1 14510095397) (.out ⟨5599, 16, 26028, 60809, 16, 92199,
    ⟨[[(0, 31157303512989696), (0, 1401519440315055), (500972954, 0)], [(35125253065808372, 0), (0, 383998702019),
    (0, 66332)], [(0, 7905218492996), (0, 2155341), (0, 20)]], 2, 2⟩, ⟨[[(23105059429548032, 0), (0,
    4361392553509241), (4341106563, 0)]], 2, 2⟩, 72057594037927936, 9355783603326, 68345161794, ⟨[], 0, 0⟩, 0, 0, 0,
    lc0⟩ 1 1 12177162331)) (.sy (.out ⟨5610, 16, 26128, 60840, 16, 92291, ⟨[[(20012892938371072, 0), (0,
    1406403439270602), (494420061, 0)], [(35066679629793298, 0), (0, 385543795425), (0, 72397)], [(0, 7936681761224),
    (0, 2184243), (0, 21)]], 2, 2⟩, ⟨[[(0, 28873758476861440), (0, 4361384980236335), (4338931012, 0)]], 2, 2⟩,
    72057594037927936, 9405216191069, 68276720771, ⟨[], 0, 0⟩, 0, 0, 0, lc0⟩ 1 1 10507772405) (.leaf ⟨13707, 16,
    26753, 3047, 16, 13864, ⟨[[(0, 11315777542029312), (0, 1439541718374721), (497467512, 0), (0, 5863)],
    [(35707307233426773, 0), (0, 394843711540), (0, 80145), (0, 4)], [(0, 8127660870544), (0, 2258193), (0, 22)],
    [(1028614997, 0), (2777, 0)]], 3, 4⟩, ⟨[[(23464336816144384, 0), (0, 943288787360522), (0, 261292087), (0,
    7096)], [(0, 41832449649127625), (0, 68614514451), (0, 550170), (0, 5)], [(2842999739391, 0), (406438, 0), (0,
    74)], [(0, 180439374), (964, 0)]], 3, 4⟩, 72057594037927936, 12859225007, 5066392635, ⟨[[(13478392657912, 0),
    (378317858, 0), (199558, 0), (161, 0)], [(430023086, 0), (6741, 0), (0, 39)], [(0, 32539), (4, 0)], [(3, 0)]], 3,
    4⟩, 17592186044416, 21783,
    4559591679997085079467071341002617446761999205187033673553160478389787005302422804932230576227510918934568298710353698660485159,
    lc0⟩))) (.leaf ⟨6923, 16, 13477, 1856, 16, 8485, ⟨[[(0, 2548817710612480), (0, 2935658032978243), (4091120107,
    0), (0, 191200), (0, 4)], [(17796416676296143, 0), (0, 795738521635), (0, 586381), (0, 128)], [(0,
    4028700820082), (0, 3789032), (0, 138)], [(511636995, 0), (5546, 0)]], 3, 4⟩, ⟨[[(13262097029382144, 0), (0,
    2315268291964531), (0, 2626037468), (0, 280234), (0, 9)], [(0, 25425171207826795), (0, 165848551241), (0,
    5327045), (0, 210)], [(1725933285797, 0), (1557631, 0), (0, 682)], [(0, 108466971), (2375, 0)]], 3, 4⟩,
    72057594037927936, 8290645128, 4764140121, ⟨[[(13488311921721, 0), (609381762, 0), (511378, 0), (646, 0), (1,
    0)], [(848819435, 0), (26235, 0), (0, 189), (0, 1)], [(0, 127266), (24, 0)], [(22, 0)]], 3, 4⟩, 17592186044416,
    67670,
    3850523604965111847070760769815703680903631013078476653705407451533680732223997881325849472237548264250946577873597091407058504,
    lc0⟩)) (.leaf ⟨5187, 16, 10134, 1243, 16, 5707, ⟨[[(0, 35403565532315648), (0, 2191908294739354), (2867136919,
    0), (0, 148312), (0, 3)], [(26418572455665935, 0), (0, 1197480945756), (0, 1168841), (0, 201)], [(0,
    12221068927754), (0, 12938350), (0, 519)], [(3111324088, 0), (34764, 0), (2, 0)]], 3, 4⟩, ⟨[[(0,
    27441516203360256), (0, 1556744694135466), (0, 1979560885), (0, 197485), (0, 6)], [(0, 34413450285424530), (0,
    230554590538), (0, 7560827), (0, 294)], [(4663352146730, 0), (1870922, 0), (0, 1954)], [(0, 583456225), (13775,
    0), (1, 0)]], 3, 4⟩, 72057594037927936, 78841054269, 32807622450, ⟨[[(13462281049775, 0), (893051051, 0),
    (1107252, 0), (2030, 0), (6, 0)], [(1137034880, 0), (55329, 0), (0, 529), (0, 2)], [(0, 228309), (62, 0)], [(52,
    0)]], 3, 4⟩, 17592186044416, 79323,
    3864470879855974473599564641656825996568942429798138138030303955837749293788576815955497000053015313635539946683678388462633559,
    lc0⟩)) (.sy (.leaf ⟨5196, 16, 10092, 1243, 16, 5752, ⟨[[(0, 27422943562891264), (0, 2235863023964135),
    (3035531210, 0), (0, 149264), (0, 3)], [(25901866565595142, 0), (0, 1192363636923), (0, 899829), (0, 194)], [(0,
    11779928413953), (0, 8192516), (0, 271)], [(3016394278, 0), (33581, 0), (2, 0)]], 3, 4⟩, ⟨[[(22060685220577280,
    0), (0, 1576603856400444), (0, 2009499206), (0, 199008), (0, 6)], [(0, 34178446633494760), (0, 224552974765), (0,
    7335215), (0, 288)], [(4625363367067, 0), (5477865, 0), (0, 1730)], [(0, 569409290), (13654, 0), (1, 0)]], 3, 4⟩,
    72057594037927936, 77222981798, 30698815729, ⟨[[(13488289255333, 0), (867275302, 0), (1021071, 0), (1704, 0), (5,
    0)], [(1127247923, 0), (68159, 0), (0, 452), (0, 2)], [(0, 226007), (53, 0)], [(51, 0)]], 3, 4⟩, 17592186044416,
    81396,
    4405798454416535171768256562422035896718336938763615584361856945574962496719481032449633622890764250216608575110269200973993685,
    lc0⟩) (.leaf ⟨5243, 16, 10214, 1229, 16, 5736, ⟨[[(0, 23501685733457920), (0, 2259923325288728), (2839488037, 0),
    (0, 158060), (0, 4)], [(25608931476737691, 0), (0, 1207843074794), (0, 1213500), (0, 206)], [(0, 11926568646567),
    (0, 8589430), (0, 319)], [(3070322028, 0), (35602, 0), (2, 0)]], 3, 4⟩, ⟨[[(0, 8123339017519104), (0,
    1574383394133208), (0, 2312155568), (0, 211001), (0, 6)], [(0, 34197666625773257), (0, 231492962986), (0,
    7757262), (0, 300)], [(4614798686140, 0), (3694305, 0), (0, 1798)], [(0, 560664120), (14926, 0), (1, 0)]], 3, 4⟩,
    72057594037927936, 78198528285, 32265734054, ⟨[[(13461576638563, 0), (847397022, 0), (982190, 0), (1530, 0), (5,
    0)], [(1120056189, 0), (74920, 0), (0, 406), (0, 1)], [(0, 223560), (50, 0)], [(51, 0)]], 3, 4⟩, 17592186044416,
    78508,
    4598540346273783549101983565916615242615756685729582372439859912195886038296739416005842049605037094061474844751898871122669661,
    lc0⟩))
theorem c55 : checkR job con0 false ⟨7, 9, 7, 9, 13, 17⟩ 1 34400 t55 1083 21 2560 125741 251 128000 = true := by decide +kernel

def t56 : CTree :=
  .sx (.sy (.out ⟨2818, 16, 13498, 15255, 16, 23228, ⟨[[(20511412869300224, 0), (0, 2765141205986312), (3692064149,
    0)], [(18789389871255851, 0), (0, 796040773221), (0, 884110)], [(0, 4374150080486), (0, 7847501), (0, 338)]], 2,
    2⟩, ⟨[[(7433965734068224, 0), (0, 4358023394906832), (17277631554, 0)]], 2, 2⟩, 72057594037927936, 8012311829509,
    1084257511968, ⟨[], 0, 0⟩, 0, 0, 0, lc0⟩ 1 1 26913006833) (.sy (.out ⟨4154, 16, 19998, 30572, 16, 46619,
    ⟨[[(3093019473477632, 0), (0, 2046349488546313), (1290626518, 0)], [(27393241982852261, 0), (0, 590224163676),
    (0, 384592)], [(0, 6484984125696), (0, 6007339), (0, 133)]], 2, 2⟩, ⟨[[(0, 27059291783168000), (0,
    4360287844448392), (8630422298, 0)]], 2, 2⟩, 72057594037927936, 8109509855846, 270262647485, ⟨[], 0, 0⟩, 0, 0, 0,
    lc0⟩ 1 1 20928631549) (.out ⟨4165, 16, 20119, 30602, 16, 46712, ⟨[[(0, 11571103571443712), (0, 2057454026655945),
    (1245420183, 0)], [(27260801595534220, 0), (0, 594203550875), (0, 426324)], [(0, 6527290221809), (0, 6180374),
    (0, 139)]], 2, 2⟩, ⟨[[(14747954855542784, 0), (0, 4360316853435219), (8621912805, 0)]], 2, 2⟩, 72057594037927936,
    8192285504684, 269728118060, ⟨[], 0, 0⟩, 0, 0, 0, lc0⟩ 1 1 16741751119))) (.sy (.sy (.out ⟨4168, 16, 19854,
    30511, 16, 46434, ⟨[[(35597828945346560, 0), (0, 2058881236234189), (1369438089, 0)], [(27247856346599680, 0),
    (0, 585740780765), (0, 316379)], [(0, 6331872909868), (0, 5177139), (0, 111)]], 2, 2⟩, ⟨[[(0, 4431479653269504),
    (0, 4360297450535513), (8647626231, 0)]], 2, 2⟩, 72057594037927936, 7925008351356, 271340957142, ⟨[], 0, 0⟩, 0,
    0, 0, lc0⟩ 1 1 21027066060) (.out ⟨4179, 16, 19973, 30541, 16, 46526, ⟨[[(3907754887610368, 0), (0,
    2069864468627235), (1325737651, 0)], [(27115285654256780, 0), (0, 589590024048), (0, 356084)], [(0,
    6372467519921), (0, 5322176), (0, 116)]], 2, 2⟩, ⟨[[(0, 1192255576080384), (0, 4360250093134189), (8638931396,
    0)]], 2, 2⟩, 72057594037927936, 8005246024693, 270798325010, ⟨[], 0, 0⟩, 0, 0, 0, lc0⟩ 1 1 16791381257)) (.sx
    (.sy (.out ⟨5674, 16, 27235, 30572, 16, 46619, ⟨[[(0, 34509318866665472), (0, 2812223306435169), (1741012275,
    0)], [(18376679461353911, 0), (0, 402157805303), (0, 267390)], [(0, 2181914654648), (0, 1902658), (0, 42)]], 2,
    2⟩, ⟨[[(0, 27059291783168000), (0, 4360287844448392), (8630422298, 0)]], 2, 2⟩, 72057594037927936, 2046246324568,
    270262647485, ⟨[], 0, 0⟩, 0, 0, 0, lc0⟩ 1 1 14787720047) (.sy (.out ⟨8401, 16, 40433, 61204, 16, 93400,
    ⟨[[(5991325496246272, 0), (0, 2086551348921758), (625785692, 0)], [(27057119579261818, 0), (0, 298676203368), (0,
    106706)], [(0, 3240336463288), (0, 1436268), (0, 16)]], 2, 2⟩, ⟨[[(0, 9035883008229376), (0, 4361361067024723),
    (4313059118, 0)]], 2, 2⟩, 72057594037927936, 2039511138016, 67465077610, ⟨[], 0, 0⟩, 0, 0, 0, lc0⟩ 1 1
    12002599533) (.out ⟨8412, 16, 40556, 61234, 16, 93493, ⟨[[(4432468817739776, 0), (0, 2092275510784030),
    (613863783, 0)], [(26989010255872835, 0), (0, 299694791763), (0, 112092)], [(0, 3250921094673), (0, 1457035), (0,
    16)]], 2, 2⟩, ⟨[[(30057030492880896, 0), (0, 4361372352452921), (4310930159, 0)]], 2, 2⟩, 72057594037927936,
    2050051383305, 67398608293, ⟨[], 0, 0⟩, 0, 0, 0, lc0⟩ 1 1 10020368564))) (.sy (.sy (.out ⟨8415, 16, 40284, 61143,
    16, 93215, ⟨[[(0, 6746237566058496), (0, 2092633399878678), (646413884, 0)], [(26986078858303522, 0), (0,
    297486625164), (0, 97690)], [(0, 3201483634342), (0, 1328846), (0, 15)]], 2, 2⟩, ⟨[[(25539297883455488, 0), (0,
    4361378755150155), (4317363237, 0)]], 2, 2⟩, 72057594037927936, 2015934795895, 67599458500, ⟨[], 0, 0⟩, 0, 0, 0,
    lc0⟩ 1 1 11783722637) (.out ⟨8426, 16, 40406, 61174, 16, 93308, ⟨[[(0, 16547426809675776), (0, 2098326824023931),
    (634693089, 0)], [(26917990470626947, 0), (0, 298488424230), (0, 102943)], [(0, 3211852158846), (0, 1347813), (0,
    15)]], 2, 2⟩, ⟨[[(0, 3073123844358144), (0, 4361394349198978), (4315234288, 0)]], 2, 2⟩, 72057594037927936,
    2026295395576, 67532919594, ⟨[], 0, 0⟩, 0, 0, 0, lc0⟩ 1 1 9912961175)) (.leaf ⟨14111, 16, 27888, 3681, 16, 16786,
    ⟨[[(0, 6213467180105728), (0, 2895209497792383), (1694806460, 0), (0, 51281), (0, 1)], [(18423479043770365, 0),
    (0, 412251972602), (0, 305019), (0, 19)], [(0, 2217509200297), (0, 1892234), (0, 43)], [(140185864, 0), (798,
    0)]], 3, 4⟩, ⟨[[(0, 32653150659674112), (0, 2272222222992621), (0, 1559041825), (0, 75292), (0, 1)], [(0,
    25977970165042115), (0, 91251771110), (0, 1524554), (0, 29)], [(879373111530, 0), (0, 550922), (0, 112)], [(0,
    28197495), (337, 0)]], 3, 4⟩, 72057594037927936, 2744862039, 1160091952, ⟨[[(13401660434123, 0), (309328397, 0),
    (138455, 0), (95, 0)], [(423356638, 0), (4613, 0), (0, 26)], [(0, 31339), (3, 0)], [(3, 0)]], 3, 4⟩,
    17592186044416, 16823,
    3722210350301483770102238697740187380214749693793135929358830978763542006796337651777399755871422383949404198668401034768325284,
    lc0⟩))))
theorem c56 : checkR job con0 false ⟨7, 9, 7, 9, 13, 17⟩ 1 34400 t56 2061 21 5120 126243 251 128000 = true := by decide +kernel

def t57 : CTree :=
  .sy (.sx (.sx (.sy (.out ⟨5681, 16, 26983, 30511, 16, 46434, ⟨[[(25268629895970816, 0), (0, 2823249032297623),
    (1847474267, 0)], [(18246418113704332, 0), (0, 398244734656), (0, 219539)], [(0, 2125977462878), (0, 1621993),
    (0, 35)]], 2, 2⟩, ⟨[[(0, 4431479653269504), (0, 4360297450535513), (8647626231, 0)]], 2, 2⟩, 72057594037927936,
    1996290077353, 271340957142, ⟨[], 0, 0⟩, 0, 0, 0, lc0⟩ 1 1 14952442989) (.sy (.out ⟨8428, 16, 40133, 61083, 16,
    93030, ⟨[[(13479160839405568, 0), (0, 2098551512637397), (667006320, 0)], [(26915639671493172, 0), (0,
    296291747654), (0, 88789)], [(0, 3162975248395), (0, 1225942), (0, 13)]], 2, 2⟩, ⟨[[(0, 20620128449724416), (0,
    4361387880480803), (4321667435, 0)]], 2, 2⟩, 72057594037927936, 1992457959610, 67734257279, ⟨[], 0, 0⟩, 0, 0, 0,
    lc0⟩ 1 1 11939793082) (.out ⟨8439, 16, 40254, 61113, 16, 93122, ⟨[[(0, 4596654233878528), (0, 2104213678894765),
    (655488347, 0)], [(26847579908459407, 0), (0, 297276904891), (0, 93910)], [(0, 3173132203946), (0, 1243173), (0,
    14)]], 2, 2⟩, ⟨[[(0, 20098613888679936), (0, 4361360973905932), (4319492137, 0)]], 2, 2⟩, 72057594037927936,
    2002665418062, 67666785234, ⟨[], 0, 0⟩, 0, 0, 0, lc0⟩ 1 1 9935665562))) (.sy (.sy (.out ⟨8441, 16, 39982, 61022,
    16, 92845, ⟨[[(24516797251190784, 0), (0, 2104409117817140), (687585085, 0)], [(26847099846430744, 0), (0,
    295106448411), (0, 80011)], [(0, 3124962859947), (0, 1127517), (0, 12)]], 2, 2⟩, ⟨[[(0, 3424896865009664), (0,
    4361388391722541), (4325971662, 0)]], 2, 2⟩, 72057594037927936, 1969183180730, 67869112472, ⟨[], 0, 0⟩, 0, 0, 0,
    lc0⟩ 1 1 11960073997) (.out ⟨8452, 16, 40102, 61052, 16, 92937, ⟨[[(0, 1918579102580736), (0, 2110039483203968),
    (676270803, 0)], [(26779068716862818, 0), (0, 296075118635), (0, 85001)], [(0, 3134912727149), (0, 1143080), (0,
    12)]], 2, 2⟩, ⟨[[(1427798042345472, 0), (0, 4361365751982641), (4323796286, 0)]], 2, 2⟩, 72057594037927936,
    1979233386589, 67801424671, ⟨[], 0, 0⟩, 0, 0, 0, lc0⟩ 1 1 9884987046)) (.leaf ⟨14041, 16, 27629, 3695, 16, 16845,
    ⟨[[(28410964495695872, 0), (0, 2906117597290599), (1807632618, 0), (0, 50072), (0, 1)], [(18296289088077227, 0),
    (0, 408156511904), (0, 254168), (0, 18)], [(0, 2160452829315), (0, 1600965), (0, 35)], [(136669600, 0), (766,
    0)]], 3, 4⟩, ⟨[[(2531421677387776, 0), (0, 2284734426424896), (0, 1465968977), (0, 73327), (0, 1)], [(0,
    25831125327524742), (0, 88636085386), (0, 1462127), (0, 28)], [(875780910600, 0), (0, 252545), (0, 104)], [(0,
    27941996), (324, 0)]], 3, 4⟩, 72057594037927936, 2695284163, 1032236308, ⟨[[(13427958455003, 0), (308829965, 0),
    (136182, 0), (92, 0)], [(423462446, 0), (5001, 0), (0, 26)], [(0, 31429), (3, 0)], [(3, 0)]], 3, 4⟩,
    17592186044416, 14148,
    3668035050696515568621981959240826398862085223346567925419068646522796140794480156462395069649314524946825532949127112687471328,
    lc0⟩))) (.leaf ⟨6994, 16, 13736, 1841, 16, 8427, ⟨[[(0, 16257864022753280), (0, 2916081443612687), (3638846393,
    0), (0, 201351), (0, 4)], [(18025162562796090, 0), (0, 811806120864), (0, 974281), (0, 141)], [(0,
    4244462977569), (0, 5726779), (0, 247)], [(538562837, 0), (6073, 0)]], 3, 4⟩, ⟨[[(15928329918005248, 0), (0,
    2290774448008123), (0, 3006356650), (0, 295945), (0, 9)], [(0, 25712675987913826), (0, 175951694576), (0,
    5818544), (0, 224)], [(1742107035302, 0), (0, 560066), (0, 799)], [(0, 110174234), (2619, 0)]], 3, 4⟩,
    72057594037927936, 9201959879, 4588350067, ⟨[[(13434749832662, 0), (609616957, 0), (525603, 0), (680, 0), (1,
    0)], [(848203317, 0), (23813, 0), (0, 193), (0, 1)], [(0, 126479), (25, 0)], [(22, 0)]], 3, 4⟩, 17592186044416,
    74112,
    3668222783668829172189721114705319353846752811885306683841554248329043595828041517134118777696872312953823012862602213686493094,
    lc0⟩)) (.leaf ⟨5221, 16, 10292, 1228, 16, 5646, ⟨[[(11549033106898944, 0), (0, 2169527917206660), (2512769213,
    0), (0, 155456), (0, 3)], [(26668809494786514, 0), (0, 1217765649179), (0, 1767512), (0, 220)], [(0,
    12832380470495), (0, 19136078), (0, 861)], [(3263780454, 0), (37849, 0), (2, 0)]], 3, 4⟩, ⟨[[(0,
    4039162805272576), (0, 1534409955311186), (0, 2235787530), (0, 207600), (0, 6)], [(0, 34673007609528850), (0,
    243746609403), (0, 8210462), (0, 311)], [(4685953655295, 0), (0, 4176360), (0, 2277)], [(0, 590335295), (15056,
    0), (1, 0)]], 3, 4⟩, 72057594037927936, 81620633285, 37032538026, ⟨[[(13407774137754, 0), (896310235, 0),
    (1145671, 0), (2156, 0), (7, 0)], [(1140578965, 0), (50963, 0), (0, 548), (0, 2)], [(0, 228689), (66, 0)], [(53,
    0)]], 3, 4⟩, 17592186044416, 85420,
    3831276150429871751749373682787183555092478654399548809974334224206323192754529742987219042434350412528968859692331382803872734,
    lc0⟩)
theorem c57 : checkR job con0 false ⟨7, 9, 7, 9, 13, 17⟩ 1 34400 t57 2103 21 5120 126243 251 128000 = true := by decide +kernel

def t58 : CTree :=
  .sx (.sx (.sy (.sx (.sy (.out ⟨5665, 16, 27487, 30633, 16, 46805, ⟨[[(9561136617684992, 0), (0, 2800736072715798),
    (1634130482, 0)], [(18512165707873195, 0), (0, 406121096264), (0, 316663)], [(0, 2239356326681), (0, 2209200),
    (0, 50)]], 2, 2⟩, ⟨[[(0, 19872663603511296), (0, 4360337171862115), (8613403022, 0)]], 2, 2⟩, 72057594037927936,
    2096533075382, 269194574397, ⟨[], 0, 0⟩, 0, 0, 0, lc0⟩ 1 1 15228265982) (.out ⟨5670, 16, 27605, 30663, 16, 46897,
    ⟨[[(0, 9879359973163008), (0, 2811149488246094), (1565691594, 0)], [(18386806794945274, 0), (0, 408197942609),
    (0, 346213)], [(0, 2250096410485), (0, 2270340), (0, 52)]], 2, 2⟩, ⟨[[(0, 33906178291400704), (0,
    4360255876033724), (8604709571, 0)]], 2, 2⟩, 72057594037927936, 2127040289719, 268656216048, ⟨[], 0, 0⟩, 0, 0, 0,
    lc0⟩ 1 1 11508233046)) (.sy (.sy (.out ⟨8387, 16, 40582, 61265, 16, 93586, ⟨[[(9932217732431872, 0), (0,
    2080409697011457), (605164021, 0)], [(27130144284358376, 0), (0, 299875128903), (0, 115839)], [(0,
    3279700150208), (0, 1548375), (0, 18)]], 2, 2⟩, ⟨[[(0, 5090635095736320), (0, 4361381470019906), (4308801169,
    0)]], 2, 2⟩, 72057594037927936, 2063301290463, 67331475965, ⟨[], 0, 0⟩, 0, 0, 0, lc0⟩ 1 1 12150312319) (.out
    ⟨8398, 16, 40705, 61295, 16, 93679, ⟨[[(1665234752372736, 0), (0, 2086112785654579), (593027629, 0)],
    [(27061349758025039, 0), (0, 300903264276), (0, 121357)], [(0, 3290424715132), (0, 1570974), (0, 18)]], 2, 2⟩,
    ⟨[[(29639554633826304, 0), (0, 4361388426155125), (4306672156, 0)]], 2, 2⟩, 72057594037927936, 2073931649049,
    67264963354, ⟨[], 0, 0⟩, 0, 0, 0, lc0⟩ 1 1 10187077315)) (.leaf ⟨14180, 16, 28148, 3666, 16, 16727,
    ⟨[[(26440531162693632, 0), (0, 2883931352068627), (1581569377, 0), (0, 52468), (0, 1)], [(18556519252832866, 0),
    (0, 416417424387), (0, 357419), (0, 19)], [(0, 2276193648224), (0, 2210728), (0, 51)], [(143781795, 0), (830,
    0)]], 3, 4⟩, ⟨[[(29575500336955392, 0), (0, 2259690760823330), (0, 1652444156), (0, 77281), (0, 1)], [(0,
    26127213554230159), (0, 93931496800), (0, 1587806), (0, 30)], [(882700062466, 0), (0, 868415), (0, 121)], [(0,
    28473328), (351, 0)]], 3, 4⟩, 72057594037927936, 2718024231, 1349554788, ⟨[[(13374661246211, 0), (309565447, 0),
    (140503, 0), (97, 0)], [(423317240, 0), (4261, 0), (0, 27)], [(0, 31266), (4, 0)], [(3, 0)]], 3, 4⟩,
    17592186044416, 15175,
    3851238748672041034656051535828945040520078666445834273517007782738643169931055297468953639933363328683937549024969606252794393,
    lc0⟩))) (.leaf ⟨7098, 16, 14125, 1819, 16, 8337, ⟨[[(6071366390251520, 0), (0, 2883294478567195), (2949604497,
    0), (0, 216030), (0, 5)], [(18405062109981285, 0), (0, 836804916026), (0, 1604609), (0, 161)], [(0,
    4590570260243), (0, 9409876), (0, 444)], [(581232261, 0), (6861, 0)]], 3, 4⟩, ⟨[[(30891671551344640, 0), (0,
    2253127667879425), (0, 3581392926), (0, 320091), (0, 10)], [(0, 26152808129042621), (0, 192047695591), (0,
    6581878), (0, 244)], [(1761918809228, 0), (0, 4291850), (0, 1001)], [(0, 113196697), (2956, 0)]], 3, 4⟩,
    72057594037927936, 8717940369, 5652072397, ⟨[[(13354649727261, 0), (611633369, 0), (550532, 0), (742, 0), (2,
    0)], [(847845491, 0), (19482, 0), (0, 204), (0, 1)], [(0, 125532), (28, 0)], [(22, 0)]], 3, 4⟩, 17592186044416,
    72366,
    3944698697073359144863601808922343921487950190033175648730873409471780859457577598471202007769681938016783034882292403389025507,
    lc0⟩)) (.leaf ⟨4274, 16, 8480, 1202, 16, 5532, ⟨[[(0, 11445591559372800), (0, 3506000817820565), (7318062476, 0),
    (0, 1046810), (0, 46)], [(10946041766164663, 0), (0, 1004711468735), (0, 3648660), (0, 763)], [(0,
    2710950281733), (0, 10012709), (0, 940)], [(344394186, 0), (8175, 0), (1, 0)]], 3, 4⟩, ⟨[[(29995389767565312, 0),
    (0, 2998341780537167), (0, 9593686503), (0, 1701295), (0, 103)], [(0, 17224065617491544), (0, 250944424861), (0,
    17202288), (0, 1280)], [(1160390073220, 0), (0, 4551506), (0, 2513)], [(0, 73638645), (3940, 0), (1, 0)]], 3, 4⟩,
    72057594037927936, 9414846382, 12991209822, ⟨[[(13367935875211, 0), (910191930, 0), (1204479, 0), (2338, 0), (8,
    0)], [(1403175917, 0), (59092, 0), (0, 709), (0, 3)], [(0, 345053), (106, 0), (1, 0)], [(99, 0)]], 3, 4⟩,
    17592186044416, 102765,
    3777490024529958410968043587302731548795825263253507606844293787217847687428508627454119583909504647846403941494236034804481468,
    lc0⟩)) (.sx (.leaf ⟨4258, 16, 8436, 1192, 16, 5529, ⟨[[(0, 3827457145831424), (0, 3529805200808963), (7126046487,
    0), (0, 1073414), (0, 47)], [(10664514950186101, 0), (0, 1000291819296), (0, 3704479), (0, 767)], [(0,
    2653934416946), (0, 8929290), (0, 844)], [(339139474, 0), (8239, 0), (1, 0)]], 3, 4⟩, ⟨[[(0, 17393283606740992),
    (0, 3007257461218501), (0, 10314966014), (0, 1754338), (0, 105)], [(0, 17117691227452681), (0, 251169289165), (0,
    17400182), (0, 1291)], [(1150607343957, 0), (0, 4041200), (0, 2422)], [(0, 71703740), (4121, 0), (1, 0)]], 3, 4⟩,
    72057594037927936, 10174836748, 13458015616, ⟨[[(13368220842648, 0), (889179772, 0), (1140145, 0), (2050, 0), (7,
    0)], [(1405571677, 0), (73231, 0), (0, 631), (0, 2)], [(0, 347755), (97, 0)], [(100, 0)]], 3, 4⟩, 17592186044416,
    113193,
    4130089648152946468010701174521211326743210203080721652322781018831200805252083127085836750346137201651490116254887707045540347,
    lc0⟩) (.leaf ⟨4242, 16, 8392, 1181, 16, 5525, ⟨[[(0, 10245155339829248), (0, 3553202838635234), (6932674450, 0),
    (0, 1099991), (0, 48)], [(10388903180882886, 0), (0, 995777146624), (0, 3751852), (0, 770)], [(0, 2597798719272),
    (0, 7843508), (0, 747)], [(333960598, 0), (8298, 0), (1, 0)]], 3, 4⟩, ⟨[[(0, 3286880939753472), (0,
    3015630129817101), (0, 11041999154), (0, 1807482), (0, 108)], [(0, 17009102117578508), (0, 251304690807), (0,
    17587118), (0, 1301)], [(1140863093337, 0), (0, 3508371), (0, 2330)], [(0, 69815235), (4292, 0), (1, 0)]], 3, 4⟩,
    72057594037927936, 10794967954, 13321000726, ⟨[[(13368069254376, 0), (867814668, 0), (1079960, 0), (1774, 0), (6,
    0)], [(1407768109, 0), (86925, 0), (0, 562), (0, 2)], [(0, 350456), (88, 0)], [(102, 0)]], 3, 4⟩, 17592186044416,
    81952,
    4247304934280828175099892438057121820016310110824459865783813007948283568509683238355721076159051254527458358341181080600982913,
    lc0⟩))
theorem c58 : checkR job con0 false ⟨7, 9, 7, 9, 13, 17⟩ 1 34400 t58 1041 21 2560 126745 251 128000 = true := by decide +kernel

def t59 : CTree :=
  .sy (.sx (.sy (.leaf ⟨5234, 16, 10256, 1228, 16, 5691, ⟨[[(0, 35798607213756416), (0, 2215497920215726),
    (2670438767, 0), (0, 157006), (0, 4)], [(26127920781512591, 0), (0, 1213240924711), (0, 1496501), (0, 213)], [(0,
    12374904795940), (0, 13649886), (0, 583)], [(3166847021, 0), (36811, 0), (2, 0)]], 3, 4⟩, ⟨[[(22572269543702528,
    0), (0, 1554514149131875), (0, 2279934926), (0, 209440), (0, 6)], [(0, 34434321059475261), (0, 237702939401), (0,
    7990864), (0, 306)], [(4650716731830, 0), (0, 132017), (0, 2032)], [(0, 574593967), (15065, 0), (1, 0)]], 3, 4⟩,
    72057594037927936, 79981206592, 34535607293, ⟨[[(13434718204120, 0), (869686935, 0), (1054712, 0), (1801, 0), (6,
    0)], [(1129754167, 0), (64400, 0), (0, 466), (0, 2)], [(0, 225956), (57, 0)], [(52, 0)]], 3, 4⟩, 17592186044416,
    83603,
    4377076905949479786884926553257943564931859537076489127792030071546972650138009203279624997312419693489640667627285321214954352,
    lc0⟩) (.leaf ⟨5282, 16, 10381, 1214, 16, 5675, ⟨[[(0, 23381038179680256), (0, 2239908542346869), (2458214909, 0),
    (0, 166189), (0, 4)], [(25829488258977061, 0), (0, 1229714089923), (0, 1846698), (0, 225)], [(0, 12532819448259),
    (0, 14438840), (0, 651)], [(3224581106, 0), (38997, 0), (2, 0)]], 3, 4⟩, ⟨[[(3766626003828736, 0), (0,
    1552587467311324), (0, 2597816657), (0, 221915), (0, 7)], [(0, 34458548917869922), (0, 245268794837), (0,
    8437533), (0, 318)], [(4637057613074, 0), (0, 2208891), (0, 2113)], [(0, 565090902), (16413, 0), (1, 0)]], 3, 4⟩,
    72057594037927936, 79860751768, 35087500536, ⟨[[(13407965131417, 0), (849203561, 0), (1013497, 0), (1607, 0), (5,
    0)], [(1122449532, 0), (71373, 0), (0, 419), (0, 1)], [(0, 223521), (53, 0)], [(51, 0)]], 3, 4⟩, 17592186044416,
    96612,
    4451163000892169306540954728975108907750719227263613629403690235253545140779891532343213136204788368168636135851363423280078045,
    lc0⟩)) (.leaf ⟨3490, 16, 6831, 891, 16, 4215, ⟨[[(32941093912346624, 0), (0, 3017466949210868), (6607909154, 0),
    (0, 904621), (0, 40)], [(16518158065661541, 0), (0, 1618504704261), (0, 4531550), (0, 1176)], [(0,
    7980800818083), (0, 12203116), (0, 1044)], [(2071966081, 0), (51079, 0), (5, 0)]], 3, 4⟩, ⟨[[(0,
    5584634348822528), (0, 2319477952634044), (0, 8262676770), (0, 1357648), (0, 81)], [(0, 25260981029639994), (0,
    358152537110), (0, 24857466), (0, 1878)], [(3392384214686, 0), (1325324, 0), (0, 5621)], [(0, 403164672), (25005,
    0), (4, 0)]], 3, 4⟩, 72057594037927936, 58670315250, 36303932276, ⟨[[(13420210604811, 0), (1107828770, 0),
    (1708722, 0), (3177, 0), (14, 0)], [(1689400217, 0), (173080, 0), (0, 984), (0, 4)], [(0, 510160), (140, 0), (1,
    0)], [(177, 0)]], 3, 4⟩, 17592186044416, 173373,
    4699040341547296389415791796556499052487030385592106257249915305419049319471940040742908535906723454015916270822640066678346536,
    lc0⟩)) (.leaf ⟨2663, 16, 5250, 591, 16, 2822, ⟨[[(0, 6222679502487552), (0, 2288327006973486), (4085995514, 0),
    (0, 739218), (0, 33)], [(24659280950586880, 0), (0, 2495244271909), (0, 9718292), (0, 1964)], [(0,
    24963017456293), (0, 51966294), (0, 5053), (0, 1)], [(13036262449, 0), (341677, 0), (32, 0)]], 3, 4⟩, ⟨[[(0,
    27073285718736896), (0, 1553785903873448), (0, 6595810550), (0, 993702), (0, 58)], [(0, 34266038957540145), (0,
    514640889580), (0, 36881760), (0, 2712)], [(9149431472723, 0), (0, 17105427), (0, 17136), (0, 1)], [(0,
    2140044947), (153149, 0), (25, 0)]], 3, 4⟩, 72057594037927936, 632451134967, 276154538636, ⟨[[(13368547449667,
    0), (1606454274, 0), (3700313, 0), (9327, 0), (67, 0)], [(2229984316, 0), (353739, 0), (0, 2726), (0, 13)], [(0,
    888784), (345, 0), (3, 0)], [(411, 0)]], 3, 4⟩, 17592186044416, 694542,
    5113553540120479937459189663534327918557027980878299605676038119915933616279103409543909921141031885950369570249515463688833376,
    lc0⟩)
theorem c59 : checkR job con0 false ⟨7, 9, 7, 9, 13, 17⟩ 1 34400 t59 1083 21 2560 63247 251 64000 = true := by decide +kernel

def t60 : CTree :=
  .sx (.sy (.sx (.leaf ⟨3560, 16, 7109, 889, 16, 4145, ⟨[[(0, 10893224823652352), (0, 2915935104316307), (4838423371,
    0), (0, 943421), (0, 41)], [(17697389373959262, 0), (0, 1690892234910), (0, 8053462), (0, 1390)], [(0,
    9182168997183), (0, 38863185), (0, 3811)], [(2350069312, 0), (59413, 0), (5, 0)]], 3, 4⟩, ⟨[[(4256058382614528,
    0), (0, 2250575650687900), (0, 8927375409), (0, 1415592), (0, 84)], [(0, 26079704673872652), (0, 402963615651),
    (0, 28612631), (0, 2069)], [(3482604925240, 0), (0, 22411616), (0, 8354)], [(0, 434564878), (27434, 0), (5, 0)]],
    3, 4⟩, 72057594037927936, 63788689557, 44129708958, ⟨[[(13315353432202, 0), (1164156725, 0), (1999801, 0), (4648,
    0), (22, 0)], [(1695460428, 0), (117710, 0), (0, 1304), (0, 6)], [(0, 505133), (186, 0), (1, 0)], [(177, 0)]], 3,
    4⟩, 17592186044416, 207071,
    4991306727410941346027173652640120639420947108404801195233785090007407148788679316089390297067713671440635928166518235865741203,
    lc0⟩) (.leaf ⟨3564, 16, 7097, 875, 16, 4151, ⟨[[(0, 6081124434313216), (0, 2981974610409205), (4486260314, 0),
    (0, 1000713), (0, 43)], [(16909850098798924, 0), (0, 1690979985572), (0, 8331448), (0, 1416)], [(0,
    8873962166363), (0, 31212863), (0, 3131)], [(2300219018, 0), (61058, 0), (6, 0)]], 3, 4⟩, ⟨[[(14983242482925568,
    0), (0, 2270819901168484), (0, 10158183241), (0, 1505483), (0, 87)], [(0, 25826753690648283), (0, 405282544762),
    (0, 29332235), (0, 2111)], [(3434333680784, 0), (0, 18830779), (0, 7777)], [(0, 411285083), (29838, 0), (5, 0)]],
    3, 4⟩, 72057594037927936, 64214581485, 42934211365, ⟨[[(13314960770194, 0), (1106013872, 0), (1799447, 0), (3403,
    0), (17, 0)], [(1686099149, 0), (156748, 0), (0, 1051), (0, 4)], [(0, 504063), (149, 0), (1, 0)], [(177, 0)]], 3,
    4⟩, 17592186044416, 151090,
    4036393577185870791463270256454202555198788016503611640912054754284125158011929493381816607521524314139368221845552655444102240,
    lc0⟩)) (.leaf ⟨2701, 16, 5417, 576, 16, 2756, ⟨[[(0, 13948773164417024), (0, 2245994792983806), (2390530768, 0),
    (0, 808310), (0, 35)], [(25089312596076715, 0), (0, 2593482762292), (0, 15876114), (0, 2337)], [(0,
    27594405574710), (0, 118388765), (0, 12187), (0, 1)], [(14378044710, 0), (402132, 0), (36, 0)]], 3, 4⟩, ⟨[[(0,
    28417297751982080), (0, 1509160971146335), (0, 7887430641), (0, 1089508), (0, 62)], [(0, 34766575683795517), (0,
    577879836009), (0, 42861209), (0, 3007)], [(9157382460134, 0), (0, 77394602), (0, 23382), (0, 1)], [(0,
    2164079625), (178548, 0), (27, 0)]], 3, 4⟩, 72057594037927936, 658023255122, 337790761948, ⟨[[(13263824625749,
    0), (1619866213, 0), (3979499, 0), (10256, 0), (81, 0)], [(2241388582, 0), (325264, 0), (0, 3059), (0, 13)], [(0,
    890728), (365, 0), (4, 0)], [(418, 0)]], 3, 4⟩, 17592186044416, 834841,
    4511493465326626114219201074010520698916283108293465250256952249141658952853338299894108405342953411573628225673316138923009399,
    lc0⟩)) (.sy (.leaf ⟨2713, 16, 5381, 576, 16, 2802, ⟨[[(2392503499096064, 0), (0, 2341811512649057), (2995192625,
    0), (0, 827219), (0, 36)], [(23987949916366827, 0), (0, 2569074704215), (0, 13129922), (0, 2198)], [(0,
    25614032114400), (0, 58972654), (0, 6208), (0, 1)], [(13545854136, 0), (384669, 0), (36, 0)]], 3, 4⟩, ⟨[[(0,
    24083533290684416), (0, 1550124840837060), (0, 8124366671), (0, 1107123), (0, 63)], [(0, 34289284549687138), (0,
    549852363621), (0, 40844738), (0, 2920)], [(9071651258382, 0), (0, 34806554), (0, 18511), (0, 1)], [(0,
    2042181937), (177814, 0), (27, 0)]], 3, 4⟩, 72057594037927936, 638118794451, 287590065015, ⟨[[(13315531932085,
    0), (1533231759, 0), (3529101, 0), (6998, 0), (55, 0)], [(2199890017, 0), (393413, 0), (0, 2506), (0, 6)], [(0,
    868625), (276, 0), (3, 0)], [(400, 0)]], 3, 4⟩, 17592186044416, 592638,
    4689870477756346353415501917682560670117146776406683514521155245138507948405279450622199328739997866931481212357882261843030826,
    lc0⟩) (.leaf ⟨2765, 16, 5518, 561, 16, 2781, ⟨[[(27826332813033472, 0), (0, 2399010504209104), (1736783654, 0),
    (0, 925133), (0, 40)], [(23272486795305841, 0), (0, 2649756527595), (0, 17012425), (0, 2460)], [(0,
    26298220351370), (0, 67430777), (0, 7507), (0, 1)], [(14098404424, 0), (433579, 0), (41, 0)]], 3, 4⟩, ⟨[[(0,
    28611409234362368), (0, 1547465795764546), (0, 9815020417), (0, 1229095), (0, 68)], [(0, 34316845643237571), (0,
    588682933787), (0, 45082634), (0, 3139)], [(8981556807964, 0), (0, 53797201), (0, 20002), (0, 1)], [(0,
    1931337712), (204596, 0), (29, 0)]], 3, 4⟩, 72057594037927936, 644802959632, 299940144070, ⟨[[(13262635449027,
    0), (1463030094, 0), (3430390, 0), (5054, 0), (44, 0)], [(2169481828, 0), (431618, 0), (0, 2504), (0, 1)], [(0,
    847838), (190, 0), (4, 0)], [(385, 0)]], 3, 4⟩, 17592186044416, 531501,
    3268965236659827847634324458163686651820126050080942089615994351177075009337252302349027744933591885237272929046591829644360930,
    lc0⟩))
theorem c60 : checkR job con0 false ⟨7, 9, 7, 9, 13, 17⟩ 1 34400 t60 531 21 1280 63749 251 64000 = true := by decide +kernel

def t61 : CTree :=
  .sy (.out ⟨496, 16, 1948, 3632, 16, 5282, ⟨[[(0, 25680118422142976), (0, 1900843956219522), (19524557671, 0)],
    [(27703817602596565, 0), (0, 3772968197186), (38004127, 0)], [(0, 33490424271371), (0, 69373831), (26472, 0)]],
    2, 2⟩, ⟨[[(0, 28724215771922432), (0, 4344392086494269), (72124048917, 0)]], 2, 2⟩, 72057594037927936,
    323399868651155, 19013665147494, ⟨[], 0, 0⟩, 0, 0, 0, lc0⟩ 1 1 195432048872) (.sy (.out ⟨654, 16, 2621, 7323, 16,
    10718, ⟨[[(0, 31164465039892480), (0, 1269126571195086), (6239706046, 0)], [(35370678792451785, 0), (0,
    2520125721656), (11225181, 0)], [(0, 45090994332795), (0, 33735500), (8270, 0)]], 2, 2⟩, ⟨[[(22327543311237120,
    0), (0, 4353135037765585), (35910141126, 0)]], 2, 2⟩, 72057594037927936, 419086502786020, 4694111727396, ⟨[], 0,
    0⟩, 0, 0, 0, lc0⟩ 1 1 145716780809) (.out ⟨662, 16, 2690, 7354, 16, 10807, ⟨[[(0, 20103997274095616), (0,
    1296232415284268), (6151740401, 0)], [(35006238312833518, 0), (0, 2575494865978), (10323838, 0)], [(0,
    46293331379910), (0, 26324249), (8043, 0)]], 2, 2⟩, ⟨[[(0, 23881022655299584), (0, 4353153957956597),
    (35762201339, 0)]], 2, 2⟩, 72057594037927936, 433046560087554, 4655454424903, ⟨[], 0, 0⟩, 0, 0, 0, lc0⟩ 1 1
    118510810180))
theorem c61 : checkR job con0 false ⟨7, 9, 7, 9, 13, 17⟩ 1 34400 t61 573 21 1280 30243 251 32000 = true := by decide +kernel

def t62 : CTree :=
  .sy (.sy (.out ⟨688, 16, 2605, 7263, 16, 10541, ⟨[[(10998062867947520, 0), (0, 1380558947303482), (7198156118, 0)],
    [(34143417168439381, 0), (0, 2531376148008), (14122427, 0)], [(0, 39544601860695), (0, 1406396), (13563, 0)]], 2,
    2⟩, ⟨[[(0, 34532544775520256), (0, 4353053784781898), (36209366113, 0)]], 2, 2⟩, 72057594037927936,
    376549839554776, 4772837762632, ⟨[], 0, 0⟩, 0, 0, 0, lc0⟩ 1 1 133730862377) (.out ⟨697, 16, 2675, 7293, 16,
    10630, ⟨[[(0, 14879600194420736), (0, 1410358782895992), (7141842534, 0)], [(33759573354443569, 0), (0,
    2585332393025), (13501835, 0)], [(0, 40604423359088), (12616176, 0), (14090, 0)]], 2, 2⟩, ⟨[[(27724777240264704,
    0), (0, 4353374790598559), (36061454019, 0)]], 2, 2⟩, 72057594037927936, 388892905679454, 4733533930609, ⟨[], 0,
    0⟩, 0, 0, 0, lc0⟩ 1 1 100113439645)) (.sx (.sy (.out ⟨1056, 16, 4141, 7323, 16, 10718, ⟨[[(5036047283208192, 0),
    (0, 2130582568001580), (10432104336, 0)], [(25799005398895223, 0), (0, 1991339866058), (9383625, 0)], [(0,
    16217671957258), (4716189, 0), (4949, 0)]], 2, 2⟩, ⟨[[(22327543311237120, 0), (0, 4353135037765585),
    (35910141126, 0)]], 2, 2⟩, 72057594037927936, 81117298425947, 4694111727396, ⟨[], 0, 0⟩, 0, 0, 0, lc0⟩ 1 1
    90838939333) (.sy (.out ⟨1421, 16, 5632, 14708, 16, 21593, ⟨[[(14652883753762816, 0), (0, 1443599768968993),
    (3434499087, 0)], [(34070218987114100, 0), (0, 1349538331327), (2956142, 0)], [(0, 22053603269181), (5747227, 0),
    (1691, 0)]], 2, 2⟩, ⟨[[(15274841073254400, 0), (0, 4357905945135126), (17919094836, 0)]], 2, 2⟩,
    72057594037927936, 104830192286347, 1166336727580, ⟨[], 0, 0⟩, 0, 0, 0, lc0⟩ 1 1 71002213144) (.out ⟨1431, 16,
    5711, 14738, 16, 21682, ⟨[[(0, 3421588549648384), (0, 1460392720583953), (3401960331, 0)], [(33861891958276443,
    0), (0, 1365542263040), (2829856, 0)], [(0, 22359590575022), (7553255, 0), (1722, 0)]], 2, 2⟩,
    ⟨[[(29728538543915008, 0), (0, 4357858808414926), (17881989850, 0)]], 2, 2⟩, 72057594037927936, 106678441860937,
    1161521487720, ⟨[], 0, 0⟩, 0, 0, 0, lc0⟩ 1 1 57328875771))) (.sy (.sy (.out ⟨1453, 16, 5600, 14647, 16, 21415,
    ⟨[[(13224171045044224, 0), (0, 1499016280510091), (3702033063, 0)], [(33441950110992878, 0), (0, 1347575843726),
    (3403300, 0)], [(0, 20577756570337), (9714826, 0), (2061, 0)]], 2, 2⟩, ⟨[[(31361480913453056, 0), (0,
    4357889061931270), (17993307302, 0)]], 2, 2⟩, 72057594037927936, 99056801747514, 1176027086837, ⟨[], 0, 0⟩, 0, 0,
    0, lc0⟩ 1 1 62530807731) (.out ⟨1463, 16, 5678, 14678, 16, 21504, ⟨[[(0, 10898724909629440), (0,
    1516166368653239), (3674202650, 0)], [(33222700244283453, 0), (0, 1362956319082), (3299825, 0)], [(0,
    20858901724890), (11961747, 0), (2118, 0)]], 2, 2⟩, ⟨[[(0, 8181383188971520), (0, 4357916183164676),
    (17956201285, 0)]], 2, 2⟩, 72057594037927936, 100761634678220, 1171171879835, ⟨[], 0, 0⟩, 0, 0, 0, lc0⟩ 1 1
    49206903163)) (.sx (.sy (.out ⟨2176, 16, 8534, 14708, 16, 21593, ⟨[[(0, 27247700306526208), (0,
    2251846281342343), (5347998903, 0)], [(24784951444106011, 0), (0, 1022033510303), (2328203, 0)], [(0,
    7962803836848), (4535124, 0), (765, 0)]], 2, 2⟩, ⟨[[(15274841073254400, 0), (0, 4357905945135126), (17919094836,
    0)]], 2, 2⟩, 72057594037927936, 20334997345401, 1166336727580, ⟨[], 0, 0⟩, 0, 0, 0, lc0⟩ 1 1 44283802694) (.sy
    (.out ⟨2959, 16, 11669, 29478, 16, 43343, ⟨[[(0, 16451174875987968), (0, 1536806953174781), (1795405447, 0)],
    [(33364098743876949, 0), (0, 697566050278), (764126, 0)], [(0, 10885489080598), (3496359, 0), (264, 0)]], 2, 2⟩,
    ⟨[[(0, 19411189391425536), (0, 4360238090162287), (8950485763, 0)]], 2, 2⟩, 72057594037927936, 26204904394779,
    290688906740, ⟨[], 0, 0⟩, 0, 0, 0, lc0⟩ 1 1 35460308288) (.out ⟨2969, 16, 11752, 29508, 16, 43432,
    ⟨[[(2938591172493312, 0), (0, 1545933964325863), (1785532660, 0)], [(33248936186988946, 0), (0, 701766065988),
    (747639, 0)], [(0, 10961081234077), (3789201, 0), (268, 0)]], 2, 2⟩, ⟨[[(0, 10625173162557440), (0,
    4360200510809971), (8941194888, 0)]], 2, 2⟩, 72057594037927936, 26439074740987, 290087786005, ⟨[], 0, 0⟩, 0, 0,
    0, lc0⟩ 1 1 29496706355))) (.sy (.sy (.out ⟨2989, 16, 11627, 29417, 16, 43164, ⟨[[(322096738304000, 0), (0,
    1564164011180713), (1866408549, 0)], [(33045827896371877, 0), (0, 696335029911), (826324, 0)], [(0,
    10504178636278), (3977609, 0), (288, 0)]], 2, 2⟩, ⟨[[(0, 27481225778167808), (0, 4360184805394146), (8968860870,
    0)]], 2, 2⟩, 72057594037927936, 25449352700318, 291887329575, ⟨[], 0, 0⟩, 0, 0, 0, lc0⟩ 1 1 31557157126) (.out
    ⟨2999, 16, 11710, 29447, 16, 43253, ⟨[[(26908108973309952, 0), (0, 1573453833074020), (1857335104, 0)],
    [(32929879869889615, 0), (0, 700480659965), (811518, 0)], [(0, 10577078947319), (4298657, 0), (293, 0)]], 2, 2⟩,
    ⟨[[(0, 9674756007395328), (0, 4360165739329284), (8959569915, 0)]], 2, 2⟩, 72057594037927936, 25675195682618,
    291284113844, ⟨[], 0, 0⟩, 0, 0, 0, lc0⟩ 1 1 25545317396)) (.sx (.sy (.out ⟨4414, 16, 17323, 29478, 16, 43343,
    ⟨[[(0, 12853925293588480), (0, 2314053138168757), (2701469006, 0)], [(24262126538083267, 0), (0, 517596847200),
    (580063, 0)], [(0, 3942915562901), (1599703, 0), (106, 0)]], 2, 2⟩, ⟨[[(0, 19411189391425536), (0,
    4360238090162287), (8950485763, 0)]], 2, 2⟩, 72057594037927936, 5092035643819, 290688906740, ⟨[], 0, 0⟩, 0, 0, 0,
    lc0⟩ 1 1 23181371047) (.out ⟨4422, 16, 17420, 29508, 16, 43432, ⟨[[(24122558877270016, 0), (0, 2324300491350518),
    (2682011151, 0)], [(24136839216173010, 0), (0, 519917557255), (567165, 0)], [(0, 3964159296055), (1716557, 0),
    (108, 0)]], 2, 2⟩, ⟨[[(0, 10625173162557440), (0, 4360200510809971), (8941194888, 0)]], 2, 2⟩, 72057594037927936,
    5136827363563, 290087786005, ⟨[], 0, 0⟩, 0, 0, 0, lc0⟩ 1 1 17413656661)) (.leaf ⟨6372, 16, 11519, 1945, 16, 8902,
    ⟨[[(0, 30134926441447424), (0, 3104571209645020), (7204361265, 0), (0, 123856), (0, 3)], [(15828409070301336, 0),
    (0, 687775779406), (1546143, 0), (0, 56)], [(0, 2579139220167), (2465486, 0), (299, 0)], [(334968846, 0), (2102,
    0)]], 3, 4⟩, ⟨[[(13350490419200000, 0), (0, 2509814616404389), (0, 216325547), (0, 190491), (0, 6)], [(0,
    23123349409905085), (0, 105230427048), (0, 2335247), (0, 119)], [(1522266786044, 0), (10563526, 0), (0, 113)],
    [(0, 94268358), (698, 0)]], 3, 4⟩, 72057594037927936, 5242059991, 2519549604, ⟨[[(13905526582478, 0), (597304874,
    0), (384901, 0), (365, 0), (1, 0)], [(853035236, 0), (48800, 0), (0, 145)], [(0, 136290), (14, 0)], [(22, 0)]],
    3, 4⟩, 17592186044416, 59711,
    4753734872981971313582999477612698556363184726824787649949326190368654429615637472942460911774699392733779586344340886374910066,
    lc0⟩))))))
theorem c62 : checkR job con0 false ⟨7, 9, 7, 9, 13, 17⟩ 1 34400 t62 615 21 1280 30243 251 32000 = true := by decide +kernel

def t63 : CTree :=
  .sy (.out ⟨670, 16, 2762, 7384, 16, 10897, ⟨[[(13125706454712320, 0), (0, 1324726133159397), (6031645391, 0)],
    [(34618265005884666, 0), (0, 2634453958836), (9251649, 0)], [(0, 47543935921660), (0, 18971928), (7790, 0)]], 2,
    2⟩, ⟨[[(32829271707156480, 0), (0, 4353425214132450), (35617541248, 0)]], 2, 2⟩, 72057594037927936,
    447921015610559, 4617540529014, ⟨[], 0, 0⟩, 0, 0, 0, lc0⟩ 1 1 91445649032) (.sx (.out ⟨1030, 16, 4338, 7415, 16,
    10987, ⟨[[(28122303623675904, 0), (0, 2028046728677265), (8854521886, 0)], [(26945517499712024, 0), (0,
    2061749440387), (5999288, 0)], [(0, 19264331857481), (0, 13089048), (2092, 0)]], 2, 2⟩, ⟨[[(0, 666239621332992),
    (0, 4353546379027079), (35472841619, 0)]], 2, 2⟩, 72057594037927936, 94885057511057, 4579932335462, ⟨[], 0, 0⟩,
    0, 0, 0, lc0⟩ 1 1 85157632232) (.sy (.out ⟨1405, 16, 5809, 14830, 16, 21951, ⟨[[(10036643807559680, 0), (0,
    1417404630630605), (3094911872, 0)], [(34328879055158004, 0), (0, 1381767303035), (2190406, 0)], [(0,
    24226432585829), (2091884, 0), (1239, 0)]], 2, 2⟩, ⟨[[(0, 27126683359510528), (0, 4357897584078398),
    (17772321280, 0)]], 2, 2⟩, 72057594037927936, 114729301346523, 1147300681068, ⟨[], 0, 0⟩, 0, 0, 0, lc0⟩ 1 1
    55667579938) (.out ⟨1415, 16, 5892, 14860, 16, 22041, ⟨[[(15231693363068928, 0), (0, 1434550820427946),
    (3047261517, 0)], [(34116360537431241, 0), (0, 1399383064736), (2014093, 0)], [(0, 24571203722767), (3374711, 0),
    (1239, 0)]], 2, 2⟩, ⟨[[(249748279525376, 0), (0, 4357903443308502), (17736035079, 0)]], 2, 2⟩, 72057594037927936,
    116853375103230, 1142616616116, ⟨[], 0, 0⟩, 0, 0, 0, lc0⟩ 1 1 43606102252)))
theorem c63 : checkR job con0 false ⟨7, 9, 7, 9, 13, 17⟩ 1 34400 t63 573 21 1280 61239 251 64000 = true := by decide +kernel

def t64 : CTree :=
  .sy (.sy (.out ⟨1366, 16, 5811, 14890, 16, 22131, ⟨[[(6865542245761024, 0), (0, 1353971691433132), (2837732916,
    0)], [(35056318594170270, 0), (0, 1378123776026), (1695207, 0)], [(0, 25811895840435), (0, 7765212), (629, 0)]],
    2, 2⟩, ⟨[[(18699443624214528, 0), (0, 4357873022197916), (17699749492, 0)]], 2, 2⟩, 72057594037927936,
    120931461240261, 1137951764935, ⟨[], 0, 0⟩, 0, 0, 0, lc0⟩ 1 1 65923144908) (.out ⟨1376, 16, 5893, 14921, 16,
    22222, ⟨[[(0, 13209146228146176), (0, 1370234086195659), (2786299936, 0)], [(34849838271957760, 0), (0,
    1395956711076), (1494280, 0)], [(0, 26179928361584), (0, 7259081), (588, 0)]], 2, 2⟩, ⟨[[(4602701929250816, 0),
    (0, 4358002875170145), (17664261207, 0)]], 2, 2⟩, 72057594037927936, 123172671820669, 1133356854545, ⟨[], 0, 0⟩,
    0, 0, 0, lc0⟩ 1 1 54049558622)) (.sy (.out ⟨1386, 16, 5977, 14951, 16, 22312, ⟨[[(0, 17609919681953792), (0,
    1386976798123444), (2728755405, 0)], [(34636197745020837, 0), (0, 1414452291137), (1276737, 0)], [(0,
    26556652263915), (0, 6789427), (545, 0)]], 2, 2⟩, ⟨[[(5263707049164800, 0), (0, 4357900419343931), (17627977345,
    0)]], 2, 2⟩, 72057594037927936, 125495822114304, 1128729879069, ⟨[], 0, 0⟩, 0, 0, 0, lc0⟩ 1 1 42823887713) (.sy
    (.out ⟨1667, 16, 7228, 29964, 16, 44784, ⟨[[(2895361799340032, 0), (0, 837411926585129), (801993709, 0)],
    [(41241839359939834, 0), (0, 854711133892), (329606, 0)], [(0, 32118021453281), (0, 3866206), (153, 0)]], 2, 2⟩,
    ⟨[[(0, 19675779170566144), (0, 4360234644511831), (8805299545, 0)]], 2, 2⟩, 72057594037927936, 150765122921975,
    281332507895, ⟨[], 0, 0⟩, 0, 0, 0, lc0⟩ 1 1 35431998111) (.out ⟨1675, 16, 7289, 29994, 16, 44875,
    ⟨[[(16474063061204992, 0), (0, 843675140120122), (792854370, 0)], [(41157290298457009, 0), (0, 861610176514),
    (293376, 0)], [(0, 32390997460563), (0, 3748368), (146, 0)]], 2, 2⟩, ⟨[[(14799510614048768, 0), (0,
    4360249503382641), (8796412043, 0)]], 2, 2⟩, 72057594037927936, 152374905204775, 280763897132, ⟨[], 0, 0⟩, 0, 0,
    0, lc0⟩ 1 1 30261153375)))
theorem c64 : checkR job con0 false ⟨7, 9, 7, 9, 13, 17⟩ 1 34400 t64 1125 21 2560 61741 251 64000 = true := by decide +kernel

def t65 : CTree :=
  .sx (.sy (.out ⟨2134, 16, 8978, 14890, 16, 22131, ⟨[[(0, 17674950034554880), (0, 2158964467033384), (4467982178,
    0)], [(25853989308961088, 0), (0, 1064753532829), (1350515, 0)], [(0, 9509440387985), (574745, 0), (409, 0)]], 2,
    2⟩, ⟨[[(18699443624214528, 0), (0, 4357873022197916), (17699749492, 0)]], 2, 2⟩, 72057594037927936,
    23923643310584, 1137951764935, ⟨[], 0, 0⟩, 0, 0, 0, lc0⟩ 1 1 39715944370) (.sy (.out ⟨2862, 16, 12105, 29843, 16,
    44422, ⟨[[(0, 19109209985056768), (0, 1453221560923537), (1468289041, 0)], [(34318571612554423, 0), (0,
    717148378449), (411721, 0)], [(0, 12821169443175), (593124, 0), (135, 0)]], 2, 2⟩, ⟨[[(0, 33413341372743680), (0,
    4360280560718833), (8841244103, 0)]], 2, 2⟩, 72057594037927936, 30418945217867, 283631697694, ⟨[], 0, 0⟩, 0, 0,
    0, lc0⟩ 1 1 31882720110) (.out ⟨2872, 16, 12193, 29873, 16, 44512, ⟨[[(24952394843193344, 0), (0,
    1462314255143786), (1452855492, 0)], [(34205534481497368, 0), (0, 721960509246), (384651, 0)], [(0,
    12914041661286), (733511, 0), (135, 0)]], 2, 2⟩, ⟨[[(0, 29484003954262016), (0, 4360233558968853), (8832158596,
    0)]], 2, 2⟩, 72057594037927936, 30709825773068, 283052030161, ⟨[], 0, 0⟩, 0, 0, 0, lc0⟩ 1 1 26944324192))) (.sy
    (.sy (.out ⟨2899, 16, 12093, 29782, 16, 44241, ⟨[[(17245037102366720, 0), (0, 1484902957023979), (1536786537,
    0)], [(33945267318761972, 0), (0, 717228974440), (482152, 0)], [(0, 12407373425102), (1886321, 0), (177, 0)]], 2,
    2⟩, ⟨[[(0, 30974639591129088), (0, 4360249366577833), (8859216343, 0)]], 2, 2⟩, 72057594037927936,
    29599289605124, 284788282210, ⟨[], 0, 0⟩, 0, 0, 0, lc0⟩ 1 1 26848263213) (.out ⟨2910, 16, 12182, 29812, 16,
    44331, ⟨[[(11608614289801216, 0), (0, 1494290049200547), (1522006923, 0)], [(33832513133740117, 0), (0,
    722034261491), (456924, 0)], [(0, 12497688410038), (2078540, 0), (177, 0)]], 2, 2⟩, ⟨[[(0, 18155748242489344),
    (0, 4360220344346991), (8850130501, 0)]], 2, 2⟩, 72057594037927936, 29883325711130, 284206216721, ⟨[], 0, 0⟩, 0,
    0, 0, lc0⟩ 1 1 21227058994)) (.sx (.sy (.out ⟨4340, 16, 18263, 29843, 16, 44422, ⟨[[(0, 6236402306842624), (0,
    2226578395368499), (2235014778, 0)], [(25286391307180675, 0), (0, 540928768704), (317733, 0)], [(0,
    4721393387438), (690665, 0), (62, 0)]], 2, 2⟩, ⟨[[(0, 33413341372743680), (0, 4360280560718833), (8841244103,
    0)]], 2, 2⟩, 72057594037927936, 6008780154393, 283631697694, ⟨[], 0, 0⟩, 0, 0, 0, lc0⟩ 1 1 19805566533) (.sy
    (.out ⟨5855, 16, 24703, 59746, 16, 89002, ⟨[[(0, 32612707846651904), (0, 1504732870013288), (745536925, 0)],
    [(33927602931561655, 0), (0, 365679506642), (101735, 0)], [(0, 6385913530597), (498848, 0), (21, 0)]], 2, 2⟩,
    ⟨[[(0, 28435280608362496), (0, 4361373208377884), (4418356755, 0)]], 2, 2⟩, 72057594037927936, 7627260929578,
    70799707631, ⟨[], 0, 0⟩, 0, 0, 0, lc0⟩ 1 1 15573268040) (.out ⟨5866, 16, 24795, 59776, 16, 89092, ⟨[[(0,
    12120637231333376), (0, 1509589042060620), (741354844, 0)], [(33869728236554526, 0), (0, 366940805014), (98240,
    0)], [(0, 6409439558875), (521884, 0), (21, 0)]], 2, 2⟩, ⟨[[(0, 27273473896218624), (0, 4361346355817644),
    (4416083713, 0)]], 2, 2⟩, 72057594037927936, 7664562816457, 70727408420, ⟨[], 0, 0⟩, 0, 0, 0, lc0⟩ 1 1
    13070753370))) (.leaf ⟨6599, 16, 12311, 1916, 16, 8736, ⟨[[(0, 16561267870990336), (0, 3030964334970620),
    (6007156864, 0), (0, 148507), (0, 3)], [(16688726142766501, 0), (0, 728964156592), (841466, 0), (0, 81)], [(0,
    3131767954685), (1396098, 0), (189, 0)], [(400760712, 0), (3348, 0)]], 3, 4⟩, ⟨[[(0, 24106957274480640), (0,
    2428542411463286), (0, 1106116675), (0, 220652), (0, 7)], [(0, 24083037496887802), (0, 126590086066), (0,
    3381894), (0, 153)], [(1619498360227, 0), (8222124, 0), (0, 285)], [(0, 100534616), (1308, 0)]], 3, 4⟩,
    72057594037927936, 7500586677, 2921111097, ⟨[[(13735907105512, 0), (605777211, 0), (441319, 0), (483, 0), (1,
    0)], [(851427862, 0), (38148, 0), (0, 166)], [(0, 131901), (17, 0)], [(22, 0)]], 3, 4⟩, 17592186044416, 50269,
    4984618678014384822516167955393422702691677713859596595053861697094845524688478786610317595629949618808800980526737264569326184,
    lc0⟩)))
theorem c65 : checkR job con0 false ⟨7, 9, 7, 9, 13, 17⟩ 1 34400 t65 1167 21 2560 123231 251 128000 = true := by decide +kernel

def t66 : CTree :=
  .sx (.sy (.sy (.out ⟨2883, 16, 12282, 29903, 16, 44603, ⟨[[(4007162676281344, 0), (0, 1471532230686691),
    (1436536103, 0)], [(34090235361378639, 0), (0, 726856780555), (356473, 0)], [(0, 13007899766728), (874297, 0),
    (134, 0)]], 2, 2⟩, ⟨[[(18355149176307712, 0), (0, 4360275506780610), (8823271541, 0)]], 2, 2⟩, 72057594037927936,
    31005936896915, 282479802957, ⟨[], 0, 0⟩, 0, 0, 0, lc0⟩ 1 1 21106430893) (.sy (.out ⟨3489, 16, 14903, 59867, 16,
    89364, ⟨[[(0, 1546332294774784), (0, 892128293459321), (429521094, 0)], [(41033148960462208, 0), (0,
    440827183318), (100944, 0)], [(0, 15783385619791), (591409, 0), (40, 0)]], 2, 2⟩, ⟨[[(0, 12472530618548224), (0,
    4361350252638999), (4409363815, 0)]], 2, 2⟩, 72057594037927936, 37332385129489, 70511920497, ⟨[], 0, 0⟩, 0, 0, 0,
    lc0⟩ 1 1 17298630083) (.out ⟨3498, 16, 14968, 59897, 16, 89455, ⟨[[(0, 3235120812556288), (0, 895588353399620),
    (427145963, 0)], [(40989881303002984, 0), (0, 442650526053), (96499, 0)], [(0, 15851917093736), (634501, 0), (40,
    0)]], 2, 2⟩, ⟨[[(28118062055030784, 0), (0, 4361363308840754), (4407140275, 0)]], 2, 2⟩, 72057594037927936,
    37536642043514, 70441007939, ⟨[], 0, 0⟩, 0, 0, 0, lc0⟩ 1 1 14593453574))) (.sx (.sy (.sy (.out ⟨5800, 16, 24906,
    59928, 16, 89546, ⟨[[(8431657831890944, 0), (0, 1481771802766137), (702004272, 0)], [(34195761421001710, 0), (0,
    368204912533), (75504, 0)], [(0, 6647110237069), (164049, 0), (15, 0)]], 2, 2⟩, ⟨[[(0, 5582142206115840), (0,
    4361374096304711), (4404916698, 0)]], 2, 2⟩, 72057594037927936, 7914878769181, 70369739948, ⟨[], 0, 0⟩, 0, 0, 0,
    lc0⟩ 1 1 16222343224) (.out ⟨5811, 16, 24999, 59958, 16, 89637, ⟨[[(29962005342322688, 0), (0, 1486600949325913),
    (697449273, 0)], [(34137939449053800, 0), (0, 369505804010), (71617, 0)], [(0, 6671844313642), (179935, 0), (15,
    0)]], 2, 2⟩, ⟨[[(30545439730696192, 0), (0, 4361382621907169), (4402693091, 0)]], 2, 2⟩, 72057594037927936,
    7954078319576, 70298160022, ⟨[], 0, 0⟩, 0, 0, 0, lc0⟩ 1 1 13701892648)) (.leaf ⟨10106, 16, 19074, 2610, 16,
    11873, ⟨[[(18613793257553920, 0), (0, 2266934548977192), (2095251675, 0), (0, 29774)], [(25834661373806360, 0),
    (0, 563701535118), (199210, 0), (0, 17)], [(0, 5090444053814), (309181, 0), (46, 0)], [(648479100, 0), (2925,
    0)]], 3, 4⟩, ⟨[[(0, 9710050131869696), (0, 1640978534483562), (0, 482606823), (0, 39638), (0, 1)], [(0,
    33495707384252483), (0, 92867950109), (0, 1305815), (0, 29)], [(2265221019902, 0), (4713307, 0), (0, 128)], [(0,
    141238879), (1058, 0)]], 3, 4⟩, 72057594037927936, 9945409289, 4489005322, ⟨[[(13672875019991, 0), (446627179,
    0), (249699, 0), (212, 0)], [(562872088, 0), (16032, 0), (0, 63)], [(0, 57062), (6, 0)], [(6, 0)]], 3, 4⟩,
    17592186044416, 31385,
    4808415205249286067294171985087660527516280623405501020563915237039767362087129182944319625975486270566104983888236344641619888,
    lc0⟩)) (.leaf ⟨6672, 16, 12563, 1899, 16, 8686, ⟨[[(0, 33711300927684608), (0, 3018796628404201), (5602537447,
    0), (0, 158850), (0, 4)], [(16829687552107858, 0), (0, 742642933466), (570109, 0), (0, 90)], [(0, 3299388798126),
    (856124, 0), (145, 0)], [(421900521, 0), (3800, 0)]], 3, 4⟩, ⟨[[(18965019169079296, 0), (0, 2406311501437873),
    (0, 1484116069), (0, 235231), (0, 7)], [(0, 24349072087437632), (0, 134333442819), (0, 3788907), (0, 166)],
    [(1643375498099, 0), (7182518, 0), (0, 349)], [(0, 101792939), (1555, 0)]], 3, 4⟩, 72057594037927936, 7123279629,
    4667291299, ⟨[[(13679973064135, 0), (601539874, 0), (447673, 0), (495, 0), (1, 0)], [(850097023, 0), (37425, 0),
    (0, 164)], [(0, 130701), (18, 0)], [(22, 0)]], 3, 4⟩, 17592186044416, 47741,
    3686889243089054777320804351550962487589049418816491995706909275343792574153334030298883926479904755062389027266723586828602964,
    lc0⟩))) (.sy (.leaf ⟨5027, 16, 9416, 1305, 16, 5983, ⟨[[(17674344371060736, 0), (0, 2301994191611965),
    (4407949899, 0), (0, 117684), (0, 3)], [(25171067716604261, 0), (0, 1113985765492), (1084779, 0), (0, 129)], [(0,
    9656764751629), (4172015, 0), (543, 0)], [(2476560447, 0), (21587, 0), (1, 0)]], 3, 4⟩, ⟨[[(15340634507984896,
    0), (0, 1662232830919619), (0, 940647717), (0, 158818), (0, 5)], [(0, 33169186669002240), (0, 178660516940), (0,
    4938818), (0, 220)], [(4464972922099, 0), (21473423, 0), (0, 837)], [(0, 551398054), (7984, 0), (1, 0)]], 3, 4⟩,
    72057594037927936, 66170212346, 21929528647, ⟨[[(13707004206583, 0), (869602211, 0), (918313, 0), (1426, 0), (4,
    0)], [(1121841608, 0), (77562, 0), (0, 436), (0, 2)], [(0, 228785), (43, 0)], [(50, 0)]], 3, 4⟩, 17592186044416,
    86874,
    4302809535300209065081393870415041769817196853142992343341820751340484197542207551739011934577574767663996253208298234003483813,
    lc0⟩) (.leaf ⟨5070, 16, 9526, 1291, 16, 5971, ⟨[[(0, 16888200970371072), (0, 2324500797152625), (4275876232, 0),
    (0, 124765), (0, 3)], [(24899628239040296, 0), (0, 1125998324927), (895622, 0), (0, 137)], [(0, 9767320330747),
    (4771225, 0), (547, 0)], [(2516736858, 0), (22970, 0), (1, 0)]], 3, 4⟩, ⟨[[(2487277914374144, 0), (0,
    1659963852428031), (0, 1185232880), (0, 168910), (0, 5)], [(0, 33193437648423631), (0, 183419051544), (0,
    5266624), (0, 229)], [(4466562668532, 0), (20577090, 0), (0, 864)], [(0, 546047606), (8950, 0), (1, 0)]], 3, 4⟩,
    72057594037927936, 66300085008, 23194715794, ⟨[[(13679723340811, 0), (849551874, 0), (881910, 0), (1293, 0), (3,
    0)], [(1115040575, 0), (84869, 0), (0, 388), (0, 1)], [(0, 226308), (40, 0)], [(50, 0)]], 3, 4⟩, 17592186044416,
    84830,
    4051038657319411864690459105087012419066973172878994513564454297827161337150243887865788884710341631975915640052736273563895188,
    lc0⟩))
theorem c66 : checkR job con0 false ⟨7, 9, 7, 9, 13, 17⟩ 1 34400 t66 1167 21 2560 123733 251 128000 = true := by decide +kernel

def t67 : CTree :=
  .sy (.sy (.out ⟨1441, 16, 5791, 14769, 16, 21772, ⟨[[(0, 22137567936200704), (0, 1477429303709533), (3363807954,
    0)], [(33641834761386179, 0), (0, 1381878576741), (2691454, 0)], [(0, 22668519198554), (9417166, 0), (1756, 0)]],
    2, 2⟩, ⟨[[(12058336724123648, 0), (0, 4357975392124101), (17845707842, 0)]], 2, 2⟩, 72057594037927936,
    108575828424010, 1156779531765, ⟨[], 0, 0⟩, 0, 0, 0, lc0⟩ 1 1 44585005987) (.sx (.out ⟨2157, 16, 8761, 14799, 16,
    21861, ⟨[[(0, 21385742011596800), (0, 2208197689293645), (4913379416, 0)], [(25286445205697694, 0), (0,
    1043481335454), (1867913, 0)], [(0, 8710028844489), (3264827, 0), (619, 0)]], 2, 2⟩, ⟨[[(8572804493344768, 0),
    (0, 4357854996717635), (17808606268, 0)]], 2, 2⟩, 72057594037927936, 22069407162352, 1152003937383, ⟨[], 0, 0⟩,
    0, 0, 0, lc0⟩ 1 1 41110609529) (.sy (.out ⟨2948, 16, 11873, 29599, 16, 43701, ⟨[[(0, 14984146678153216), (0,
    1526830869325400), (1703623205, 0)], [(33470107555661361, 0), (0, 707158060417), (663998, 0)], [(0,
    11431827936659), (3392741, 0), (243, 0)]], 2, 2⟩, ⟨[[(14556287164481536, 0), (0, 4360233139359172), (8913733856,
    0)]], 2, 2⟩, 72057594037927936, 27464522316076, 288306085352, ⟨[], 0, 0⟩, 0, 0, 0, lc0⟩ 1 1 27637647867) (.out
    ⟨2958, 16, 11959, 29630, 16, 43791, ⟨[[(31409953496694784, 0), (0, 1536179521889804), (1691670228, 0)],
    [(33355144240905338, 0), (0, 711621037447), (644244, 0)], [(0, 11512855170331), (3663425, 0), (246, 0)]], 2, 2⟩,
    ⟨[[(0, 17834206035968000), (0, 4360258785440885), (8904647880, 0)]], 2, 2⟩, 72057594037927936, 27718346965059,
    287716903144, ⟨[], 0, 0⟩, 0, 0, 0, lc0⟩ 1 1 22568572876)))) (.sx (.sy (.sy (.out ⟨2914, 16, 11900, 29660, 16,
    43880, ⟨[[(0, 16214560072204288), (0, 1497202870617019), (1633112025, 0)], [(33813106476901730, 0), (0,
    707749154741), (596895, 0)], [(0, 11828977432978), (2534039, 0), (211, 0)]], 2, 2⟩, ⟨[[(0, 31381707499503616),
    (0, 4360175813877104), (8895358919, 0)]], 2, 2⟩, 72057594037927936, 28253779832874, 287122110098, ⟨[], 0, 0⟩, 0,
    0, 0, lc0⟩ 1 1 32716315679) (.out ⟨2924, 16, 11986, 29690, 16, 43970, ⟨[[(23949638495338496, 0), (0,
    1506383719190958), (1620473486, 0)], [(33699761734275901, 0), (0, 712273288459), (575370, 0)], [(0,
    11913129401812), (2765475, 0), (212, 0)]], 2, 2⟩, ⟨[[(0, 669162770268160), (0, 4360183216294845), (8886273152,
    0)]], 2, 2⟩, 72057594037927936, 28516517875527, 286535242227, ⟨[], 0, 0⟩, 0, 0, 0, lc0⟩ 1 1 27212879051)) (.sy
    (.out ⟨2935, 16, 12074, 29720, 16, 44060, ⟨[[(17056293936988160, 0), (0, 1515817140823945), (1607162048, 0)],
    [(33587139444155081, 0), (0, 716934132156), (552963, 0)], [(0, 11999141962233), (3000870, 0), (214, 0)]], 2, 2⟩,
    ⟨[[(25561789898948608, 0), (0, 4360181479205886), (8877187350, 0)]], 2, 2⟩, 72057594037927936, 28786374217942,
    285949524859, ⟨[], 0, 0⟩, 0, 0, 0, lc0⟩ 1 1 21312155655) (.sy (.out ⟨3573, 16, 14739, 59502, 16, 88279,
    ⟨[[(32009145274171392, 0), (0, 924461594883473), (484584328, 0)], [(40671157407053477, 0), (0, 437339236328),
    (162535, 0)], [(0, 14646202796307), (1930256, 0), (66, 0)]], 2, 2⟩, ⟨[[(25274131531431936, 0), (0,
    4361359914815595), (4436392623, 0)]], 2, 2⟩, 72057594037927936, 34863088300130, 71379017278, ⟨[], 0, 0⟩, 0, 0, 0,
    lc0⟩ 1 1 17343715898) (.out ⟨3582, 16, 14803, 59533, 16, 88369, ⟨[[(35613289236037632, 0), (0, 927989181754406),
    (482686052, 0)], [(40627303750806857, 0), (0, 439076482298), (159018, 0)], [(0, 14708810056384), (2004777, 0),
    (66, 0)]], 2, 2⟩, ⟨[[(0, 27844522053992448), (0, 4361351033142817), (4434119366, 0)]], 2, 2⟩, 72057594037927936,
    35049193717316, 71306311347, ⟨[], 0, 0⟩, 0, 0, 0, lc0⟩ 1 1 14812309528)))) (.sy (.sx (.sy (.out ⟨4381, 16, 17802,
    29660, 16, 43880, ⟨[[(0, 15839210312040448), (0, 2273112122122650), (2471533735, 0)], [(24740880063301800, 0),
    (0, 529240968111), (457011, 0)], [(0, 4318508092533), (1329317, 0), (89, 0)]], 2, 2⟩, ⟨[[(0, 31381707499503616),
    (0, 4360175813877104), (8895358919, 0)]], 2, 2⟩, 72057594037927936, 5534475063871, 287122110098, ⟨[], 0, 0⟩, 0,
    0, 0, lc0⟩ 1 1 20496368718) (.sy (.out ⟨5952, 16, 24252, 59381, 16, 87919, ⟨[[(0, 11115036944171008), (0,
    1547091225360539), (832201632, 0)], [(33433599783074907, 0), (0, 360266727398), (150770, 0)], [(0,
    5882485979671), (951012, 0), (30, 0)]], 2, 2⟩, ⟨[[(0, 740174174617600), (0, 4361372785873538), (4445485823, 0)]],
    2, 2⟩, 72057594037927936, 7072876603062, 71671681784, ⟨[], 0, 0⟩, 0, 0, 0, lc0⟩ 1 1 16112523936) (.out ⟨5963, 16,
    24341, 59411, 16, 88009, ⟨[[(0, 9140363525488640), (0, 1551933394660975), (828768934, 0)], [(33374814683773129,
    0), (0, 361438564769), (148012, 0)], [(0, 5903586702165), (985061, 0), (30, 0)]], 2, 2⟩, ⟨[[(27132069200527360,
    0), (0, 4361372980382197), (4443212512, 0)]], 2, 2⟩, 72057594037927936, 7106249237657, 71598503863, ⟨[], 0, 0⟩,
    0, 0, 0, lc0⟩ 1 1 13244214312))) (.leaf ⟨6486, 16, 11913, 1930, 16, 8821, ⟨[[(0, 7298946072576000), (0,
    3070387497583567), (6616581120, 0), (0, 136189), (0, 3)], [(16226802660895363, 0), (0, 707857593559), (1218558,
    0), (0, 68)], [(0, 2843278958862), (2179967, 0), (256, 0)], [(366293540, 0), (2696, 0)]], 3, 4⟩, ⟨[[(0,
    7549880861392896), (0, 2469882964427968), (0, 673379852), (0, 205703), (0, 7)], [(0, 23595628593930816), (0,
    115398855357), (0, 2837581), (0, 136)], [(1571627783391, 0), (9596277, 0), (0, 188)], [(0, 97324003), (996, 0)]],
    3, 4⟩, 72057594037927936, 5945104046, 3672981523, ⟨[[(13820002075526, 0), (600193266, 0), (410576, 0), (417, 0),
    (1, 0)], [(852111385, 0), (43894, 0), (0, 153)], [(0, 133996), (15, 0)], [(22, 0)]], 3, 4⟩, 17592186044416,
    56642,
    4610293388476969984561110319732107040825340485813626054318845842993710671124398175856688683602584365650527905157952412961644360,
    lc0⟩)) (.leaf ⟨4976, 16, 9176, 1323, 16, 6081, ⟨[[(0, 19071841212956672), (0, 2348501100974701), (4916735296, 0),
    (0, 108812), (0, 3)], [(24635111277120216, 0), (0, 1088803617025), (1699491, 0), (0, 110)], [(0, 8828153757439),
    (6959861, 0), (769, 0)], [(2278547692, 0), (17600, 0), (1, 0)]], 3, 4⟩, ⟨[[(23181250250178560, 0), (0,
    1701541434529316), (0, 640748438), (0, 149164), (0, 5)], [(0, 32704940704632332), (0, 163721250580), (0,
    4189933), (0, 196)], [(4363807049177, 0), (25736273, 0), (0, 559)], [(0, 537659970), (6233, 0), (1, 0)]], 3, 4⟩,
    72057594037927936, 62351964702, 19993806362, ⟨[[(13791487451675, 0), (856136145, 0), (844131, 0), (1207, 0), (3,
    0)], [(1114668691, 0), (87298, 0), (0, 395), (0, 1)], [(0, 229048), (37, 0)], [(50, 0)]], 3, 4⟩, 17592186044416,
    49764,
    3829084397277432185062131347331056094682665982588490662233849126775358222396068637533851730383838133516731573910452064473861294,
    lc0⟩)))
theorem c67 : checkR job con0 false ⟨7, 9, 7, 9, 13, 17⟩ 1 34400 t67 1209 21 2560 61239 251 64000 = true := by decide +kernel

def t68 : CTree :=
  .sy (.sx (.sy (.sy (.out ⟨2980, 16, 11837, 29539, 16, 43522, ⟨[[(0, 23513938509955072), (0, 1555321448593667),
    (1775095761, 0)], [(33134772769774787, 0), (0, 706097043787), (730461, 0)], [(0, 11038376588541), (4088414, 0),
    (272, 0)]], 2, 2⟩, ⟨[[(0, 29455061930999808), (0, 4360254048866492), (8932109778, 0)]], 2, 2⟩, 72057594037927936,
    26679744500687, 289494943571, ⟨[], 0, 0⟩, 0, 0, 0, lc0⟩ 1 1 23304468611) (.sy (.out ⟨3648, 16, 14530, 59137, 16,
    87200, ⟨[[(0, 28887737437126656), (0, 953767706451023), (539249099, 0)], [(40346963367698018, 0), (0,
    433035914908), (218860, 0)], [(0, 13547747347851), (2635189, 0), (84, 0)]], 2, 2⟩, ⟨[[(32381627247624192, 0), (0,
    4361338337700017), (4463722746, 0)]], 2, 2⟩, 72057594037927936, 32487784906166, 72261612060, ⟨[], 0, 0⟩, 0, 0, 0,
    lc0⟩ 1 1 18560311514) (.out ⟨3656, 16, 14592, 59168, 16, 87290, ⟨[[(35488524677545984, 0), (0, 957295616805972),
    (537822286, 0)], [(40300868694050048, 0), (0, 434664824894), (216193, 0)], [(0, 13604206288579), (2731126, 0),
    (85, 0)]], 2, 2⟩, ⟨[[(6203260564144128, 0), (0, 4361356970939717), (4461449593, 0)]], 2, 2⟩, 72057594037927936,
    32654642887969, 72188024253, ⟨[], 0, 0⟩, 0, 0, 0, lc0⟩ 1 1 16347778721))) (.sx (.sy (.sy (.out ⟨5995, 16, 24006,
    59198, 16, 87379, ⟨[[(0, 10117366586015744), (0, 1566502562093775), (874935315, 0)], [(33206937668195066, 0), (0,
    357413945308), (173397, 0)], [(0, 5640282167170), (1079857, 0), (34, 0)]], 2, 2⟩, ⟨[[(998365164208128, 0), (0,
    4361323355375882), (4459125352, 0)]], 2, 2⟩, 72057594037927936, 6807058047320, 72113232825, ⟨[], 0, 0⟩, 0, 0, 0,
    lc0⟩ 1 1 17100569338) (.out ⟨6006, 16, 24094, 59229, 16, 87469, ⟨[[(0, 8284064906018816), (0, 1571366439496729),
    (871904335, 0)], [(33148630093307477, 0), (0, 358550932858), (170987, 0)], [(0, 5660405392744), (1117958, 0),
    (34, 0)]], 2, 2⟩, ⟨[[(0, 29683752122187776), (0, 4361337374799643), (4456852174, 0)]], 2, 2⟩, 72057594037927936,
    6838701046267, 72039454020, ⟨[], 0, 0⟩, 0, 0, 0, lc0⟩ 1 1 14337133572)) (.leaf ⟨9904, 16, 18119, 2682, 16, 12263,
    ⟨[[(0, 27248491975278592), (0, 2361411626228316), (2594167521, 0), (0, 25515)], [(24725236220642843, 0), (0,
    538887825643), (500399, 0), (0, 12)], [(0, 4256050539011), (1758816, 0), (103, 0)], [(549324298, 0), (1949, 0)]],
    3, 4⟩, ⟨[[(0, 10237042926551040), (0, 1719825730743283), (0, 194543556), (0, 35006), (0, 1)], [(0,
    32560523342655299), (0, 78196703072), (0, 938929), (0, 23)], [(2162834514516, 0), (6847152, 0), (0, 58)], [(0,
    133911425), (638, 0)]], 3, 4⟩, 72057594037927936, 8639226275, 4019491312, ⟨[[(13841379482688, 0), (432089421, 0),
    (209913, 0), (151, 0)], [(555720600, 0), (21236, 0), (0, 51)], [(0, 57200), (5, 0)], [(6, 0)]], 3, 4⟩,
    17592186044416, 22646,
    3803573276842115935412494675312233837345830532390523045500090593676403567245503691260434408114910437172988574878480919018196806,
    lc0⟩)) (.leaf ⟨6444, 16, 11763, 1928, 16, 8857, ⟨[[(13852288144310272, 0), (0, 3097188987486971), (6842290637,
    0), (0, 133642), (0, 3)], [(15909412044633935, 0), (0, 699830436614), (1346766, 0), (0, 64)], [(0,
    2718703608898), (2529415, 0), (284, 0)], [(352282328, 0), (2468, 0)]], 3, 4⟩, ⟨[[(0, 25348031901024256), (0,
    2488868454420919), (0, 598638485), (0, 204496), (0, 7)], [(0, 23372229467369341), (0, 111442010896), (0,
    2676508), (0, 131)], [(1548754677412, 0), (10046151, 0), (0, 149)], [(0, 95509469), (913, 0)]], 3, 4⟩,
    72057594037927936, 5614730060, 3971295606, ⟨[[(13848136411973, 0), (591722872, 0), (389787, 0), (373, 0), (1,
    0)], [(851717780, 0), (48356, 0), (0, 141)], [(0, 134889), (14, 0)], [(22, 0)]], 3, 4⟩, 17592186044416, 56335,
    3090269931072893061901857884091309426642549117121833735398791911523056860909744659097139839775047472146628683122477858574584055,
    lc0⟩))) (.leaf ⟨3195, 16, 5809, 959, 16, 4435, ⟨[[(0, 30239452549775360), (0, 3106006538566891), (13888126144,
    0), (0, 531118), (0, 25)], [(15552578524161908, 0), (0, 1383116255132), (5654282, 0), (0, 488)], [(0,
    5241421513848), (11208710, 0), (2423, 0)], [(1365822953, 0), (18618, 0), (2, 0)]], 3, 4⟩, ⟨[[(28978071432978432,
    0), (0, 2499166348499782), (0, 1222123671), (0, 825345), (0, 53)], [(0, 23184711949753515), (0, 217994392556),
    (0, 10401076), (0, 1022)], [(3061111635245, 0), (41195849, 0), (0, 981)], [(0, 375820192), (7054, 0), (2, 0)]],
    3, 4⟩, 72057594037927936, 40173461366, 19905368427, ⟨[[(13862446105672, 0), (1164805296, 0), (1486503, 0), (2673,
    0), (9, 0)], [(1709399090, 0), (212288, 0), (0, 1040), (0, 4)], [(0, 546812), (104, 0)], [(182, 0)]], 3, 4⟩,
    17592186044416, 134420,
    4416473206446412107577703751241187245466423702156095631010111599219690876027337615632651154825967345556205608780797338440295943,
    lc0⟩)) (.sx (.leaf ⟨3231, 16, 5932, 950, 16, 4411, ⟨[[(14239201535787008, 0), (0, 3098840718039267),
    (13120572697, 0), (0, 572857), (0, 27)], [(15630811394671701, 0), (0, 1408054694930), (4784405, 0), (0, 551)],
    [(0, 5525067934360), (11267910, 0), (2276, 0)], [(1437194425, 0), (21757, 0), (2, 0)]], 3, 4⟩,
    ⟨[[(33790362679394304, 0), (0, 2477864694946751), (0, 2033856174), (0, 884994), (0, 56)], [(0,
    23430250992565986), (0, 231304528516), (0, 11854958), (0, 1116)], [(3112100323162, 0), (38834681, 0), (0, 1299)],
    [(0, 380122659), (8909, 0), (2, 0)]], 3, 4⟩, 72057594037927936, 42483616877, 20487787652, ⟨[[(13804517343640, 0),
    (1153048790, 0), (1503989, 0), (2709, 0), (9, 0)], [(1706883941, 0), (210292, 0), (0, 1010), (0, 4)], [(0,
    541415), (106, 0)], [(180, 0)]], 3, 4⟩, 17592186044416, 135124,
    4914189309907046030538142035240529398218551070607789119766556568375233795727136613236326094439058271058638465865408683246606769,
    lc0⟩) (.leaf ⟨3225, 16, 5905, 939, 16, 4423, ⟨[[(30738257962205184, 0), (0, 3143583823724920), (13265057813, 0),
    (0, 593174), (0, 28)], [(15105187087694952, 0), (0, 1400589765467), (4965622, 0), (0, 543)], [(0, 5321692742154),
    (13918127, 0), (2568, 0)], [(1398459592, 0), (21216, 0), (2, 0)]], 3, 4⟩, ⟨[[(31473885068795904, 0), (0,
    2494277514007338), (0, 2540771108), (0, 934465), (0, 58)], [(0, 23233863124823893), (0, 228614790400), (0,
    11983877), (0, 1121)], [(3073205124677, 0), (40091715, 0), (0, 999)], [(0, 370705343), (9330, 0), (2, 0)]], 3,
    4⟩, 72057594037927936, 42049319089, 21313607494, ⟨[[(13804026430935, 0), (1112741604, 0), (1388451, 0), (2202,
    0), (8, 0)], [(1702153829, 0), (237709, 0), (0, 861), (0, 3)], [(0, 542975), (94, 0)], [(181, 0)]], 3, 4⟩,
    17592186044416, 118704,
    4937762013693835726843808956588377573139765240444352071642869473062541140012388026999442068649866306759784703847463616729361502,
    lc0⟩))
theorem c68 : checkR job con0 false ⟨7, 9, 7, 9, 13, 17⟩ 1 34400 t68 1251 21 2560 61239 251 64000 = true := by decide +kernel

def t69 : CTree :=
  .sx (.sy (.sx (.sy (.sx (.sy (.sy (.out ⟨5905, 16, 24485, 59563, 16, 88459, ⟨[[(13061481108340736, 0), (0,
    1526525082752814), (789015574, 0)], [(33674144256982046, 0), (0, 363032341232), (126859, 0)], [(0,
    6131113379062), (759282, 0), (26, 0)]], 2, 2⟩, ⟨[[(0, 11130365110386688), (0, 4361339899781617), (4431846140,
    0)]], 2, 2⟩, 72057594037927936, 7346515466101, 71233224356, ⟨[], 0, 0⟩, 0, 0, 0, lc0⟩ 1 1 15783787924) (.out
    ⟨5916, 16, 24575, 59594, 16, 88550, ⟨[[(15561734644367360, 0), (0, 1531344448525763), (785188031, 0)],
    [(33615040655979746, 0), (0, 364240709545), (123737, 0)], [(0, 6153260484030), (788329, 0), (26, 0)]], 2, 2⟩,
    ⟨[[(0, 20200772164648960), (0, 4361375774887809), (4429622976, 0)]], 2, 2⟩, 72057594037927936, 7381669471410,
    71161284426, ⟨[], 0, 0⟩, 0, 0, 0, lc0⟩ 1 1 13126699469)) (.leaf ⟨10012, 16, 18607, 2645, 16, 12071,
    ⟨[[(17767732987297792, 0), (0, 2317140718072320), (2347008368, 0), (0, 27704)], [(25244066954150482, 0), (0,
    551294874054), (358218, 0), (0, 15)], [(0, 4658490189113), (1253461, 0), (79, 0)], [(597073478, 0), (2423, 0)]],
    3, 4⟩, ⟨[[(14754017569406976, 0), (0, 1680902923462668), (0, 344819424), (0, 37379), (0, 1)], [(0,
    33024748401514264), (0, 85249478714), (0, 1117208), (0, 26)], [(2215964728173, 0), (5932065, 0), (0, 89)], [(0,
    137434822), (847, 0)]], 3, 4⟩, 72057594037927936, 9252632977, 4226136621, ⟨[[(13756265996156, 0), (438003185, 0),
    (227663, 0), (177, 0)], [(558903990, 0), (18953, 0), (0, 56)], [(0, 57038), (5, 0)], [(6, 0)]], 3, 4⟩,
    17592186044416, 25409,
    3986844217680897671557037114295568968110249071494552229736054443213139987659747263946400843464535569761570200666609578141292634,
    lc0⟩)) (.leaf ⟨6559, 16, 12162, 1913, 16, 8773, ⟨[[(9182086459031552, 0), (0, 3060904692378527), (6231401689, 0),
    (0, 146373), (0, 3)], [(16336879390784238, 0), (0, 720769128880), (983716, 0), (0, 76)], [(0, 2996260955229),
    (1979325, 0), (227, 0)], [(385489222, 0), (3107, 0)]], 3, 4⟩, ⟨[[(0, 14121487465611264), (0, 2448217716829583),
    (0, 1055773695), (0, 220053), (0, 7)], [(0, 23851665528455915), (0, 122371464872), (0, 3212781), (0, 148)],
    [(1596930024411, 0), (8840010, 0), (0, 237)], [(0, 98535785), (1229, 0)]], 3, 4⟩, 72057594037927936, 7194883782,
    2491705704, ⟨[[(13763384538600, 0), (595367496, 0), (416252, 0), (427, 0), (1, 0)], [(850726937, 0), (43298, 0),
    (0, 150)], [(0, 132672), (16, 0)], [(22, 0)]], 3, 4⟩, 17592186044416, 53531,
    3111984606508566840976299413753181549759749062530303976440011328743039829504355996017280502526850284424056142214622360642827163,
    lc0⟩)) (.leaf ⟨5023, 16, 9351, 1307, 16, 6027, ⟨[[(10458461697540096, 0), (0, 2337091229685610), (4603692270, 0),
    (0, 116670), (0, 3)], [(24760087606442008, 0), (0, 1107063121523), (1317554, 0), (0, 123)], [(0, 9286923712571),
    (6157187, 0), (672, 0)], [(2394437890, 0), (20193, 0), (1, 0)]], 3, 4⟩, ⟨[[(11513067887296512, 0), (0,
    1680940111936919), (0, 910856842), (0, 158911), (0, 5)], [(0, 32950040160000750), (0, 173218671781), (0,
    4713212), (0, 213)], [(4417365457123, 0), (23388504, 0), (0, 700)], [(0, 542082066), (7558, 0), (1, 0)]], 3, 4⟩,
    72057594037927936, 64283526304, 20599502622, ⟨[[(13734943528082, 0), (852350367, 0), (862256, 0), (1248, 0), (3,
    0)], [(1114906246, 0), (86252, 0), (0, 391), (0, 1)], [(0, 227642), (38, 0)], [(50, 0)]], 3, 4⟩, 17592186044416,
    63610,
    3544275587349377598373107069290998171957389678234271275043252559547527181495091519871224392557062193863508833380417383987753634,
    lc0⟩)) (.sy (.leaf ⟨5017, 16, 9282, 1309, 16, 6071, ⟨[[(0, 22957066230038528), (0, 2370721799183811),
    (4803804381, 0), (0, 115374), (0, 3)], [(24367218590512250, 0), (0, 1099740480179), (1548227, 0), (0, 116)], [(0,
    8926404350966), (7826463, 0), (788, 0)], [(2314049515, 0), (18780, 0), (1, 0)]], 3, 4⟩, ⟨[[(22229363702513664,
    0), (0, 1699500586621539), (0, 871295455), (0, 158739), (0, 5)], [(0, 32734290674848482), (0, 167802320375), (0,
    4485265), (0, 205)], [(4369387455249, 0), (25126467, 0), (0, 573)], [(0, 533435508), (7093, 0), (1, 0)]], 3, 4⟩,
    72057594037927936, 62501104721, 19380181972, ⟨[[(13763258245815, 0), (836447252, 0), (812128, 0), (1095, 0), (3,
    0)], [(1108296224, 0), (94090, 0), (0, 354), (0, 1)], [(0, 226659), (34, 0)], [(49, 0)]], 3, 4⟩, 17592186044416,
    47341,
    3822358552480921452608757483745500375603554484546328498354192580433010225914672317435515678618607633003235154616376990649244447,
    lc0⟩) (.leaf ⟨5058, 16, 9390, 1295, 16, 6059, ⟨[[(26030727863271424, 0), (0, 2393516651021509), (4679729496, 0),
    (0, 122328), (0, 3)], [(24092627884103960, 0), (0, 1111054051950), (1385328, 0), (0, 123)], [(0, 9026090422625),
    (8723448, 0), (808, 0)], [(2350771453, 0), (20043, 0), (1, 0)]], 3, 4⟩, ⟨[[(0, 7151276552847360), (0,
    1697136728470468), (0, 1115871656), (0, 168754), (0, 5)], [(0, 32754812316899718), (0, 172122369722), (0,
    4792440), (0, 215)], [(4373194162571, 0), (24495493, 0), (0, 587)], [(0, 528600457), (7991, 0), (1, 0)]], 3, 4⟩,
    72057594037927936, 62822483315, 20516552775, ⟨[[(13734714840694, 0), (818165724, 0), (785277, 0), (996, 0), (3,
    0)], [(1102193801, 0), (99700, 0), (0, 320), (0, 1)], [(0, 224353), (32, 0)], [(49, 0)]], 3, 4⟩, 17592186044416,
    57518,
    4326877881930114243166539540966212411383065163260515316676636058037929337441899931484551278302480824312568446898684696214648777,
    lc0⟩))) (.sx (.sy (.leaf ⟨5065, 16, 9460, 1293, 16, 6015, ⟨[[(17442523346567168, 0), (0, 2359748210954036),
    (4475365249, 0), (0, 123698), (0, 3)], [(24486800011157272, 0), (0, 1118724728185), (1141498, 0), (0, 130)], [(0,
    9391878139060), (6913908, 0), (685, 0)], [(2432874585, 0), (21517, 0), (1, 0)]], 3, 4⟩, ⟨[[(0, 9619574632480768),
    (0, 1678628452207600), (0, 1155632299), (0, 168970), (0, 5)], [(0, 32972430480584338), (0, 177759336629), (0,
    5030852), (0, 222)], [(4420110080210, 0), (22629653, 0), (0, 720)], [(0, 536980276), (8491, 0), (1, 0)]], 3, 4⟩,
    72057594037927936, 64511997070, 21766492425, ⟨[[(13707035824189, 0), (833244634, 0), (830992, 0), (1133, 0), (3,
    0)], [(1108453774, 0), (92633, 0), (0, 351), (0, 1)], [(0, 225249), (36, 0)], [(49, 0)]], 3, 4⟩, 17592186044416,
    32312,
    4255691025943335911895762861354231696849466447634195315295848103935180414776529563355808976017284606058184930771141328027714022,
    lc0⟩) (.leaf ⟨5108, 16, 9570, 1279, 16, 6003, ⟨[[(0, 34217102525726720), (0, 2382737726960460), (4334472197, 0),
    (0, 131125), (0, 3)], [(24203674377262135, 0), (0, 1130674723640), (952124, 0), (0, 138)], [(0, 9497399936744),
    (7692194, 0), (698, 0)], [(2472380467, 0), (22931, 0), (1, 0)]], 3, 4⟩, ⟨[[(0, 27972972941770752), (0,
    1676567708255917), (0, 1415426303), (0, 179533), (0, 6)], [(0, 32997000871834283), (0, 182615817659), (0,
    5362483), (0, 232)], [(4422446301513, 0), (21851563, 0), (0, 741)], [(0, 531407380), (9469, 0), (1, 0)]], 3, 4⟩,
    72057594037927936, 65253736270, 22484156159, ⟨[[(13680152657245, 0), (814711883, 0), (802581, 0), (1023, 0), (3,
    0)], [(1101666990, 0), (98254, 0), (0, 317), (0, 1)], [(0, 222782), (34, 0)], [(49, 0)]], 3, 4⟩, 17592186044416,
    47909,
    4535298976623563891599892623295023616284926807354076794689693055172529874012691260272936028164260808912192845426053706630301532,
    lc0⟩)) (.leaf ⟨3300, 16, 6157, 921, 16, 4371, ⟨[[(27260297049014272, 0), (0, 3129883113786824), (11523102182, 0),
    (0, 688348), (0, 32)], [(15249385033534348, 0), (0, 1454575285428), (2880109, 0), (0, 690)], [(0, 5913775539195),
    (13054048, 0), (2168, 0)], [(1551699267, 0), (28483, 0), (3, 0)]], 3, 4⟩, ⟨[[(25087691733278720, 0), (0,
    2451501900952375), (0, 4373203347), (0, 1069286), (0, 66)], [(0, 23725051528753161), (0, 259293075061), (0,
    15278531), (0, 1328)], [(3167912519418, 0), (34042095, 0), (0, 1762)], [(0, 376603462), (13634, 0), (3, 0)]], 3,
    4⟩, 72057594037927936, 45024482680, 23136630453, ⟨[[(13692117284006, 0), (1091697637, 0), (1426725, 0), (2230,
    0), (8, 0)], [(1695432209, 0), (230609, 0), (0, 823), (0, 3)], [(0, 531884), (100, 0)], [(179, 0)]], 3, 4⟩,
    17592186044416, 135837,
    4898896306259891373630754250794115088825215184892752675168185315539039910976632430988679531017667097794619168740795381278142370,
    lc0⟩))) (.sy (.sx (.leaf ⟨3263, 16, 6030, 930, 16, 4398, ⟨[[(0, 23114012842033152), (0, 3137099019233953),
    (12417792409, 0), (0, 639708), (0, 30)], [(15171673481291139, 0), (0, 1426870037241), (3980873, 0), (0, 613)],
    [(0, 5610005073616), (13819931, 0), (2401, 0)], [(1472675754, 0), (24696, 0), (3, 0)]], 3, 4⟩,
    ⟨[[(32246059714527232, 0), (0, 2473294123170647), (0, 3444363571), (0, 1000826), (0, 62)], [(0,
    23480093433800978), (0, 243358701718), (0, 13577698), (0, 1222)], [(3122035238292, 0), (37393720, 0), (0, 1348)],
    [(0, 373919885), (11409, 0), (3, 0)]], 3, 4⟩, 72057594037927936, 43577492269, 21264309109, ⟨[[(13749004182747,
    0), (1101596604, 0), (1405211, 0), (2210, 0), (8, 0)], [(1698011357, 0), (234698, 0), (0, 838), (0, 3)], [(0,
    536934), (96, 0)], [(180, 0)]], 3, 4⟩, 17592186044416, 101599,
    4980479831039257851935863635787279595501305866252722770223420577276333828316624343519687714617644641133487969477805191908916337,
    lc0⟩) (.leaf ⟨3256, 16, 6002, 919, 16, 4409, ⟨[[(14119723633836032, 0), (0, 3182156246085829), (12530968023, 0),
    (0, 662236), (0, 31)], [(14639871167924279, 0), (0, 1418959580323), (4177504, 0), (0, 604)], [(0, 5401341542525),
    (16827342, 0), (2733, 0)], [(1432897719, 0), (24165, 0), (3, 0)]], 3, 4⟩, ⟨[[(9433355532763136, 0), (0,
    2489659817437839), (0, 4026855385), (0, 1054853), (0, 65)], [(0, 23277878223233554), (0, 240757188166), (0,
    13711142), (0, 1228)], [(3083287117644, 0), (38954044, 0), (0, 1017)], [(0, 364238495), (11831, 0), (3, 0)]], 3,
    4⟩, 72057594037927936, 42856254358, 21458579802, ⟨[[(13748447547172, 0), (1064774650, 0), (1312393, 0), (1792,
    0), (7, 0)], [(1693836293, 0), (257654, 0), (0, 740), (0, 2)], [(0, 538742), (88, 0)], [(181, 0)]], 3, 4⟩,
    17592186044416, 110488,
    4252835338216282056143220766553121656043437748992936903446836529207956972586037544559853975048109524298385284140093160488864279,
    lc0⟩)) (.leaf ⟨2562, 16, 4760, 626, 16, 3036, ⟨[[(0, 29204544012517376), (0, 2490524813148418), (9056076079, 0),
    (0, 565582), (0, 26)], [(22454828459192037, 0), (0, 2246010642373), (4932132, 0), (0, 1054)], [(0,
    17396110484541), (56872610, 0), (8504, 0)], [(9277252007, 0), (172982, 0), (19, 0)]], 3, 4⟩, ⟨[[(0,
    24437454222221312), (0, 1714009046844516), (0, 3710446875), (0, 800941), (0, 48)], [(0, 32409436381002246), (0,
    354010385062), (0, 21484589), (0, 1852)], [(8608165869480, 0), (101927839, 0), (0, 3370)], [(0, 1999323859),
    (79566, 0), (16, 0)]], 3, 4⟩, 72057594037927936, 500282944824, 152495643318, ⟨[[(13694535285656, 0), (1499320282,
    0), (2700763, 0), (4862, 0), (27, 0)], [(2167664535, 0), (489573, 0), (0, 1865), (0, 6)], [(0, 880542), (207, 0),
    (1, 0)], [(382, 0)]], 3, 4⟩, 17592186044416, 339595,
    5123011513343334070871998283393237344891254338013502425208526333617415027290845392254667925052035154995174247659980639740617611,
    lc0⟩))
theorem c69 : checkR job con0 false ⟨7, 9, 7, 9, 13, 17⟩ 1 34400 t69 615 21 1280 61741 251 64000 = true := by decide +kernel

def t70 : CTree :=
  .sx (.sy (.out ⟨1081, 16, 4010, 7263, 16, 10541, ⟨[[(33850461042769920, 0), (0, 2247890156931681), (11787791021,
    0)], [(24450638640900130, 0), (0, 1947608606669), (11614413, 0)], [(0, 13823695302063), (11758275, 0), (6610,
    0)]], 2, 2⟩, ⟨[[(0, 34532544775520256), (0, 4353053784781898), (36209366113, 0)]], 2, 2⟩, 72057594037927936,
    71294541727724, 4772837762632, ⟨[], 0, 0⟩, 0, 0, 0, lc0⟩ 1 1 79045119919) (.sy (.out ⟨1482, 16, 5554, 14587, 16,
    21238, ⟨[[(0, 25912884608303104), (0, 1550639492511344), (3973541262, 0)], [(32851681697585109, 0), (0,
    1342838700351), (3833849, 0)], [(0, 19138894779091), (11634002, 0), (2349, 0)]], 2, 2⟩, ⟨[[(0,
    11578615178330112), (0, 4357926065301261), (18068361030, 0)]], 2, 2⟩, 72057594037927936, 93428980422009,
    1185853516675, ⟨[], 0, 0⟩, 0, 0, 0, lc0⟩ 1 1 54970844813) (.sy (.out ⟨1822, 16, 6867, 29235, 16, 42631, ⟨[[(0,
    7096340434698240), (0, 956773597430681), (1210633011, 0)], [(39993588223529368, 0), (0, 828385177996), (1154580,
    0)], [(0, 23657618799132), (8293093, 0), (736, 0)]], 2, 2⟩, ⟨[[(0, 35905690220888064), (0, 4360205441561059),
    (9024817994, 0)]], 2, 2⟩, 72057594037927936, 114655437822957, 295540528240, ⟨[], 0, 0⟩, 0, 0, 0, lc0⟩ 1 1
    45319656232) (.out ⟨1830, 16, 6924, 29264, 16, 42719, ⟨[[(22176226986180608, 0), (0, 963495885241244),
    (1208506781, 0)], [(39906548189659794, 0), (0, 834102953175), (1143115, 0)], [(0, 23849605139279), (9110706, 0),
    (749, 0)]], 2, 2⟩, ⟨[[(31790565460541440, 0), (0, 4360140399703463), (9015316032, 0)]], 2, 2⟩, 72057594037927936,
    115755495051235, 294922623596, ⟨[], 0, 0⟩, 0, 0, 0, lc0⟩ 1 1 38725228607)))) (.sy (.sy (.out ⟨1507, 16, 5496,
    14526, 16, 21061, ⟨[[(0, 8829058048901120), (0, 1598611159574462), (4246836334, 0)], [(32305907751754929, 0), (0,
    1335896909860), (4240804, 0)], [(0, 17745162854700), (11699751, 0), (2561, 0)]], 2, 2⟩, ⟨[[(0,
    18964852416184320), (0, 4357811397546599), (18143410749, 0)]], 2, 2⟩, 72057594037927936, 87999939114902,
    1195761873568, ⟨[], 0, 0⟩, 0, 0, 0, lc0⟩ 1 1 49173398922) (.sx (.out ⟨2211, 16, 8148, 14556, 16, 21149, ⟨[[(0,
    26565661447749632), (0, 2342994422019080), (6122815901, 0)], [(23729392129117943, 0), (0, 987355290380),
    (3017518, 0)], [(0, 6684353070582), (4846856, 0), (939, 0)]], 2, 2⟩, ⟨[[(551406196752384, 0), (0,
    4357784901770649), (18105459335, 0)]], 2, 2⟩, 72057594037927936, 17518126760088, 1190769299251, ⟨[], 0, 0⟩, 0, 0,
    0, lc0⟩ 1 1 43166865391) (.sy (.out ⟨3072, 16, 11232, 29113, 16, 42277, ⟨[[(0, 5758440341602304), (0,
    1644566392916383), (2164082698, 0)], [(32120405481374988, 0), (0, 680764844204), (1075434, 0)], [(0,
    8914250538958), (3782891, 0), (343, 0)]], 2, 2⟩, ⟨[[(0, 18604807187595264), (0, 4360167129300597), (9062403751,
    0)]], 2, 2⟩, 72057594037927936, 22173491137202, 298010526325, ⟨[], 0, 0⟩, 0, 0, 0, lc0⟩ 1 1 30309746795) (.out
    ⟨3082, 16, 11311, 29143, 16, 42365, ⟨[[(0, 269578546380800), (0, 1653955267600175), (2159551683, 0)],
    [(32002447636707956, 0), (0, 684473194453), (1067931, 0)], [(0, 8974948961533), (4158287, 0), (349, 0)]], 2, 2⟩,
    ⟨[[(0, 4826867918700544), (0, 4360139518549371), (9052900715, 0)]], 2, 2⟩, 72057594037927936, 22357023228396,
    297387524863, ⟨[], 0, 0⟩, 0, 0, 0, lc0⟩ 1 1 23532592103)))) (.sx (.sy (.sy (.out ⟨3048, 16, 11298, 29174, 16,
    42454, ⟨[[(21514512225435648, 0), (0, 1621220987816725), (2093337053, 0)], [(32388262011047491, 0), (0,
    682974638348), (1022601, 0)], [(0, 9265794288911), (3854547, 0), (331, 0)]], 2, 2⟩, ⟨[[(0, 18119950941028352),
    (0, 4360205273072191), (9043611120, 0)]], 2, 2⟩, 72057594037927936, 22860073493141, 296772949706, ⟨[], 0, 0⟩, 0,
    0, 0, lc0⟩ 1 1 33800983910) (.out ⟨3059, 16, 11379, 29204, 16, 42542, ⟨[[(0, 15494207682215936), (0,
    1630737475847833), (2088212549, 0)], [(32275413630716623, 0), (0, 686845190218), (1013782, 0)], [(0,
    9330191433894), (4218592, 0), (337, 0)]], 2, 2⟩, ⟨[[(0, 13440019528679424), (0, 4360158829305328), (9034108379,
    0)]], 2, 2⟩, 72057594037927936, 23054862203398, 296152493060, ⟨[], 0, 0⟩, 0, 0, 0, lc0⟩ 1 1 26649331028)) (.sx
    (.sy (.out ⟨4458, 16, 16673, 29235, 16, 42631, ⟨[[(28035351882104832, 0), (0, 2375817432988347), (3014262070,
    0)], [(23537351060226359, 0), (0, 502526651740), (725433, 0)], [(0, 3445382683221), (1603436, 0), (123, 0)]], 2,
    2⟩, ⟨[[(0, 35905690220888064), (0, 4360205441561059), (9024817994, 0)]], 2, 2⟩, 72057594037927936, 4527347064551,
    295540528240, ⟨[], 0, 0⟩, 0, 0, 0, lc0⟩ 1 1 24804952911) (.leaf ⟨9652, 16, 17101, 2760, 16, 12631, ⟨[[(0,
    2203697775509504), (0, 2433716956530954), (3060217266, 0), (0, 21107)], [(23883002906715234, 0), (0,
    514685970445), (731325, 0), (0, 9)], [(0, 3532969094249), (1771610, 0), (127, 0)], [(464891127, 0), (1126, 0)]],
    3, 4⟩, ⟨[[(0, 35044322526658560), (0, 1795529803507694), (132144204, 0), (0, 30092)], [(0, 31661600121520597),
    (0, 65963250213), (0, 621935), (0, 17)], [(2048642485421, 0), (7931936, 0), (0, 16)], [(0, 127075970), (254,
    0)]], 3, 4⟩, 72057594037927936, 7302610225, 3901869258, ⟨[[(14013826433400, 0), (425663091, 0), (182248, 0),
    (115, 0)], [(551566056, 0), (24715, 0), (0, 46)], [(0, 58071), (4, 0)], [(6, 0)]], 3, 4⟩, 17592186044416, 17134,
    4676787772903438884229199143586459889069822838933319185638428850289074785120774669936849200869032479785989868174494007934258701,
    lc0⟩)) (.leaf ⟨6213, 16, 10982, 1960, 16, 9012, ⟨[[(0, 19794019674750976), (0, 3155549504287234), (7981660398,
    0), (0, 109002), (0, 3)], [(15231258018577237, 0), (0, 661328739653), (1922810, 0), (0, 43)], [(0,
    2231717467491), (2370628, 0), (337, 0)], [(294997819, 0), (1387, 0)]], 3, 4⟩, ⟨[[(14650666213408768, 0), (0,
    2566176461279921), (368227911, 0), (0, 173147), (0, 6)], [(0, 22456035947051578), (0, 92732946796), (0, 1740867),
    (0, 98)], [(1448887234317, 0), (11373074, 0), (0, 32)], [(0, 89651601), (350, 0)]], 3, 4⟩, 72057594037927936,
    6063007178, 3570242923, ⟨[[(14020891646640, 0), (590910612, 0), (347564, 0), (296, 0)], [(854272016, 0), (56799,
    0), (0, 131)], [(0, 139904), (12, 0)], [(23, 0)]], 3, 4⟩, 17592186044416, 53955,
    4137222828268293777673235718646279708014197520261312428970476891507785589911784256285268882259106582966365575747240930424019190,
    lc0⟩))) (.leaf ⟨3079, 16, 5422, 976, 16, 4512, ⟨[[(24825610537304064, 0), (0, 3161065198218652), (16168825978,
    0), (0, 431071), (0, 20)], [(14929600216395541, 0), (0, 1307379922256), (7890941, 0), (0, 327)], [(0,
    4299430938569), (9680710, 0), (2763, 0)], [(1144172827, 0), (10165, 0), (1, 0)]], 3, 4⟩, ⟨[[(7378314441793536,
    0), (0, 2575561636701481), (783752667, 0), (0, 695686), (0, 44)], [(0, 22281360018161435), (0, 181118327079), (0,
    6692001), (0, 766)], [(2862240766475, 0), (45852933, 0), (0, 119)], [(0, 353242818), (2548, 0), (2, 0)]], 3, 4⟩,
    72057594037927936, 34111555675, 17040147070, ⟨[[(14034539787902, 0), (1168523161, 0), (1338645, 0), (2177, 0),
    (6, 0)], [(1715860873, 0), (242882, 0), (0, 993), (0, 3)], [(0, 567835), (93, 0)], [(190, 0)]], 3, 4⟩,
    17592186044416, 140396,
    5078162211374664682215203402938467971333892360104970388098578160369380774453742899038943486496431903841798277353561179103803731,
    lc0⟩)))
theorem c70 : checkR job con0 false ⟨7, 9, 7, 9, 13, 17⟩ 1 34400 t70 657 21 1280 60235 251 64000 = true := by decide +kernel

def t71 : CTree :=
  .sx (.sy (.sx (.sy (.out ⟨2199, 16, 8391, 14647, 16, 21415, ⟨[[(0, 5242874813808640), (0, 2309702970292670),
    (5710944952, 0)], [(24106505572825810, 0), (0, 1009016715405), (2654046, 0)], [(0, 7342635717036), (5585388, 0),
    (884, 0)]], 2, 2⟩, ⟨[[(31361480913453056, 0), (0, 4357889061931270), (17993307302, 0)]], 2, 2⟩,
    72057594037927936, 19038303674759, 1176027086837, ⟨[], 0, 0⟩, 0, 0, 0, lc0⟩ 1 1 36508666661) (.sy (.out ⟨3017,
    16, 11578, 29356, 16, 42986, ⟨[[(33806487874666496, 0), (0, 1590534696419993), (1938037008, 0)],
    [(32738769042451401, 0), (0, 694768906113), (887285, 0)], [(0, 10128379359765), (4315925, 0), (309, 0)]], 2, 2⟩,
    ⟨[[(0, 4568163584049152), (0, 4360195163928632), (8987443216, 0)]], 2, 2⟩, 72057594037927936, 24704403264366,
    293097767283, ⟨[], 0, 0⟩, 0, 0, 0, lc0⟩ 1 1 27862267478) (.sy (.out ⟨3711, 16, 14280, 58773, 16, 86128,
    ⟨[[(30381515461492736, 0), (0, 979965626047702), (592520736, 0)], [(40056662534120198, 0), (0, 428046154288),
    (269126, 0)], [(0, 12490017733949), (2805750, 0), (96, 0)]], 2, 2⟩, ⟨[[(0, 14606555371536384), (0,
    4361334990495507), (4491410737, 0)]], 2, 2⟩, 72057594037927936, 30224621661613, 73161306444, ⟨[], 0, 0⟩, 0, 0, 0,
    lc0⟩ 1 1 23059151484) (.out ⟨3720, 16, 14341, 58803, 16, 86217, ⟨[[(30377822386290688, 0), (0, 983556044124131),
    (591613979, 0)], [(40012043713290240, 0), (0, 429604804453), (267246, 0)], [(0, 12541932589541), (2914862, 0),
    (97, 0)]], 2, 2⟩, ⟨[[(9391861763407872, 0), (0, 4361331219242461), (4489086121, 0)]], 2, 2⟩, 72057594037927936,
    30375842359125, 73085441422, ⟨[], 0, 0⟩, 0, 0, 0, lc0⟩ 1 1 19867939739)))) (.sy (.sy (.out ⟨3044, 16, 11522,
    29295, 16, 42808, ⟨[[(7694828690604032, 0), (0, 1615865306681366), (2010036956, 0)], [(32442202773309434, 0), (0,
    692874536182), (946702, 0)], [(0, 9758158750581), (4517941, 0), (328, 0)]], 2, 2⟩, ⟨[[(209236848541696, 0), (0,
    4360168105808348), (9006025348, 0)]], 2, 2⟩, 72057594037927936, 23970769030708, 294313048868, ⟨[], 0, 0⟩, 0, 0,
    0, lc0⟩ 1 1 23799810804) (.sy (.out ⟨3758, 16, 14262, 58651, 16, 85772, ⟨[[(0, 31151032766038016), (0,
    999130843675876), (617008246, 0)], [(39834413457288411, 0), (0, 428384067623), (288756, 0)], [(0,
    12076543672541), (2949480, 0), (102, 0)]], 2, 2⟩, ⟨[[(10868948266909696, 0), (0, 4361326744827336), (4500709208,
    0)]], 2, 2⟩, 72057594037927936, 29427501003730, 73464573305, ⟨[], 0, 0⟩, 0, 0, 0, lc0⟩ 1 1 18599866338) (.out
    ⟨3767, 16, 14323, 58682, 16, 85861, ⟨[[(0, 25149333227765760), (0, 1002783802417126), (616250080, 0)],
    [(39788893479328872, 0), (0, 429926587264), (287139, 0)], [(0, 12126683369018), (3065443, 0), (103, 0)]], 2, 2⟩,
    ⟨[[(0, 28124786951454720), (0, 4361332320350866), (4498384604, 0)]], 2, 2⟩, 72057594037927936, 29573392280939,
    73388452606, ⟨[], 0, 0⟩, 0, 0, 0, lc0⟩ 1 1 15663385972))) (.leaf ⟨4854, 16, 8672, 1362, 16, 6270,
    ⟨[[(17672856644288512, 0), (0, 2424861069526018), (5885859244, 0), (0, 90525), (0, 2)], [(23764164454662077, 0),
    (0, 1039489502797), (2711204, 0), (0, 76)], [(0, 7339790507794), (8055868, 0), (1014, 0)], [(1927162507, 0),
    (10563, 0), (1, 0)]], 3, 4⟩, ⟨[[(0, 4738273995472896), (0, 1778116456051957), (18740689, 0), (0, 128937), (0,
    4)], [(0, 31810070461740300), (0, 137609140568), (0, 2843639), (0, 152)], [(4143256440896, 0), (31006803, 0), (0,
    172)], [(0, 511629712), (2953, 0), (1, 0)]], 3, 4⟩, 72057594037927936, 52143124112, 15832298374,
    ⟨[[(13962488466528, 0), (841596624, 0), (731651, 0), (916, 0), (2, 0)], [(1105446059, 0), (101518, 0), (0, 349),
    (0, 1)], [(0, 231985), (30, 0)], [(50, 0)]], 3, 4⟩, 17592186044416, 26174,
    4338821177037199451057627410921957141715144182915722503687569879104063975760004861584094984908618387915752220392507572843668449,
    lc0⟩))) (.sx (.sy (.sx (.sy (.out ⟨4436, 16, 17174, 29417, 16, 43164, ⟨[[(8814235337687040, 0), (0,
    2342787023290969), (2795713369, 0)], [(23922838325065310, 0), (0, 514068570440), (624182, 0)], [(0,
    3785111140211), (1743198, 0), (114, 0)]], 2, 2⟩, ⟨[[(0, 27481225778167808), (0, 4360184805394146), (8968860870,
    0)]], 2, 2⟩, 72057594037927936, 4925421516210, 291887329575, ⟨[], 0, 0⟩, 0, 0, 0, lc0⟩ 1 1 19323411465) (.leaf
    ⟨9783, 16, 17616, 2720, 16, 12450, ⟨[[(9330672831954944, 0), (0, 2400220545645294), (2832995454, 0), (0, 23293)],
    [(24273986321488131, 0), (0, 526663851271), (624806, 0), (0, 10)], [(0, 3881599682399), (1906429, 0), (118, 0)],
    [(505298396, 0), (1515, 0)]], 3, 4⟩, ⟨[[(2645892051402752, 0), (0, 1758034914575133), (0, 34625548), (0, 32563),
    (0, 1)], [(0, 32106815675505036), (0, 71763270284), (0, 773353), (0, 20)], [(2106851332441, 0), (7500447, 0), (0,
    34)], [(0, 130500620), (438, 0)]], 3, 4⟩, 72057594037927936, 7952114576, 3909725910, ⟨[[(13926720255770, 0),
    (427885810, 0), (194859, 0), (131, 0)], [(553353242, 0), (23154, 0), (0, 48)], [(0, 57560), (4, 0)], [(6, 0)]],
    3, 4⟩, 17592186044416, 19289,
    4073076119964450245729640011328246281320073318925819555615324892115259743746740474432644459127149317798657255532196352793283327,
    lc0⟩)) (.leaf ⟨6328, 16, 11369, 1944, 16, 8937, ⟨[[(24905973509521408, 0), (0, 3128510349596781), (7427569464,
    0), (0, 121072), (0, 3)], [(15542529477648098, 0), (0, 679992754702), (1659154, 0), (0, 53)], [(0,
    2464581560403), (2624813, 0), (319, 0)], [(322175069, 0), (1893, 0)]], 3, 4⟩, ⟨[[(0, 33556000559906816), (0,
    2528213804704682), (0, 121196172), (0, 188780), (0, 6)], [(0, 22907951939516693), (0, 101566143779), (0,
    2184921), (0, 114)], [(1499272336034, 0), (10869146, 0), (0, 82)], [(0, 92577499), (617, 0)]], 3, 4⟩,
    72057594037927936, 5364593356, 2072157657, ⟨[[(13933868309868, 0), (590475878, 0), (367454, 0), (331, 0), (1,
    0)], [(853043519, 0), (52728, 0), (0, 135)], [(0, 137333), (13, 0)], [(23, 0)]], 3, 4⟩, 17592186044416, 61008,
    3465531751862820180113288057561097363347178661267052127507183887124608616822965807371513220080160813721012498539645670095851214,
    lc0⟩)) (.leaf ⟨4906, 16, 8850, 1345, 16, 6219, ⟨[[(0, 15569107724533760), (0, 2418511447486996), (5610854746, 0),
    (0, 97877), (0, 2)], [(23828547604724849, 0), (0, 1056315049958), (2435987, 0), (0, 86)], [(0, 7733260465236),
    (8784056, 0), (991, 0)], [(2023946388, 0), (12625, 0), (1, 0)]], 3, 4⟩, ⟨[[(0, 10453060685316096), (0,
    1757976210409730), (0, 254197385), (0, 138326), (0, 4)], [(0, 32041834740022260), (0, 145157946590), (0,
    3280640), (0, 167)], [(4204557381489, 0), (29896106, 0), (0, 249)], [(0, 516761757), (4075, 0), (1, 0)]], 3, 4⟩,
    72057594037927936, 55449512056, 17886876441, ⟨[[(13905411938322, 0), (834883307, 0), (743457, 0), (934, 0), (2,
    0)], [(1104166644, 0), (101575, 0), (0, 340), (0, 1)], [(0, 229782), (30, 0)], [(49, 0)]], 3, 4⟩, 17592186044416,
    33060,
    2718481612241668185758382869009192610670025988190365488805292737976605910292111473243564285995345660928861556550744062795047568,
    lc0⟩)) (.leaf ⟨3152, 16, 5660, 958, 16, 4470, ⟨[[(0, 18942367611289600), (0, 3153928768358155), (14813152924, 0),
    (0, 507060), (0, 24)], [(15000392297600369, 0), (0, 1351740508629), (6615815, 0), (0, 423)], [(0, 4786160958504),
    (12544535, 0), (2743, 0)], [(1263253484, 0), (15140, 0), (2, 0)]], 3, 4⟩, ⟨[[(0, 21548947945947136), (0,
    2535587567093560), (0, 818425975), (0, 809487), (0, 51)], [(0, 22753061846691861), (0, 202692373871), (0,
    9125597), (0, 934)], [(2970381666327, 0), (43849465, 0), (0, 469)], [(0, 362900479), (5634, 0), (2, 0)]], 3, 4⟩,
    72057594037927936, 38304595343, 18277294972, ⟨[[(13920047060531, 0), (1140398270, 0), (1363324, 0), (2202, 0),
    (7, 0)], [(1708410250, 0), (240773, 0), (0, 924), (0, 3)], [(0, 554581), (91, 0)], [(185, 0)]], 3, 4⟩,
    17592186044416, 99200,
    4400236400188609213939804357729281437545240609249233315176853266107949221864289968774083486701899024835518809025848620903137033,
    lc0⟩))) (.sy (.sx (.leaf ⟨3115, 16, 5540, 967, 16, 4492, ⟨[[(22070491626799104, 0), (0, 3157819164592956),
    (15514283558, 0), (0, 467747), (0, 22)], [(14960714607007826, 0), (0, 1329008653149), (7296303, 0), (0, 372)],
    [(0, 4537021922642), (11259216, 0), (2769, 0)], [(1201788251, 0), (12522, 0), (2, 0)]], 3, 4⟩, ⟨[[(0,
    2330775365402624), (0, 2555949076088955), (0, 1904923), (0, 751181), (0, 48)], [(0, 22518043500555630), (0,
    191406477990), (0, 7857642), (0, 847)], [(2917064881360, 0), (45044180, 0), (0, 275)], [(0, 358323138), (4017,
    0), (2, 0)]], 3, 4⟩, 72057594037927936, 36417692572, 17020198205, ⟨[[(13976516263675, 0), (1153646006, 0),
    (1349808, 0), (2187, 0), (7, 0)], [(1712456010, 0), (242226, 0), (0, 956), (0, 3)], [(0, 561297), (91, 0)],
    [(187, 0)]], 3, 4⟩, 17592186044416, 127343,
    3871631394846513504057231437427948998089095027451221521745611660013475766437289638269308150195584234664401689176183421554172199,
    lc0⟩) (.leaf ⟨3107, 16, 5510, 957, 16, 4505, ⟨[[(3065599688704, 0), (0, 3196214492951968), (15740034386, 0), (0,
    480590), (0, 22)], [(14506931436528524, 0), (0, 1320806308930), (7496710, 0), (0, 362)], [(0, 4363552963265),
    (12731143, 0), (2959, 0)], [(1168308524, 0), (11873, 0), (2, 0)]], 3, 4⟩, ⟨[[(0, 23466944970407936), (0,
    2571328426543768), (0, 333241525), (0, 788985), (0, 50)], [(0, 22339355720172517), (0, 188144083211), (0,
    7894179), (0, 847)], [(2880758008335, 0), (45694442, 0), (0, 53)], [(0, 351005368), (4216, 0), (2, 0)]], 3, 4⟩,
    72057594037927936, 35508386334, 17071485810, ⟨[[(13977205016796, 0), (1119340936, 0), (1257495, 0), (1832, 0),
    (6, 0)], [(1708482434, 0), (267293, 0), (0, 840), (0, 2)], [(0, 563506), (83, 0)], [(188, 0)]], 3, 4⟩,
    17592186044416, 130499,
    4204326709022808189456857508313483756272657575249929606406306390096942483641832254208948719737774752719753883501634111404589079,
    lc0⟩)) (.leaf ⟨2451, 16, 4384, 660, 16, 3145, ⟨[[(11640891699658752, 0), (0, 2508821376784286), (11805278664, 0),
    (0, 413087), (0, 19)], [(22326189273077595, 0), (0, 2091281044547), (10818614, 0), (0, 635)], [(0,
    14101473264203), (47482634, 0), (9596, 0)], [(7563453889, 0), (88476, 0), (12, 0)]], 3, 4⟩, ⟨[[(0,
    4568811798593536), (0, 1792848210593585), (0, 981290072), (0, 610850), (0, 38)], [(0, 31496523652941355), (0,
    277349447965), (0, 12891577), (0, 1308)], [(8170078318990, 0), (126491664, 0), (0, 282)], [(0, 1969248915),
    (33467, 0), (11, 0)]], 3, 4⟩, 72057594037927936, 414184058590, 120043653690, ⟨[[(13918842111280, 0), (1551858750,
    0), (2500044, 0), (4823, 0), (22, 0)], [(2181335522, 0), (506952, 0), (0, 1993), (0, 7)], [(0, 915847), (187, 0),
    (1, 0)], [(392, 0)]], 3, 4⟩, 17592186044416, 278003,
    5118224124624623683922572842367795590982185242961560493003019983664923029925352516446404466578036677165519374774601380456327481,
    lc0⟩))
theorem c71 : checkR job con0 false ⟨7, 9, 7, 9, 13, 17⟩ 1 34400 t71 657 21 1280 60737 251 64000 = true := by decide +kernel

end PyX.Kron.T3b
