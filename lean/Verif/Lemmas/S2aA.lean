import Verif.Lemmas.S2aJob

/-!
# Temperature from pressure and entropy in subregion 2a, part A of the certificate
-/

namespace PyX.Kron.S2a

set_option Elab.async false

def t0 : CTree :=
  .sy (.sx (.sy (.sx (.leaf ⟨499, 16, 3096, 728, 16, 187, ⟨[[(269509197824, 0)], [(415538085888, 0)]], 3, 4⟩, ⟨[[(0,
    356206006504), (0, 3549044016183), (34827539447, 0), (0, 427724608), (5852511, 0)], [(0, 143670373040), (0,
    39762), (0, 833), (0, 5)], [(54378179, 0), (0, 45), (0, 1)], [(0, 27444)]], 3, 4⟩, 1099511627776, 0, 219682695,
    ⟨[[(70972160397212, 0), (328062980114, 0), (521853834, 0), (197850, 0), (2166, 0)], [(113480667759, 0),
    (361047952, 0), (205787, 0), (3092, 0), (37, 0)], [(0, 51230618), (0, 290342), (1480, 0), (24, 0)], [(34777, 0),
    (756, 0), (7, 0)]], 3, 4⟩, 68719476736, 149139989,
    1363194648977591503708955806118684703597898926115521874658931976860050664036863164921304580096, ⟨3, 0,
    -346318351265894, [143669567083, 54379094, 27443]⟩⟩) (.leaf ⟨530, 16, 3096, 733, 16, 191, ⟨[[(258771779584, 0)],
    [(415538085888, 0)]], 3, 4⟩, ⟨[[(0, 413856515571), (0, 3624963049512), (35572437019, 0), (0, 436874291),
    (5977697, 0)], [(0, 138167147110), (0, 48654), (0, 1019), (0, 7)], [(49238490, 0), (0, 52), (0, 1)], [(0,
    23398)]], 3, 4⟩, 1099511627776, 0, 184353546, ⟨[[(70989425830067, 0), (321246866927, 0), (500293978, 0), (188898,
    0), (2040, 0)], [(106862395699, 0), (332862331, 0), (190423, 0), (2803, 0), (33, 0)], [(0, 45434277), (0,
    249958), (1282, 0), (20, 0)], [(29416, 0), (616, 0), (5, 0)]], 3, 4⟩, 68719476736, 127164317,
    1384861087700239666112531295768122683938226613342463807199045309953178428230526596115670761472, ⟨3, 0,
    -342052024760083, [138166160902, 49239544, 23397]⟩⟩)) (.sx (.leaf ⟨499, 16, 3096, 766, 16, 202, ⟨[[(269509197824,
    0)], [(415538085888, 0)]], 3, 4⟩, ⟨[[(300178362825, 0), (0, 3427336845260), (30469288394, 0), (0, 341686263),
    (4017140, 0)], [(0, 155195025882), (0, 54386), (0, 1007), (0, 6)], [(58739734, 0), (0, 62), (0, 1)], [(0,
    29645)]], 3, 4⟩, 1099511627776, 0, 214667481, ⟨[[(64962879986746, 0), (285611682215, 0), (440540300, 0), (76880,
    0), (467, 0)], [(106720505690, 0), (329280959, 0), (84478, 0), (700, 0), (16, 0)], [(0, 45366632), (0, 299843),
    (325, 0), (12, 0)], [(22703, 0), (494, 0), (4, 0)]], 3, 4⟩, 68719476736, 67427464,
    628252946475166753581410227326875869924204945377107840990415418718749559635624462607824962941, ⟨3, 0,
    -374097898158880, [155193863908, 58741054, 29645]⟩⟩) (.leaf ⟨530, 16, 3096, 770, 16, 206, ⟨[[(258771779584, 0)],
    [(415538085888, 0)]], 3, 4⟩, ⟨[[(0, 5318001102), (0, 3495209890868), (31072548228, 0), (0, 348452898), (4096685,
    0)], [(0, 149018326159), (0, 66446), (0, 1231), (0, 8)], [(53105006, 0), (0, 71), (0, 1)], [(0, 25235)]], 3, 4⟩,
    1099511627776, 0, 175767599, ⟨[[(65044719672388, 0), (280314290595, 0), (423625912, 0), (73258, 0), (459, 0)],
    [(100569114558, 0), (303981174, 0), (78117, 0), (671, 0), (14, 0)], [(0, 40326524), (0, 259529), (306, 0), (10,
    0)], [(19402, 0), (409, 0), (3, 0)]], 3, 4⟩, 68719476736, 60363700,
    451522330601680026720977437731409790567047944080610151802206633682470082998559501194332441337, ⟨3, 0,
    -368914749217681, [149016906522, 53106524, 25235]⟩⟩))) (.sy (.sx (.leaf ⟨561, 16, 3096, 738, 16, 195,
    ⟨[[(248034361344, 0)], [(415538085888, 0)]], 3, 4⟩, ⟨[[(0, 283298381700), (0, 3700882950460), (36317316415, 0),
    (0, 446024092), (6102884, 0)], [(0, 133271732222), (0, 58902), (0, 1234), (0, 8)], [(44871029, 0), (0, 59), (0,
    1)], [(0, 20145)]], 3, 4⟩, 1099511627776, 0, 157730091, ⟨[[(70951965150682, 0), (314543439116, 0), (479984638,
    0), (179065, 0), (1899, 0)], [(100921394761, 0), (308024810, 0), (174860, 0), (2512, 0), (28, 0)], [(0,
    40523768), (0, 217581), (1098, 0), (16, 0)], [(24937, 0), (504, 0), (4, 0)]], 3, 4⟩, 68719476736, 111746384,
    1410379464219197759242152743817606111509699008686490475292515709506248706360119543804161163264, ⟨2, 0,
    -337973924483590, [133270538298, 44872235, 20145]⟩⟩) (.leaf ⟨592, 16, 3096, 743, 16, 199, ⟨[[(237296943104, 0)],
    [(415538085888, 0)]], 3, 4⟩, ⟨[[(2810901219, 0), (0, 3776803850694), (37062174876, 0), (0, 455174028), (6228070,
    0)], [(0, 128888716227), (0, 70628), (0, 1480), (0, 10)], [(41124119, 0), (0, 68), (0, 1)], [(0, 17497)]], 3, 4⟩,
    1099511627776, 0, 137457240, ⟨[[(70872295594582, 0), (307983154851, 0), (460829430, 0), (168625, 0), (1752, 0)],
    [(95563142065, 0), (285994916, 0), (159501, 0), (2230, 0), (24, 0)], [(0, 36335880), (0, 191272), (931, 0), (13,
    0)], [(21204, 0), (413, 0), (3, 0)]], 3, 4⟩, 68719476736, 97402379,
    1430727724666509734481441924724976437282994561891326079997918096160511384470726949205295759360, ⟨2, 0,
    -334051395611308, [128887284621, 41125490, 17496]⟩⟩)) (.leaf ⟨288, 16, 1548, 575, 16, 157, ⟨[[(396210733056, 0)],
    [(415538085888, 0)]], 3, 4⟩, ⟨[[(0, 371365334948), (0, 2663832110838), (23681373752, 0), (0, 265569283),
    (3122227, 0)], [(0, 208836737091), (0, 130325), (0, 2414), (0, 15)], [(136845085, 0), (0, 256), (0, 5)], [(0,
    119577)]], 3, 4⟩, 1099511627776, 0, 1418161535, ⟨[[(65124633557853, 0), (368117089820, 0), (729407612, 0),
    (168452, 0), (1452, 0)], [(185236161350, 0), (734005911, 0), (254768, 0), (3009, 0), (80, 0)], [(0, 136905834),
    (0, 1147185), (1943, 0), (78, 0), (1, 0)], [(123822, 0), (3374, 0), (36, 0)]], 3, 4⟩, 68719476736, 504501562,
    724647958006180008603494346444042280378734446177703037736379990198043538050113841584931894536, ⟨2, 0,
    -267772680377006, [208833952694, 136850559, 119572]⟩⟩))) (.sx (.sx (.leaf ⟨499, 16, 3096, 502, 16, 137,
    ⟨[[(269509197824, 0)], [(415538085888, 0)]], 3, 4⟩, ⟨[[(62037489758, 0), (0, 4003706088942), (62095392827, 0),
    (0, 1243810358), (26262200, 0)], [(0, 105256422953), (0, 100567), (0, 3243), (0, 43), (0, 1)], [(39837891, 0),
    (0, 114), (0, 4)], [(0, 20106)]], 3, 4⟩, 1099511627776, 0, 391990094, ⟨[[(57879613573559, 0), (387774933365, 0),
    (946204855, 0), (234294, 0), (0, 1388)], [(98267451883, 0), (479756080, 0), (177388, 0), (0, 1500), (33, 0)],
    [(0, 37585510), (0, 437745), (0, 785), (19, 0)], [(12538, 0), (452, 0), (6, 0)]], 3, 4⟩, 68719476736, 438262035,
    884701808543185356356088811115195491265130665563004455294891835665018532207677881536159581885, ⟨3, 0,
    -253719861622607, [105255244334, 39839229, 20106]⟩⟩) (.leaf ⟨530, 16, 3096, 502, 16, 139, ⟨[[(258771779584, 0)],
    [(415538085888, 0)]], 3, 4⟩, ⟨[[(0, 375317477626), (0, 4062163531736), (63001598937, 0), (0, 1261972115),
    (26645520, 0)], [(0, 100551675377), (0, 122241), (0, 3942), (0, 52), (0, 1)], [(35832482, 0), (0, 131), (0, 4)],
    [(0, 17028)]], 3, 4⟩, 1099511627776, 0, 368509649, ⟨[[(58034322303790, 0), (382942947990, 0), (919418162, 0),
    (220069, 0), (0, 1245)], [(92703738695, 0), (445224963, 0), (159079, 0), (0, 1259), (31, 0)], [(0, 33519814), (0,
    382928), (0, 625), (17, 0)], [(10845, 0), (382, 0), (5, 0)]], 3, 4⟩, 68719476736, 397262991,
    644605792305904258502772215332381528964659752739026579520723721676098885209667103425525034793, ⟨3, 0,
    -248927913307076, [100550242750, 35834014, 17027]⟩⟩)) (.sx (.leaf ⟨561, 16, 3096, 501, 16, 141, ⟨[[(248034361344,
    0)], [(415538085888, 0)]], 3, 4⟩, ⟨[[(531995585010, 0), (0, 4120623022565), (63907739003, 0), (0, 1280134751),
    (27028824, 0)], [(0, 96366574004), (0, 147038), (0, 4741), (0, 63), (0, 1)], [(32444337, 0), (0, 149), (0, 5)],
    [(0, 14567)]], 3, 4⟩, 1099511627776, 0, 351735743, ⟨[[(57723586238698, 0), (376038854506, 0), (892976552, 0),
    (213621, 0), (0, 1255)], [(87241209505, 0), (414343586, 0), (148176, 0), (0, 1194), (27, 0)], [(0, 29668776), (0,
    335872), (0, 556), (14, 0)], [(9034, 0), (315, 0), (4, 0)]], 3, 4⟩, 68719476736, 352142602,
    662802639992629675223811560271711201315970856140990603350643386671697260472194547885634913981, ⟨2, 0,
    -244381145395827, [96364850770, 32446078, 14566]⟩⟩) (.leaf ⟨592, 16, 3096, 502, 16, 143, ⟨[[(237296943104, 0)],
    [(415538085888, 0)]], 3, 4⟩, ⟨[[(0, 547136757751), (0, 4179084854900), (64813803560, 0), (0, 1298298393),
    (27412111, 0)], [(0, 92619549462), (0, 175217), (0, 5650), (0, 75), (0, 1)], [(29550522, 0), (0, 168), (0, 5)],
    [(0, 12574)]], 3, 4⟩, 1099511627776, 0, 339853243, ⟨[[(58092736352764, 0), (372504118483, 0), (868761476, 0),
    (199748, 0), (0, 1060)], [(83058373416, 0), (387375044, 0), (133235, 0), (0, 955), (26, 0)], [(0, 26955461), (0,
    298116), (0, 432), (13, 0)], [(8056, 0), (274, 0), (4, 0)]], 3, 4⟩, 68719476736, 326120218,
    651817886577727993841268254366009932525130647063608905413056788305579551964033594988305248903, ⟨2, 0,
    -240046982775965, [92617495984, 29552488, 12573]⟩⟩)))
theorem c0 : checkC job ⟨6, 8, 8, 10, 9, 13⟩ 3 100 lims t0 361 41 2048 3 3 32 = true := by decide +kernel

def t1 : CTree :=
  .sy (.sx (.sy (.leaf ⟨319, 16, 1548, 572, 16, 156, ⟨[[(385473314816, 0)], [(415538085888, 0)]], 3, 4⟩, ⟨[[(0,
    469517150712), (0, 2960718211030), (29053604868, 0), (0, 356820876), (4882305, 0)], [(0, 187370152337), (0,
    138910), (0, 2910), (0, 19)], [(110863248, 0), (0, 247), (0, 5)], [(0, 87474)]], 3, 4⟩, 1099511627776, 0,
    953854907, ⟨[[(70999417983646, 0), (393361996927, 0), (750417039, 0), (360285, 0), (4759, 0)], [(177565978632,
    0), (677519613, 0), (495217, 0), (8720, 0), (119, 0)], [(0, 125378445), (0, 835427), (5181, 0), (91, 0), (1, 0)],
    [(136757, 0), (3303, 0), (28, 0)]], 3, 4⟩, 68719476736, 684731468,
    1731069539883772376204264285290490330730892652076199074400080662385259663284092077890210889728, ⟨2, 0,
    -249905487399804, [187367336685, 110868247, 87470]⟩⟩) (.leaf ⟨319, 16, 1548, 588, 16, 165, ⟨[[(385473314816, 0)],
    [(415538085888, 0)]], 3, 4⟩, ⟨[[(436732820264, 0), (0, 2799581953831), (24887823926, 0), (0, 279102984),
    (3281315, 0)], [(0, 198180965508), (0, 186041), (0, 3446), (0, 21)], [(117257436, 0), (0, 330), (0, 6)], [(0,
    92522)]], 3, 4⟩, 1099511627776, 0, 990444677, ⟨[[(64869644619944, 0), (349303507048, 0), (660117388, 0), (143961,
    0), (1142, 0)], [(166775355226, 0), (630237623, 0), (208198, 0), (2246, 0), (58, 0)], [(0, 110959745), (0,
    887883), (1349, 0), (52, 0)], [(90659, 0), (2317, 0), (22, 0)]], 3, 4⟩, 68719476736, 371149701,
    645289105966375934398850997787826736789952508982257675795202594255095331954441727045063095092, ⟨2, 0,
    -264323111672870, [198176990724, 117264492, 92516]⟩⟩)) (.sy (.leaf ⟨350, 16, 1548, 580, 16, 162,
    ⟨[[(374735896576, 0)], [(415538085888, 0)]], 3, 4⟩, ⟨[[(0, 322288577293), (0, 3074605653009), (30170764944, 0),
    (0, 370546604), (5070084, 0)], [(0, 177366145197), (0, 190456), (0, 3990), (0, 26)], [(95658416, 0), (0, 308),
    (0, 6)], [(0, 68803)]], 3, 4⟩, 1099511627776, 0, 691141876, ⟨[[(70949579224040, 0), (378610361988, 0),
    (695893839, 0), (320757, 0), (4029, 0)], [(161761544312, 0), (594638275, 0), (414498, 0), (6847, 0), (88, 0)],
    [(0, 104040795), (0, 671594), (3712, 0), (61, 0)], [(102641, 0), (2291, 0), (16, 0)]], 3, 4⟩, 68719476736,
    529786226, 1659857926224608146773001251981934517649215048545959898143631802010204931714433304504381210624, ⟨2, 0,
    -244289638029029, [177362284726, 95664663, 68799]⟩⟩) (.leaf ⟨350, 16, 1548, 602, 16, 173, ⟨[[(374735896576, 0)],
    [(415538085888, 0)]], 3, 4⟩, ⟨[[(148855481928, 0), (0, 2935337738372), (26094164043, 0), (0, 292637366),
    (3440399, 0)], [(0, 189410905158), (0, 257540), (0, 4770), (0, 29)], [(102151508, 0), (0, 417), (0, 8)], [(0,
    73477)]], 3, 4⟩, 1099511627776, 0, 718668439, ⟨[[(64970000893461, 0), (333509003703, 0), (600658429, 0), (127495,
    0), (980, 0)], [(152168322690, 0), (548009025, 0), (176881, 0), (1823, 0), (43, 0)], [(0, 92368695), (0, 701142),
    (1024, 0), (36, 0)], [(69574, 0), (1659, 0), (14, 0)]], 3, 4⟩, 68719476736, 242817544,
    592242369376019731751634456920374344097014380443053680171707948698057626961624038733091236367, ⟨2, 0,
    -260877206043346, [189405402824, 102160411, 73470]⟩⟩))) (.sx (.sx (.leaf ⟨623, 16, 3096, 498, 16, 144,
    ⟨[[(226559524864, 0)], [(415538085888, 0)]], 3, 4⟩, ⟨[[(252363061227, 0), (0, 4208324868661), (65266542468, 0),
    (0, 1307384122), (27603684, 0)], [(0, 88629773376), (0, 205618), (0, 6631), (0, 88), (0, 2)], [(26870872, 0), (0,
    187), (0, 6)], [(0, 10865)]], 3, 4⟩, 1099511627776, 0, 329176084, ⟨[[(57824599880535, 0), (368671598935, 0),
    (856299567, 0), (198563, 0), (0, 1094)], [(78660382921, 0), (365328747, 0), (126922, 0), (0, 934), (23, 0)], [(0,
    24155299), (0, 266544), (0, 398), (11, 0)], [(6813, 0), (231, 0), (3, 0)]], 3, 4⟩, 68719476736, 310684870,
    610719708705305756580527782394993215994944412700292500473594886448290335778596508244231903125, ⟨2, 0,
    -234271271751242, [88627363623, 26873064, 10864]⟩⟩) (.leaf ⟨654, 16, 3096, 499, 16, 146, ⟨[[(215822106624, 0)],
    [(415538085888, 0)]], 3, 4⟩, ⟨[[(0, 429935915146), (0, 4266792237993), (66172428460, 0), (0, 1325550144),
    (27986928, 0)], [(0, 85604406399), (0, 241148), (0, 7776), (0, 104), (0, 2)], [(24723600, 0), (0, 209), (0, 7)],
    [(0, 9524)]], 3, 4⟩, 1099511627776, 0, 323431214, ⟨[[(58053252761948, 0), (364665072521, 0), (833354342, 0),
    (188145, 0), (0, 957)], [(75147368048, 0), (343371541, 0), (116347, 0), (0, 781), (22, 0)], [(0, 22074500), (0,
    238793), (0, 324), (10, 0)], [(6061, 0), (201, 0), (2, 0)]], 3, 4⟩, 68719476736, 288689727,
    621440670717800656356428991950357725773471891857773894158565991688327395249151654926268994614, ⟨2, 0,
    -230334007387850, [85601580259, 24726049, 9523]⟩⟩)) (.sy (.leaf ⟨350, 16, 1548, 621, 16, 183, ⟨[[(374735896576,
    0)], [(415538085888, 0)]], 3, 4⟩, ⟨[[(0, 171647185944), (0, 2804337069348), (22729205177, 0), (0, 236174717),
    (2568096, 0)], [(0, 200361335564), (0, 336497), (0, 5647), (0, 36)], [(108053269, 0), (0, 545), (0, 9)], [(0,
    77726)]], 3, 4⟩, 1099511627776, 0, 753456839, ⟨[[(60122815500533, 0), (298396216231, 0), (532372938, 0), (88760,
    0), (0, 110)], [(144019453274, 0), (513738188, 0), (129339, 0), (0, 191), (21, 0)], [(0, 81779030), (0, 671459),
    (0, 296), (21, 0)], [(47787, 0), (1198, 0), (11, 0)]], 3, 4⟩, 68719476736, 134668898,
    488708952140283965589056219436989096538198138295575525657314281237594337897834276789189345280, ⟨2, 0,
    -275956813329089, [200353692005, 108065638, 77717]⟩⟩) (.leaf ⟨350, 16, 1548, 636, 16, 192, ⟨[[(374735896576, 0)],
    [(415538085888, 0)]], 3, 4⟩, ⟨[[(62122898693, 0), (0, 2680698062117), (19911944579, 0), (0, 192310957), (1974577,
    0)], [(0, 210217511906), (0, 428520), (0, 6681), (0, 47)], [(113363577, 0), (0, 693), (0, 11)], [(0, 81551)]], 3,
    4⟩, 1099511627776, 0, 787235005, ⟨[[(55819330101979, 0), (269435489632, 0), (479691948, 0), (96409, 0), (0,
    499)], [(136439629248, 0), (485653007, 0), (146639, 0), (0, 1006), (10, 0)], [(0, 71960017), (0, 620046), (0,
    964), (12, 0)], [(32284, 0), (863, 0), (8, 0)]], 3, 4⟩, 68719476736, 79638636,
    302876990367450617321245430852478223616517128121596711884620459109345005050253087675787509760, ⟨2, 0,
    -289528459886257, [210207152268, 113380341, 81539]⟩⟩)))
theorem c1 : checkC job ⟨6, 8, 8, 10, 9, 13⟩ 3 100 lims t1 443 41 2048 3 3 32 = true := by decide +kernel

def t2 : CTree :=
  .sx (.sy (.sx (.sy (.leaf ⟨381, 16, 1548, 592, 16, 169, ⟨[[(363998478336, 0)], [(415538085888, 0)]], 3, 4⟩, ⟨[[(0,
    513284532138), (0, 3207477568038), (31474050642, 0), (0, 386560391), (5289158, 0)], [(0, 169994472639), (0,
    256215), (0, 5368), (0, 35)], [(84228790, 0), (0, 381), (0, 8)], [(0, 55662)]], 3, 4⟩, 1099511627776, 0,
    521658684, ⟨[[(71013979565418, 0), (363154349511, 0), (639625375, 0), (281721, 0), (3328, 0)], [(148693684629,
    0), (523738221, 0), (345166, 0), (5278, 0), (63, 0)], [(0, 87899589), (0, 547191), (2616, 0), (39, 0)], [(78940,
    0), (1605, 0), (8, 0)]], 3, 4⟩, 68719476736, 373720850,
    1618524433289440971840784703241544029331843626137211542035266790932529926054811589267773456384, ⟨2, 0,
    -240307147671755, [169989279277, 84236511, 55657]⟩⟩) (.leaf ⟨381, 16, 1548, 612, 16, 180, ⟨[[(363998478336, 0)],
    [(415538085888, 0)]], 3, 4⟩, ⟨[[(457060625328, 0), (0, 3054133693653), (27149533009, 0), (0, 304481054),
    (3579593, 0)], [(0, 181061052854), (0, 345550), (0, 6401), (0, 40)], [(89708385, 0), (0, 514), (0, 10)], [(0,
    59287)]], 3, 4⟩, 1099511627776, 0, 535506376, ⟨[[(64887518866914, 0), (320250303304, 0), (554830158, 0), (112852,
    0), (802, 0)], [(139662681078, 0), (483824798, 0), (149846, 0), (1401, 0), (32, 0)], [(0, 77779265), (0, 568628),
    (724, 0), (25, 0)], [(53700, 0), (1206, 0), (9, 0)]], 3, 4⟩, 68719476736, 168557638,
    542187026891444928352446387802457700101262513638075194458794951656411838964552816303480054931, ⟨2, 0,
    -255948441307195, [181053670235, 89719361, 59279]⟩⟩)) (.sy (.leaf ⟨412, 16, 1548, 596, 16, 174, ⟨[[(353261060096,
    0)], [(415538085888, 0)]], 3, 4⟩, ⟨[[(532562802778, 0), (0, 3302397768082), (32404724111, 0), (0, 398000392),
    (5445637, 0)], [(0, 161870842755), (0, 333482), (0, 6986), (0, 45)], [(74172229, 0), (0, 459), (0, 10)], [(0,
    45335)]], 3, 4⟩, 1099511627776, 0, 401262289, ⟨[[(70679196701689, 0), (351570047793, 0), (602607545, 0), (240932,
    0), (2682, 0)], [(137059428996, 0), (469756735, 0), (278006, 0), (3929, 0), (45, 0)], [(0, 74754867), (0,
    463973), (1755, 0), (24, 0)], [(60366, 0), (1139, 0), (3, 0)]], 3, 4⟩, 68719476736, 278809066,
    1562235690656151694684104894026175469437410250960827491985873938717063942636475245252556357632, ⟨2, 0,
    -233618682785191, [161864083250, 74181523, 45329]⟩⟩) (.leaf ⟨412, 16, 1548, 619, 16, 186, ⟨[[(353261060096, 0)],
    [(415538085888, 0)]], 3, 4⟩, ⟨[[(455305825922, 0), (0, 3155971196477), (28053905314, 0), (0, 314634207),
    (3698896, 0)], [(0, 173036767429), (0, 451396), (0, 8361), (0, 52)], [(79284230, 0), (0, 621), (0, 11)], [(0,
    48464)]], 3, 4⟩, 1099511627776, 0, 408098478, ⟨[[(64897038439558, 0), (309948485152, 0), (519683905, 0), (102054,
    0), (674, 0)], [(129168008258, 0), (433046373, 0), (129552, 0), (1102, 0), (24, 0)], [(0, 66508810), (0, 470794),
    (518, 0), (17, 0)], [(42433, 0), (900, 0), (6, 0)]], 3, 4⟩, 68719476736, 126271625,
    492667539706199795691889911805072958231255296374667053245193507143378033603224277072629442619, ⟨2, 0,
    -249730316080722, [173027123474, 79297490, 48456]⟩⟩))) (.sx (.leaf ⟨381, 16, 1548, 416, 16, 127,
    ⟨[[(363998478336, 0)], [(415538085888, 0)]], 3, 4⟩, ⟨[[(0, 289088284099), (0, 3711601655009), (57558468108, 0),
    (0, 1153080084), (24344206, 0)], [(0, 127751213174), (0, 664739), (0, 21438), (0, 286), (0, 5)], [(63290412, 0),
    (0, 988), (0, 32)], [(0, 41833), (0, 1)]], 3, 4⟩, 1099511627776, 0, 606270088, ⟨[[(57993023102670, 0),
    (418891462675, 0), (1101288171, 0), (289123, 0), (0, 1637)], [(128894544476, 0), (677471896, 0), (268865, 0), (0,
    1962), (64, 0)], [(0, 64931910), (0, 806277), (0, 1214), (43, 0)], [(31008, 0), (1175, 0), (16, 0)]], 3, 4⟩,
    68719476736, 1414857885,
    746558302256482843601915581121174439202241242377509757715310681833780298244014532648111508858, ⟨2, 0,
    -180585844700076, [127743422888, 63301994, 41825]⟩⟩) (.leaf ⟨412, 16, 1548, 416, 16, 130, ⟨[[(353261060096, 0)],
    [(415538085888, 0)]], 3, 4⟩, ⟨[[(199036519354, 0), (0, 3799340259467), (58916085957, 0), (0, 1180345267),
    (24918783, 0)], [(0, 120943016656), (0, 860208), (0, 27743), (0, 370), (0, 7)], [(55409116, 0), (0, 1183), (0,
    38), (0, 1)], [(0, 33875), (0, 1)]], 3, 4⟩, 1099511627776, 0, 519045760, ⟨[[(57813391407934, 0), (408292526028,
    0), (1050761359, 0), (273776, 0), (0, 1552)], [(118926911923, 0), (611838464, 0), (242097, 0), (0, 1759), (52,
    0)], [(0, 55222921), (0, 671781), (0, 1020), (32, 0)], [(24257, 0), (898, 0), (11, 0)]], 3, 4⟩, 68719476736,
    1170486814, 664011771318625077362737944693355117902667303397778009658194846797763339580484774701095245717, ⟨2, 0,
    -174542694034913, [120932935761, 55422977, 33867]⟩⟩))) (.sy (.sy (.sx (.leaf ⟨443, 16, 1548, 602, 16, 179,
    ⟨[[(342523641856, 0)], [(415538085888, 0)]], 3, 4⟩, ⟨[[(0, 384597757073), (0, 3397325720637), (33335235166, 0),
    (0, 409441443), (5602116, 0)], [(0, 154883533316), (0, 426385), (0, 8933), (0, 58)], [(66005525, 0), (0, 545),
    (0, 11)], [(0, 37526)]], 3, 4⟩, 1099511627776, 0, 317284483, ⟨[[(70973776427566, 0), (342726491763, 0),
    (569816669, 0), (220446, 0), (2307, 0)], [(127834578140, 0), (424923706, 0), (239472, 0), (3097, 0), (32, 0)],
    [(0, 65029590), (0, 393846), (1218, 0), (14, 0)], [(48435, 0), (823, 0)]], 3, 4⟩, 68719476736, 219122675,
    1481247234021773199102698896462923749592205132793259885180716201114436906357556617556371963904, ⟨2, 0,
    -227166390396192, [154874890759, 66016577, 37520]⟩⟩) (.leaf ⟨474, 16, 1548, 607, 16, 184, ⟨[[(331786223616, 0)],
    [(415538085888, 0)]], 3, 4⟩, ⟨[[(0, 23109796021), (0, 3492262975038), (34265551346, 0), (0, 420883754), (5758592,
    0)], [(0, 148809907508), (0, 536798), (0, 11246), (0, 73)], [(59269476, 0), (0, 642), (0, 13)], [(0, 31498)]], 3,
    4⟩, 1099511627776, 0, 257222451, ⟨[[(70864740945533, 0), (333055259496, 0), (538834081, 0), (189554, 0), (1835,
    0)], [(119348071479, 0), (385984514, 0), (195090, 0), (2250, 0), (22, 0)], [(0, 56732047), (0, 341177), (761, 0),
    (7, 0)], [(38569, 0), (596, 0), (0, 1)]], 3, 4⟩, 68719476736, 173867175,
    1356594895488327071866927516954751967374616159745596276923497192234102446388643482412288835584, ⟨2, 0,
    -220893423438894, [148799027009, 59282481, 31491]⟩⟩)) (.sx (.leaf ⟨443, 16, 1548, 627, 16, 192, ⟨[[(342523641856,
    0)], [(415538085888, 0)]], 3, 4⟩, ⟨[[(0, 493873115844), (0, 3257819455358), (28958078360, 0), (0, 324788593),
    (3818193, 0)], [(0, 166135160647), (0, 579127), (0, 10728), (0, 66)], [(70795255, 0), (0, 741), (0, 14)], [(0,
    40254)]], 3, 4⟩, 1099511627776, 0, 318779479, ⟨[[(65164711010006, 0), (301128120316, 0), (488014854, 0), (93887,
    0), (597, 0)], [(120477666789, 0), (390396412, 0), (114338, 0), (909, 0), (18, 0)], [(0, 57861669), (0, 394397),
    (390, 0), (12, 0)], [(34629, 0), (688, 0), (3, 0)]], 3, 4⟩, 68719476736, 94281240,
    440842192873189912419737462092254884092441865119587871706522570125498735491982558957533883831, ⟨2, 0,
    -243664508134463, [166122787853, 70811078, 40245]⟩⟩) (.leaf ⟨474, 16, 1548, 634, 16, 198, ⟨[[(331786223616, 0)],
    [(415538085888, 0)]], 3, 4⟩, ⟨[[(0, 241985553810), (0, 3359680665052), (29862011471, 0), (0, 334944465),
    (3937483, 0)], [(0, 160136319064), (0, 731449), (0, 13550), (0, 84)], [(63774425, 0), (0, 874), (0, 16)], [(0,
    33897)]], 3, 4⟩, 1099511627776, 0, 254617242, ⟨[[(65097288715835, 0), (291787761475, 0), (458875426, 0), (83634,
    0), (469, 0)], [(112518005155, 0), (353784318, 0), (98302, 0), (669, 0), (13, 0)], [(0, 50452307), (0, 334993),
    (253, 0), (8, 0)], [(28009, 0), (527, 0), (2, 0)]], 3, 4⟩, 68719476736, 70773127,
    387701139730609497531266641488952331884016476395450977773414905894553968006356732246880786842, ⟨2, 0,
    -237700531744027, [160120692107, 63793104, 33887]⟩⟩))) (.sx (.leaf ⟨443, 16, 1548, 417, 16, 133,
    ⟨[[(342523641856, 0)], [(415538085888, 0)]], 3, 4⟩, ⟨[[(0, 123683297688), (0, 3887098059835), (60273084538, 0),
    (0, 1207618718), (25493213, 0)], [(0, 115087457903), (0, 1093821), (0, 35281), (0, 471), (0, 8)], [(49035030, 0),
    (0, 1399), (0, 45), (0, 1)], [(0, 27887), (0, 1)]], 3, 4⟩, 1099511627776, 0, 460012382, ⟨[[(57936032234412, 0),
    (399690301969, 0), (1004229282, 0), (255362, 0), (0, 1361)], [(110775646278, 0), (556336291, 0), (216082, 0), (0,
    1464), (43, 0)], [(0, 47927923), (0, 567755), (0, 814), (26, 0)], [(19802, 0), (711, 0), (8, 0)]], 3, 4⟩,
    68719476736, 978204598,
    594743208376192405340264197787074875828675057266303489992758685235212402718047074909996518778, ⟨2, 0,
    -168788435322310, [115074639503, 49051423, 27878]⟩⟩) (.leaf ⟨474, 16, 1548, 415, 16, 135, ⟨[[(331786223616, 0)],
    [(415538085888, 0)]], 3, 4⟩, ⟨[[(0, 291085023039), (0, 3945651705783), (61176187444, 0), (0, 1225821880),
    (25875794, 0)], [(0, 109189134503), (0, 1359828), (0, 43865), (0, 585), (0, 10)], [(43476250, 0), (0, 1626), (0,
    52), (0, 1)], [(0, 23115), (0, 1)]], 3, 4⟩, 1099511627776, 0, 416347467, ⟨[[(57998587769532, 0), (394068260341,
    0), (974938991, 0), (244616, 0), (0, 1259)], [(103612719743, 0), (512326171, 0), (197543, 0), (0, 1286), (37,
    0)], [(0, 41930849), (0, 488263), (0, 681), (21, 0)], [(16296, 0), (573, 0), (6, 0)]], 3, 4⟩, 68719476736,
    877470466, 523583528150320927195000136379735339209171614138347143270579700124834075996282443123864923083, ⟨2, 0,
    -162068544370927, [109173199164, 43495298, 23105]⟩⟩)))
theorem c2 : checkC job ⟨6, 8, 8, 10, 9, 13⟩ 3 100 lims t2 283 41 1024 3 3 32 = true := by decide +kernel

def t3 : CTree :=
  .sy (.sx (.sy (.sx (.leaf ⟨505, 16, 1548, 609, 16, 188, ⟨[[(321048805376, 0)], [(415538085888, 0)]], 3, 4⟩,
    ⟨[[(208728439576, 0), (0, 3568231313213), (35009415987, 0), (0, 430040114), (5883770, 0)], [(0, 142722794476),
    (0, 663167), (0, 13893), (0, 90)], [(53354160, 0), (0, 744), (0, 16)], [(0, 26619)]], 3, 4⟩, 1099511627776, 0,
    212233408, ⟨[[(70799200685823, 0), (325755019081, 0), (515766949, 0), (164676, 0), (1457, 0)], [(111950756922,
    0), (354276127, 0), (160240, 0), (1602, 0), (13, 0)], [(0, 49961324), (0, 299742), (433, 0), (2, 0)], [(31170,
    0), (437, 0), (0, 2)]], 3, 4⟩, 68719476736, 139418844,
    1194038645712320320466746526003056800039470207808976360111263132395359032178746453101316669440, ⟨2, 0,
    -213619050162068, [142709352673, 53369242, 26611]⟩⟩) (.leaf ⟨536, 16, 1548, 612, 16, 192, ⟨[[(310311387136, 0)],
    [(415538085888, 0)]], 3, 4⟩, ⟨[[(0, 438722508584), (0, 3644211987188), (35753022184, 0), (0, 439198148),
    (6008945, 0)], [(0, 137339900446), (0, 809711), (0, 16964), (0, 110)], [(48370066, 0), (0, 856), (0, 18)], [(0,
    22741)]], 3, 4⟩, 1099511627776, 0, 178794287, ⟨[[(70991428393075, 0), (319556236880, 0), (494462857, 0), (145104,
    0), (1148, 0)], [(105672971791, 0), (326750713, 0), (133256, 0), (1091, 0), (7, 0)], [(0, 44546900), (0, 265024),
    (185, 0), (0, 2)], [(25748, 0), (317, 0), (0, 3)]], 3, 4⟩, 68719476736, 107306891,
    1008068463606909924430385877063547947706434820356243234545474245672952500942312645187631841280, ⟨2, 0,
    -206565149355434, [137323488479, 48387417, 22733]⟩⟩)) (.sx (.leaf ⟨505, 16, 1548, 638, 16, 203, ⟨[[(321048805376,
    0)], [(415538085888, 0)]], 3, 4⟩, ⟨[[(0, 84245940543), (0, 3444588873921), (30614846879, 0), (0, 343410431),
    (4036879, 0)], [(0, 154115109220), (0, 906755), (0, 16798), (0, 104)], [(57605690, 0), (0, 1017), (0, 19)], [(0,
    28746), (0, 1)]], 3, 4⟩, 1099511627776, 0, 206382154, ⟨[[(65057997212417, 0), (284476458343, 0), (436564331, 0),
    (75641, 0), (370, 0)], [(105567830953, 0), (323876368, 0), (85784, 0), (488, 0), (10, 0)], [(0, 44400356), (0,
    288696), (157, 0), (5, 0)], [(22982, 0), (411, 0), (1, 0)]], 3, 4⟩, 68719476736, 54767401,
    337049369308575782288266029081031829824735285644790614269888117311335972100619775506990662569, ⟨2, 0,
    -230663123313296, [154095737195, 57627426, 28735]⟩⟩) (.leaf ⟨536, 16, 1548, 639, 16, 207, ⟨[[(310311387136, 0)],
    [(415538085888, 0)]], 3, 4⟩, ⟨[[(130081440048, 0), (0, 3512545631332), (31216555844, 0), (0, 350186670),
    (4116381, 0)], [(0, 148075502238), (0, 1105430), (0, 20480), (0, 127), (0, 1)], [(52142716, 0), (0, 1169), (0,
    22)], [(0, 24521), (0, 1)]], 3, 4⟩, 1099511627776, 0, 169552276, ⟨[[(65005962256267, 0), (278817980891, 0),
    (419865805, 0), (69257, 0), (286, 0)], [(99408129584, 0), (299224445, 0), (75797, 0), (346, 0), (7, 0)], [(0,
    39360016), (0, 252071), (87, 0), (3, 0)], [(19058, 0), (326, 0), (1, 0)]], 3, 4⟩, 68719476736, 46494843,
    288415759860445732056425713701004938263446192056314860270329480799290167634319297419561372409, ⟨2, 0,
    -222703051648827, [148051886017, 52167684, 24509]⟩⟩))) (.sy (.sx (.leaf ⟨567, 16, 1548, 614, 16, 196,
    ⟨[[(299573968896, 0)], [(415538085888, 0)]], 3, 4⟩, ⟨[[(195139439788, 0), (0, 3720206955709), (36496328893, 0),
    (0, 448358123), (6134118, 0)], [(0, 132545916265), (0, 978346), (0, 20497), (0, 133)], [(44126113, 0), (0, 978),
    (0, 20)], [(0, 19616)]], 3, 4⟩, 1099511627776, 0, 153534001, ⟨[[(70811147101125, 0), (312479248594, 0),
    (473950733, 0), (121663, 0), (820, 0)], [(99721393219, 0), (302208494, 0), (106650, 0), (640, 0), (2, 0)], [(0,
    39709643), (0, 236298), (9, 0), (0, 5)], [(21186, 0), (236, 0), (0, 3)]], 3, 4⟩, 68719476736, 86897309,
    805008213721507603805557947149328016878073015553481715446753164165651136350308269928736620544, ⟨1, 0,
    -199693339538821, [132526086462, 44145932, 19607]⟩⟩) (.leaf ⟨598, 16, 1548, 614, 16, 199, ⟨[[(288836550656, 0)],
    [(415538085888, 0)]], 3, 4⟩, ⟨[[(0, 213137149339), (0, 3777237273816), (37053094672, 0), (0, 455232732),
    (6227991, 0)], [(0, 127608187480), (0, 1165213), (0, 24412), (0, 158)], [(40275966, 0), (0, 1104), (0, 23)], [(0,
    16981)]], 3, 4⟩, 1099511627776, 0, 133620014, ⟨[[(70928680824283, 0), (308109728130, 0), (459594616, 0), (104898,
    0), (564, 0)], [(94659981401, 0), (282066852, 0), (86891, 0), (285, 0), (0, 3)], [(0, 35810458), (0, 212843), (0,
    131), (0, 7)], [(17799, 0), (173, 0), (0, 3)]], 3, 4⟩, 68719476736, 73287192,
    614095753350307202876654152090941457634873375106375049152218626644659921842807619860463353856, ⟨1, 0,
    -192007232661396, [127584570437, 40298348, 16971]⟩⟩)) (.leaf ⟨291, 16, 774, 476, 16, 158, ⟨[[(421980536832, 0)],
    [(415538085888, 0)]], 3, 4⟩, ⟨[[(0, 325911262945), (0, 2681191553393), (23824941900, 0), (0, 267305797),
    (3141910, 0)], [(0, 208029678684), (0, 2165609), (0, 40126), (0, 249), (0, 1)], [(134788974, 0), (0, 4214), (0,
    78)], [(0, 116705), (0, 4)]], 3, 4⟩, 1099511627776, 0, 1368775621, ⟨[[(65105096085153, 0), (365665914007, 0),
    (720943460, 0), (149841, 0), (625, 0)], [(183303546964, 0), (722192812, 0), (232408, 0), (953, 0), (25, 0)], [(0,
    133815566), (0, 1124938), (140, 0), (13, 0), (0, 1)], [(118922, 0), (2557, 0), (1, 0), (0, 1)]], 3, 4⟩,
    68719476736, 600590874,
    478013507670522464545712607246117928277485417511133260987709388527214914510527229267994281809, ⟨1, 0,
    -156655915797540, [207983414154, 134878998, 116627]⟩⟩))) (.sx (.sx (.leaf ⟨505, 16, 1548, 413, 16, 137,
    ⟨[[(321048805376, 0)], [(415538085888, 0)]], 3, 4⟩, ⟨[[(0, 138233945953), (0, 4004230547453), (62078477212, 0),
    (0, 1244035924), (26258179, 0)], [(0, 104015198647), (0, 1668614), (0, 53832), (0, 719), (0, 13)], [(38869475,
    0), (0, 1873), (0, 60), (0, 1)], [(0, 19403), (0, 1)]], 3, 4⟩, 1099511627776, 0, 385647755, ⟨[[(57945940542730,
    0), (388046781303, 0), (946737326, 0), (235771, 0), (0, 1207)], [(97188956037, 0), (473817283, 0), (182463, 0),
    (0, 1177), (31, 0)], [(0, 36874151), (0, 423317), (0, 592), (16, 0)], [(13436, 0), (464, 0), (5, 0)]], 3, 4⟩,
    68719476736, 797276191,
    461785732200037604857827016248391612844592486616707765200455661406418280575645287005478246293, ⟨2, 0,
    -155669201447890, [103995645299, 38891416, 19392]⟩⟩) (.leaf ⟨536, 16, 1548, 411, 16, 139, ⟨[[(310311387136, 0)],
    [(415538085888, 0)]], 3, 4⟩, ⟨[[(288977631004, 0), (0, 4062838597876), (62979824097, 0), (0, 1262262603),
    (26640337, 0)], [(0, 99440201970), (0, 2024089), (0, 65309), (0, 873), (0, 16)], [(35005397, 0), (0, 2140), (0,
    69), (0, 1)], [(0, 16470), (0, 1)]], 3, 4⟩, 1099511627776, 0, 363831658, ⟨[[(57799278255856, 0), (381743436389,
    0), (919599738, 0), (228415, 0), (0, 1183)], [(91400257477, 0), (439863144, 0), (170010, 0), (0, 1107), (26, 0)],
    [(0, 32582288), (0, 369656), (0, 528), (13, 0)], [(11106, 0), (379, 0), (4, 0)]], 3, 4⟩, 68719476736, 725296950,
    418676797404802218995873432588034791038993861119901943997975389257714460803006482449667788154, ⟨2, 0,
    -149544561252111, [99416483847, 35030474, 16458]⟩⟩)) (.sy (.leaf ⟨291, 16, 774, 485, 16, 166, ⟨[[(421980536832,
    0)], [(415538085888, 0)]], 3, 4⟩, ⟨[[(204359620950, 0), (0, 2544295807014), (20609843614, 0), (0, 214285651),
    (2329142, 0)], [(0, 218578054465), (0, 2810633), (0, 47196), (0, 303), (0, 2)], [(141584096, 0), (0, 5471), (0,
    92), (0, 1)], [(0, 122640), (0, 5)]], 3, 4⟩, 1099511627776, 0, 1432020584, ⟨[[(59997717289328, 0), (328401497401,
    0), (647600263, 0), (122918, 0), (0, 282)], [(172969457073, 0), (681281065, 0), (204602, 0), (0, 586), (24, 0)],
    [(0, 117672373), (0, 1062734), (0, 757), (24, 0)], [(83599, 0), (2178, 0), (14, 0)]], 3, 4⟩, 68719476736,
    344986947, 402140438151056706847853620676296123463138743019115012069212233319463292737733927888571941727, ⟨1, 0,
    -164587860901212, [218514219934, 141708314, 122532]⟩⟩) (.leaf ⟨291, 16, 774, 492, 16, 173, ⟨[[(421980536832, 0)],
    [(415538085888, 0)]], 3, 4⟩, ⟨[[(0, 178157176261), (0, 2416016398523), (17932198434, 0), (0, 173345552),
    (1778525, 0)], [(0, 227814618697), (0, 3555901), (0, 55498), (0, 391), (0, 4)], [(147516712, 0), (0, 6923), (0,
    108), (0, 1)], [(0, 127844), (0, 6)]], 3, 4⟩, 1099511627776, 0, 1489377591, ⟨[[(55866487567471, 0),
    (299134670208, 0), (591436963, 0), (134115, 0), (0, 684)], [(164211793983, 0), (648178736, 0), (229761, 0), (0,
    1494), (16, 0)], [(0, 104134236), (0, 989186), (0, 1565), (20, 0)], [(58006, 0), (1705, 0), (15, 0)]], 3, 4⟩,
    68719476736, 218919417,
    464684790121398389444630682544145270751126852807467149759753886895174092564538245033436317247, ⟨1, 0,
    -171528312866926, [227728674991, 147683966, 127699]⟩⟩)))
theorem c3 : checkC job ⟨6, 8, 8, 10, 9, 13⟩ 3 100 lims t3 365 41 1024 3 3 32 = true := by decide +kernel

def t4 : CTree :=
  .sy (.sx (.sy (.leaf ⟨322, 16, 774, 470, 16, 156, ⟨[[(411243118592, 0)], [(415538085888, 0)]], 3, 4⟩,
    ⟨[[(436688691959, 0), (0, 2961176467725), (29044004280, 0), (0, 356882981), (4882221, 0)], [(0, 185656430289),
    (0, 2286802), (0, 47911), (0, 311)], [(108716885, 0), (0, 4023), (0, 84), (0, 1)], [(0, 85096), (0, 3)]], 3, 4⟩,
    1099511627776, 0, 919418217, ⟨[[(70672355028087, 0), (392040620934, 0), (746830387, 0), (177209, 0), (619, 0)],
    [(175363052023, 0), (667169039, 0), (212321, 0), (0, 472), (0, 42)], [(0, 123029575), (0, 956074), (0, 1653), (0,
    71), (0, 2)], [(110423, 0), (1206, 0), (0, 42), (0, 1)]], 3, 4⟩, 68719476736, 1135742309,
    740150772164901842817211196158712104680887893069416386233452324602447570578590680700499787776, ⟨1, 0,
    -138670795531629, [185610081475, 108798406, 85032]⟩⟩) (.leaf ⟨322, 16, 774, 484, 16, 166, ⟨[[(411243118592, 0)],
    [(415538085888, 0)]], 3, 4⟩, ⟨[[(328536018359, 0), (0, 2817166601425), (25027218940, 0), (0, 280865392),
    (3300879, 0)], [(0, 197573991470), (0, 3081492), (0, 57106), (0, 355), (0, 2)], [(115656877, 0), (0, 5421), (0,
    101), (0, 1)], [(0, 90573), (0, 4)]], 3, 4⟩, 1099511627776, 0, 959854791, ⟨[[(64901321410925, 0), (347255539607,
    0), (653150262, 0), (120840, 0), (224, 0)], [(165299966538, 0), (620950338, 0), (181762, 0), (206, 0), (7, 0)],
    [(0, 108750279), (0, 878591), (0, 236), (0, 1), (0, 1)], [(86046, 0), (1707, 0), (0, 3)]], 3, 4⟩, 68719476736,
    458841970, 374421746089700691417470108627216135862667482893833498555042962991990645460871182118106116916, ⟨1, 0,
    -147559949091349, [197508163621, 115772663, 90483]⟩⟩)) (.sy (.leaf ⟨353, 16, 774, 478, 16, 163, ⟨[[(400505700352,
    0)], [(415538085888, 0)]], 3, 4⟩, ⟨[[(0, 340269459545), (0, 3094275821976), (30342524748, 0), (0, 372927690),
    (5101252, 0)], [(0, 176993992911), (0, 3147214), (0, 65941), (0, 428), (0, 1)], [(94512725, 0), (0, 5051), (0,
    106), (0, 1)], [(0, 67535), (0, 4)]], 3, 4⟩, 1099511627776, 0, 672831781, ⟨[[(70951890159340, 0), (376190239821,
    0), (683687875, 0), (112486, 0), (0, 492)], [(160400092698, 0), (581875882, 0), (124201, 0), (0, 2209), (0, 67)],
    [(0, 103066115), (0, 783459), (0, 2361), (0, 80), (0, 2)], [(82160, 0), (616, 0), (0, 40), (0, 1)]], 3, 4⟩,
    68719476736, 1039498000,
    601420355386073100539626633482596829867504438722480209664757572752462021924136245543154221056, ⟨1, 0,
    -129708906090296, [176930207859, 94615084, 67462]⟩⟩) (.leaf ⟨353, 16, 774, 493, 16, 174, ⟨[[(400505700352, 0)],
    [(415538085888, 0)]], 3, 4⟩, ⟨[[(0, 120327464651), (0, 2953239246412), (26227686265, 0), (0, 294436286),
    (3459796, 0)], [(0, 188961164422), (0, 4254529), (0, 78864), (0, 491), (0, 2)], [(100854301, 0), (0, 6830), (0,
    127), (0, 1)], [(0, 72118), (0, 5)]], 3, 4⟩, 1099511627776, 0, 698708482, ⟨[[(65048341963741, 0), (331786418746,
    0), (594901602, 0), (99509, 0), (0, 7)], [(151031468949, 0), (540443798, 0), (146584, 0), (0, 179), (0, 4)], [(0,
    90773839), (0, 700079), (0, 384), (0, 8)], [(65490, 0), (1185, 0), (0, 5)]], 3, 4⟩, 68719476736, 423598046,
    342996386637685353573061633209035620672124096510619602348416790268239820447279348569563531089, ⟨1, 0,
    -138462267850990, [188870283236, 101000151, 72014]⟩⟩))) (.sx (.sy (.leaf ⟨322, 16, 774, 495, 16, 175,
    ⟨[[(411243118592, 0)], [(415538085888, 0)]], 3, 4⟩, ⟨[[(174605296284, 0), (0, 2682524128598), (21722465393, 0),
    (0, 225934272), (2455184, 0)], [(0, 208307576397), (0, 4013175), (0, 67413), (0, 434), (0, 3)], [(121889177, 0),
    (0, 7062), (0, 119), (0, 1)], [(0, 95514), (0, 6)]], 3, 4⟩, 1099511627776, 0, 1005506089, ⟨[[(60017152987098, 0),
    (311553318437, 0), (583040106, 0), (105009, 0), (0, 254)], [(156360628792, 0), (584024345, 0), (169265, 0), (0,
    508), (14, 0)], [(0, 96113744), (0, 822805), (0, 596), (14, 0)], [(61791, 0), (1510, 0), (8, 0)]], 3, 4⟩,
    68719476736, 227475844,
    422315190529627841453259034638939755366606973524965823005061207896982569267658019972280097523, ⟨1, 0,
    -155560187295097, [208216437553, 122049494, 95388]⟩⟩) (.leaf ⟨322, 16, 774, 503, 16, 183, ⟨[[(411243118592, 0)],
    [(415538085888, 0)]], 3, 4⟩, ⟨[[(205799681599, 0), (0, 2556031797092), (18963101551, 0), (0, 183405370),
    (1880930, 0)], [(0, 217858029137), (0, 5095038), (0, 79567), (0, 563), (0, 6)], [(127412291, 0), (0, 8969), (0,
    140), (0, 1)], [(0, 99919), (0, 7)]], 3, 4⟩, 1099511627776, 0, 1048218158, ⟨[[(55772608658458, 0), (282396912560,
    0), (528730821, 0), (113981, 0), (0, 533)], [(148225733969, 0), (553529565, 0), (189573, 0), (0, 1130), (11, 0)],
    [(0, 84761542), (0, 762296), (0, 1140), (13, 0)], [(42484, 0), (1185, 0), (10, 0)]], 3, 4⟩, 68719476736,
    139559307, 479309492372827423298538393313412975867418531411504988082071706214266989518412336729222289658, ⟨1, 0,
    -162671510142873, [217734903269, 127628900, 99749]⟩⟩)) (.sy (.leaf ⟨353, 16, 774, 502, 16, 183, ⟨[[(400505700352,
    0)], [(415538085888, 0)]], 3, 4⟩, ⟨[[(309966058025, 0), (0, 2805550848031), (22708821319, 0), (0, 236305695),
    (2567087, 0)], [(0, 198764966406), (0, 5528184), (0, 92905), (0, 600), (0, 5)], [(106022820, 0), (0, 8877), (0,
    149), (0, 1)], [(0, 75883), (0, 6)]], 3, 4⟩, 1099511627776, 0, 728227052, ⟨[[(59989138919959, 0), (297791426891,
    0), (533495261, 0), (91916, 0), (0, 227)], [(142589513356, 0), (509343169, 0), (143983, 0), (0, 437), (9, 0)],
    [(0, 79878318), (0, 654239), (0, 473), (9, 0)], [(46799, 0), (1088, 0), (5, 0)]], 3, 4⟩, 68719476736, 163296599,
    439500216822240234792936578307790496058528686067103972838217705174167879473625375624113794857, ⟨1, 0,
    -145624109291559, [198639435817, 106224297, 75739]⟩⟩) (.leaf ⟨353, 16, 774, 512, 16, 192, ⟨[[(400505700352, 0)],
    [(415538085888, 0)]], 3, 4⟩, ⟨[[(0, 378308517811), (0, 2682244059219), (19887811479, 0), (0, 192481333),
    (1972868, 0)], [(0, 208578745060), (0, 7042559), (0, 110066), (0, 782), (0, 8)], [(111175296, 0), (0, 11315), (0,
    177), (0, 1)], [(0, 79659), (0, 8)]], 3, 4⟩, 1099511627776, 0, 760732677, ⟨[[(55924361018329, 0), (269649390156,
    0), (480806678, 0), (97149, 0), (0, 409)], [(135488491821, 0), (481280509, 0), (157775, 0), (0, 852), (8, 0)],
    [(0, 70839027), (0, 605234), (0, 832), (10, 0)], [(32753, 0), (866, 0), (7, 0)]], 3, 4⟩, 68719476736, 96742051,
    460656140954980899323538979881606859033445316835679387731353546612911159942506472973477890798, ⟨1, 0,
    -152785950732127, [208408588398, 111448443, 79464]⟩⟩)))
theorem c4 : checkC job ⟨6, 8, 8, 10, 9, 13⟩ 3 100 lims t4 447 41 1024 3 3 32 = true := by decide +kernel

def t5 : CTree :=
  .sx (.sx (.sy (.sx (.leaf ⟨499, 16, 3096, 549, 16, 156, ⟨[[(269509197824, 0)], [(415538085888, 0)]], 3, 4⟩, ⟨[[(0,
    137700353805), (0, 3841092270532), (50546626422, 0), (0, 876622478), (16562169, 0)], [(0, 119854861057), (0,
    165083), (0, 4831), (0, 81), (0, 2)], [(45361909, 0), (0, 187), (0, 5)], [(0, 22895)]], 3, 4⟩, 1099511627776, 0,
    289095656, ⟨[[(50547599462664, 0), (307827289884, 0), (715258731, 0), (281092, 0), (0, 1670)], [(88822817337, 0),
    (412885828, 0), (246916, 0), (0, 1976), (3, 0)], [(0, 29318880), (0, 342438), (0, 1146), (4, 0)], [(5676, 0),
    (227, 0), (3, 0)]], 3, 4⟩, 68719476736, 73347174,
    768222801978249016868911359044082362870484869293984392725245768761719116012125178412074818840, ⟨3, 0,
    -288907287687056, [119852686978, 45364378, 22894]⟩⟩) (.leaf ⟨530, 16, 3096, 551, 16, 159, ⟨[[(258771779584, 0)],
    [(415538085888, 0)]], 3, 4⟩, ⟨[[(0, 449583386155), (0, 3914974565418), (51518233947, 0), (0, 893488058),
    (16880502, 0)], [(0, 115020558268), (0, 201578), (0, 5900), (0, 99), (0, 2)], [(40987149, 0), (0, 216), (0, 6)],
    [(0, 19479)]], 3, 4⟩, 1099511627776, 0, 261369043, ⟨[[(50634509991616, 0), (302417494087, 0), (688836086, 0),
    (262472, 0), (0, 1555)], [(83742414592, 0), (381524875, 0), (220219, 0), (0, 1756), (3, 0)], [(0, 26114229), (0,
    299084), (0, 965), (3, 0)], [(4891, 0), (192, 0), (2, 0)]], 3, 4⟩, 68719476736, 69180426,
    571482976227374056037579771148810539785980414260118002833234649112554068550763354502545658229, ⟨3, 0,
    -284744879250540, [115017903578, 40989987, 19477]⟩⟩)) (.leaf ⟨257, 16, 1548, 444, 16, 132, ⟨[[(406948151296, 0)],
    [(415538085888, 0)]], 3, 4⟩, ⟨[[(265770786008, 0), (0, 2806445328175), (31952498975, 0), (0, 483648845),
    (8108462, 0)], [(0, 196728176715), (0, 433490), (0, 12584), (0, 261), (0, 6)], [(144422361, 0), (0, 955), (0,
    28), (0, 1)], [(0, 141410), (0, 1)]], 3, 4⟩, 1099511627776, 0, 1931072098, ⟨[[(44672332691945, 0), (330431720787,
    0), (969828119, 0), (687416, 0), (0, 3193)], [(156649426652, 0), (919350278, 0), (989723, 0), (0, 6068), (0,
    17)], [(0, 86547820), (0, 1313789), (0, 6379), (0, 6)], [(14894, 0), (1292, 0), (14, 0)]], 3, 4⟩, 68719476736,
    545592668, 1059458384156174209863775233953030307794239216400645505493992351843132312968040092151312705127, ⟨3, 0,
    -240365267159374, [196721946739, 144436084, 141396]⟩⟩)) (.sy (.leaf ⟨288, 16, 1548, 433, 16, 128,
    ⟨[[(396210733056, 0)], [(415538085888, 0)]], 3, 4⟩, ⟨[[(345070856579, 0), (0, 3151700379363), (41473132789, 0),
    (0, 719297187), (13589079, 0)], [(0, 170265028150), (0, 417622), (0, 12223), (0, 206), (0, 5)], [(111561618, 0),
    (0, 821), (0, 24)], [(0, 97495), (0, 1)]], 3, 4⟩, 1099511627776, 0, 1257470994, ⟨[[(50357661707957, 0),
    (374089642814, 0), (1061884305, 0), (511726, 0), (0, 3749)], [(153472992604, 0), (871191100, 0), (633316, 0), (0,
    6234), (13, 0)], [(0, 87637533), (0, 1253476), (0, 5034), (22, 0), (1, 0)], [(30086, 0), (1495, 0), (21, 0)]], 3,
    4⟩, 68719476736, 708277259,
    878457159730532032586472545937128923261120524189942263143958128093386309724831468323485372789, ⟨2, 0,
    -218311484638578, [170259528311, 111572430, 97486]⟩⟩) (.leaf ⟨288, 16, 1548, 453, 16, 139, ⟨[[(396210733056, 0)],
    [(415538085888, 0)]], 3, 4⟩, ⟨[[(232835678698, 0), (0, 2955316726438), (33645650440, 0), (0, 509323881),
    (8537850, 0)], [(0, 184900433663), (0, 642057), (0, 18641), (0, 387), (0, 9)], [(121142545, 0), (0, 1262), (0,
    37), (0, 1)], [(0, 105879), (0, 1)]], 3, 4⟩, 1099511627776, 0, 1304157673, ⟨[[(44693199923796, 0), (313900704953,
    0), (874959172, 0), (587624, 0), (0, 2635)], [(139849822240, 0), (779373873, 0), (790496, 0), (0, 4710), (0,
    12)], [(0, 69092007), (0, 999084), (0, 4578), (0, 3)], [(10790, 0), (916, 0), (9, 0)]], 3, 4⟩, 68719476736,
    348181675, 645469170024478989743090435540486299440727031545209775229708569421944229463948597910560823051, ⟨2, 0,
    -237072627849706, [184891206525, 121160686, 105863]⟩⟩))) (.sy (.sx (.leaf ⟨319, 16, 1548, 438, 16, 133,
    ⟨[[(385473314816, 0)], [(415538085888, 0)]], 3, 4⟩, ⟨[[(0, 321178682552), (0, 3274855416907), (43091955276, 0),
    (0, 747415302), (14119432, 0)], [(0, 159750427596), (0, 589433), (0, 17253), (0, 291), (0, 7)], [(94508507, 0),
    (0, 1046), (0, 31), (0, 1)], [(0, 74585), (0, 1)]], 3, 4⟩, 1099511627776, 0, 903520194, ⟨[[(50587389584426, 0),
    (361274749173, 0), (984469269, 0), (446231, 0), (0, 3203)], [(139044176269, 0), (757576667, 0), (516406, 0), (0,
    4974), (12, 0)], [(0, 72132890), (0, 989543), (0, 3720), (18, 0)], [(23289, 0), (1104, 0), (15, 0)]], 3, 4⟩,
    68719476736, 620100083,
    696666060355618879965977151189891840254718468037268795783343968339258722569274344738916591803, ⟨2, 0,
    -213060447590859, [159742665250, 94522287, 74574]⟩⟩) (.leaf ⟨350, 16, 1548, 442, 16, 138, ⟨[[(374735896576, 0)],
    [(415538085888, 0)]], 3, 4⟩, ⟨[[(401019493868, 0), (0, 3398028217632), (44710257696, 0), (0, 775542182),
    (14649585, 0)], [(0, 151097024674), (0, 807510), (0, 23639), (0, 398), (0, 9)], [(81474912, 0), (0, 1307), (0,
    38), (0, 1)], [(0, 58619), (0, 1)]], 3, 4⟩, 1099511627776, 0, 682412280, ⟨[[(50360881519929, 0), (346986425820,
    0), (913662176, 0), (405723, 0), (0, 2773)], [(126295721247, 0), (664839610, 0), (443751, 0), (0, 4063), (10,
    0)], [(0, 59431409), (0, 788991), (0, 2865), (13, 0)], [(17318, 0), (804, 0), (11, 0)]], 3, 4⟩, 68719476736,
    440664728, 492021022101059408532341266639439679231319089020814500337044296916149357756389588375004154787, ⟨2, 0,
    -208098580543247, [151086390692, 81492120, 58606]⟩⟩)) (.sx (.leaf ⟨319, 16, 1548, 462, 16, 146, ⟨[[(385473314816,
    0)], [(415538085888, 0)]], 3, 4⟩, ⟨[[(305495387776, 0), (0, 3104210499165), (35338152078, 0), (0, 535012430),
    (8966935, 0)], [(0, 175369774703), (0, 916089), (0, 26601), (0, 553), (0, 12)], [(103737936, 0), (0, 1627), (0,
    47), (0, 1)], [(0, 81881), (0, 1)]], 3, 4⟩, 1099511627776, 0, 927487224, ⟨[[(44682816714886, 0), (298787382417,
    0), (793123814, 0), (506857, 0), (0, 2178)], [(126238843144, 0), (669911983, 0), (645052, 0), (0, 3702), (0, 8)],
    [(0, 56327991), (0, 777053), (0, 3384), (0, 2)], [(8034, 0), (655, 0), (6, 0)]], 3, 4⟩, 68719476736, 232278646,
    519439895792652702625360137484289262229607065127712468313849025812343098625970118669275307705, ⟨2, 0,
    -233885904874176, [175356609974, 103761308, 81863]⟩⟩) (.leaf ⟨350, 16, 1548, 468, 16, 152, ⟨[[(374735896576, 0)],
    [(415538085888, 0)]], 3, 4⟩, ⟨[[(307717379245, 0), (0, 3231871142413), (36787781074, 0), (0, 557053797),
    (9334213, 0)], [(0, 166432091670), (0, 1259323), (0, 36576), (0, 761), (0, 17)], [(89730151, 0), (0, 2039), (0,
    59), (0, 1)], [(0, 64573), (0, 1)]], 3, 4⟩, 1099511627776, 0, 684663785, ⟨[[(44690643456555, 0), (287023961300,
    0), (731847139, 0), (448213, 0), (0, 1855)], [(115074071112, 0), (586510123, 0), (541112, 0), (0, 3005), (0, 6)],
    [(0, 46819265), (0, 621082), (0, 2593), (0, 1)], [(6138, 0), (482, 0), (5, 0)]], 3, 4⟩, 68719476736, 160368696,
    359738994597815410286552058989708467024709640567270958222354626902453874508519278485551374664, ⟨2, 0,
    -229210030743287, [166413995545, 89759437, 64552]⟩⟩)))
theorem c5 : checkC job ⟨6, 8, 8, 10, 9, 13⟩ 3 100 lims t5 201 41 1024 9 3 32 = true := by decide +kernel

def t6 : CTree :=
  .sx (.sy (.sx (.leaf ⟨381, 16, 1548, 447, 16, 143, ⟨[[(363998478336, 0)], [(415538085888, 0)]], 3, 4⟩,
    ⟨[[(223514407650, 0), (0, 3521223451989), (46327903177, 0), (0, 803680144), (15179483, 0)], [(0, 143851292512),
    (0, 1079099), (0, 31593), (0, 532), (0, 12)], [(71255921, 0), (0, 1605), (0, 47), (0, 1)], [(0, 47108), (0, 1)]],
    3, 4⟩, 1099511627776, 0, 538425495, ⟨[[(50424090000116, 0), (335166374526, 0), (851116218, 0), (362206, 0), (0,
    2387)], [(116130621193, 0), (589491941, 0), (377441, 0), (0, 3326), (8, 0)], [(0, 50281742), (0, 643514), (0,
    2224), (11, 0)], [(13635, 0), (612, 0), (8, 0)]], 3, 4⟩, 68719476736, 334739747,
    329149446959336036350283943489654180437785366322324101426567772575367586547858376484068333382, ⟨2, 0,
    -203336817260716, [143837082465, 71277048, 47094]⟩⟩) (.leaf ⟨412, 16, 1548, 449, 16, 147, ⟨[[(353261060096, 0)],
    [(415538085888, 0)]], 3, 4⟩, ⟨[[(120078642769, 0), (0, 3619821878886), (47620782549, 0), (0, 826211385),
    (15602923, 0)], [(0, 136765709401), (0, 1402399), (0, 41065), (0, 693), (0, 16)], [(62645204, 0), (0, 1929), (0,
    57), (0, 1)], [(0, 38311), (0, 1)]], 3, 4⟩, 1099511627776, 0, 438856232, ⟨[[(50460601910985, 0), (326216413784,
    0), (805575437, 0), (331990, 0), (0, 2118)], [(107451851245, 0), (530337819, 0), (329569, 0), (0, 2807), (7, 0)],
    [(0, 43059160), (0, 535720), (0, 1781), (9, 0)], [(10882, 0), (477, 0), (6, 0)]], 3, 4⟩, 68719476736, 273187233,
    330175901253102536814419824746864493085290191912017553083271807797744042130041368431508324352, ⟨2, 0,
    -197367507870248, [136747242745, 62670597, 38296]⟩⟩)) (.sx (.leaf ⟨381, 16, 1548, 471, 16, 157, ⟨[[(363998478336,
    0)], [(415538085888, 0)]], 3, 4⟩, ⟨[[(438332451894, 0), (0, 3338304367221), (37994371052, 0), (0, 575451468),
    (9639606, 0)], [(0, 157943138865), (0, 1677563), (0, 48737), (0, 1014), (0, 23)], [(78219380, 0), (0, 2495), (0,
    73), (0, 2)], [(0, 51729), (0, 2)]], 3, 4⟩, 1099511627776, 0, 521990750, ⟨[[(44664488777099, 0), (277743528897,
    0), (685923279, 0), (406379, 0), (0, 1623)], [(105661943403, 0), (521524038, 0), (466073, 0), (0, 2506), (0, 5)],
    [(0, 39462045), (0, 507537), (0, 2049)], [(4726, 0), (364, 0), (3, 0)]], 3, 4⟩, 68719476736, 129154758,
    450405601208948903319226628916541477193711714372860614562599309146027247396254207919702818161, ⟨2, 0,
    -223243918251276, [157919034594, 78255220, 51705]⟩⟩) (.leaf ⟨412, 16, 1548, 475, 16, 162, ⟨[[(353261060096, 0)],
    [(415538085888, 0)]], 3, 4⟩, ⟨[[(0, 301929620237), (0, 3444780005661), (39199727555, 0), (0, 593874881),
    (9944418, 0)], [(0, 150732486690), (0, 2188571), (0, 63605), (0, 1325), (0, 30)], [(69022313, 0), (0, 3011), (0,
    88), (0, 2)], [(0, 42230), (0, 2)]], 3, 4⟩, 1099511627776, 0, 412108930, ⟨[[(44853060707485, 0), (270060794442,
    0), (645082477, 0), (364748, 0), (0, 1430)], [(98038923079, 0), (467930512, 0), (400045, 0), (0, 2118), (0, 4)],
    [(0, 34037776), (0, 423232), (0, 1643)], [(3921, 0), (284, 0), (3, 0)]], 3, 4⟩, 68719476736, 101053594,
    473466092718309662372976115847210503219838236347091131409529827595033226829307874045608245330, ⟨2, 0,
    -217507049489661, [150701043025, 69065556, 42203]⟩⟩))) (.sy (.sx (.leaf ⟨443, 16, 1548, 448, 16, 150,
    ⟨[[(342523641856, 0)], [(415538085888, 0)]], 3, 4⟩, ⟨[[(262910101571, 0), (0, 3693827048463), (48588791485, 0),
    (0, 843137691), (15919863, 0)], [(0, 129806848467), (0, 1778692), (0, 52094), (0, 879), (0, 20)], [(55291200, 0),
    (0, 2276), (0, 67), (0, 1)], [(0, 31458), (0, 1)]], 3, 4⟩, 1099511627776, 0, 367771949, ⟨[[(50423199427338, 0),
    (319499133027, 0), (773621720, 0), (312883, 0), (0, 1937)], [(99876289127, 0), (483253021, 0), (295668, 0), (0,
    2440), (6, 0)], [(0, 37187342), (0, 453682), (0, 1469), (7, 0)], [(8732, 0), (377, 0), (5, 0)]], 3, 4⟩,
    68719476736, 240444649,
    317721456567356854641017723852716005980783120722782856536154215476996961188798419551648838750, ⟨2, 0,
    -190362896980049, [129783428010, 55321154, 31441]⟩⟩) (.leaf ⟨474, 16, 1548, 448, 16, 153, ⟨[[(331786223616, 0)],
    [(415538085888, 0)]], 3, 4⟩, ⟨[[(0, 374852886775), (0, 3767868707173), (49555730745, 0), (0, 860082118),
    (16236385, 0)], [(0, 123758884024), (0, 2222193), (0, 65100), (0, 1100), (0, 25)], [(49259694, 0), (0, 2658), (0,
    78), (0, 1)], [(0, 26204), (0, 1)]], 3, 4⟩, 1099511627776, 0, 317959500, ⟨[[(50609582408376, 0), (314104528360,
    0), (744182015, 0), (290073, 0), (0, 1759)], [(93608083740, 0), (443065043, 0), (262332, 0), (0, 2116), (6, 0)],
    [(0, 32709466), (0, 389883), (0, 1213), (6, 0)], [(7322, 0), (308, 0), (4, 0)]], 3, 4⟩, 68719476736, 211960929,
    302060258866012972369860038503289088688208400855513156455359350789840567752176169293267003579, ⟨2, 0,
    -183677683620384, [123729625719, 49294672, 26186]⟩⟩)) (.sx (.leaf ⟨443, 16, 1548, 475, 16, 166, ⟨[[(342523641856,
    0)], [(415538085888, 0)]], 3, 4⟩, ⟨[[(373845595676, 0), (0, 3530042006269), (40161642567, 0), (0, 608663091),
    (10187151, 0)], [(0, 143667041116), (0, 2787763), (0, 81053), (0, 1690), (0, 38)], [(61170848, 0), (0, 3568), (0,
    104), (0, 2)], [(0, 34824), (0, 2)]], 3, 4⟩, 1099511627776, 0, 333676837, ⟨[[(44692623466022, 0), (262789891015,
    0), (613845142, 0), (340818, 0), (0, 1278)], [(90920234247, 0), (424228639, 0), (357446, 0), (0, 1817), (0, 3)],
    [(0, 29217878), (0, 355805), (0, 1350)], [(3002, 0), (222, 0), (2, 0)]], 3, 4⟩, 68719476736, 84403633,
    450424284436410140790808040149882890202419253879970729945441152598044384010473555509807981528, ⟨2, 0,
    -210668272657921, [143626993665, 61222077, 34795]⟩⟩) (.leaf ⟨474, 16, 1548, 476, 16, 170, ⟨[[(331786223616, 0)],
    [(415538085888, 0)]], 3, 4⟩, ⟨[[(206079955172, 0), (0, 3615363106775), (41121835977, 0), (0, 623487384),
    (10429065, 0)], [(0, 137527594834), (0, 3497319), (0, 101738), (0, 2125), (0, 48)], [(54711790, 0), (0, 4186),
    (0, 122), (0, 3)], [(0, 29127), (0, 2)]], 3, 4⟩, 1099511627776, 0, 278133627, ⟨[[(44736568274554, 0),
    (256789244140, 0), (585585616, 0), (315006, 0), (0, 1149)], [(85041267841, 0), (387222715, 0), (317530, 0), (0,
    1576), (0, 3)], [(0, 25567393), (0, 304019), (0, 1121)], [(2464, 0), (178, 0), (2, 0)]], 3, 4⟩, 68719476736,
    75794963, 418812797702196955662873898123229356222078518262516915692037855306813415218330197981977986991, ⟨2, 0,
    -204086315133760, [137477361910, 54771857, 29095]⟩⟩)))
theorem c6 : checkC job ⟨6, 8, 8, 10, 9, 13⟩ 3 100 lims t6 283 41 1024 9 3 32 = true := by decide +kernel

def t7 : CTree :=
  .sx (.sx (.sy (.sx (.leaf ⟨505, 16, 1548, 447, 16, 156, ⟨[[(321048805376, 0)], [(415538085888, 0)]], 3, 4⟩,
    ⟨[[(352221062359, 0), (0, 3841953306353), (50521410550, 0), (0, 877047927), (16552413, 0)], [(0, 118454470631),
    (0, 2739878), (0, 80290), (0, 1358), (0, 31)], [(44244635, 0), (0, 3076), (0, 90), (0, 2)], [(0, 22102), (0,
    2)]], 3, 4⟩, 1099511627776, 0, 282073151, ⟨[[(50406698520736, 0), (307103518034, 0), (715393479, 0), (277273, 0),
    (0, 1617)], [(87593903798, 0), (407511527, 0), (241087, 0), (0, 1871), (5, 0)], [(0, 28591028), (0, 335456), (0,
    1030), (5, 0)], [(5897, 0), (247, 0), (3, 0)]], 3, 4⟩, 68719476736, 186424325,
    260800456612164210612379543144903613955966553694785724016275232523773054566634811511174475404, ⟨2, 0,
    -177258360772780, [118418399027, 44285116, 22082]⟩⟩) (.leaf ⟨536, 16, 1548, 447, 16, 159, ⟨[[(310311387136, 0)],
    [(415538085888, 0)]], 3, 4⟩, ⟨[[(201850851492, 0), (0, 3916087973801), (51485620915, 0), (0, 894038747),
    (16867860, 0)], [(0, 113764969585), (0, 3339032), (0, 97883), (0, 1658), (0, 38)], [(40024348, 0), (0, 3533), (0,
    104), (0, 2)], [(0, 18848), (0, 2)]], 3, 4⟩, 1099511627776, 0, 256085618, ⟨[[(50452041310327, 0), (301496833450,
    0), (688898531, 0), (260140, 0), (0, 1476)], [(82585823727, 0), (376718826, 0), (218388, 0), (0, 1647), (5, 0)],
    [(0, 25419417), (0, 292378), (0, 873), (4, 0)], [(4966, 0), (205, 0), (2, 0)]], 3, 4⟩, 68719476736, 172975394,
    240073660027651493069064356157724146626106307272492797722265899768935762869846783849506751954, ⟨2, 0,
    -171061764309969, [113721013897, 40070829, 18826]⟩⟩)) (.sx (.leaf ⟨505, 16, 1548, 477, 16, 174, ⟨[[(321048805376,
    0)], [(415538085888, 0)]], 3, 4⟩, ⟨[[(244202226929, 0), (0, 3700754089503), (42079991456, 0), (0, 638354514),
    (10670006, 0)], [(0, 132144232497), (0, 4329343), (0, 126024), (0, 2636), (0, 60)], [(49325143, 0), (0, 4865),
    (0, 142), (0, 3)], [(0, 24665), (0, 2)]], 3, 4⟩, 1099511627776, 0, 237939940, ⟨[[(44731311294579, 0),
    (250841252249, 0), (559105798, 0), (292167, 0), (0, 1030)], [(79814855347, 0), (355041970, 0), (284399, 0), (0,
    1371), (0, 2)], [(0, 22513642), (0, 261782), (0, 939)], [(2020, 0), (145, 0), (1, 0)]], 3, 4⟩, 68719476736,
    66758451, 358010940252008442544227018579340077869364286821323062175904284551379263866454685892354705982, ⟨2, 0,
    -197711248554254, [132082060453, 49394937, 24630]⟩⟩) (.leaf ⟨536, 16, 1548, 476, 16, 177, ⟨[[(310311387136, 0)],
    [(415538085888, 0)]], 3, 4⟩, ⟨[[(0, 308039851188), (0, 3764955990779), (42793982732, 0), (0, 649601990),
    (10848505, 0)], [(0, 126670708772), (0, 5266805), (0, 153432), (0, 3216), (0, 73)], [(44527155, 0), (0, 5579),
    (0, 163), (0, 3)], [(0, 20995), (0, 3)]], 3, 4⟩, 1099511627776, 0, 207093747, ⟨[[(44858298252281, 0),
    (247120497678, 0), (540921202, 0), (273705, 0), (0, 948)], [(75369618562, 0), (329057861, 0), (256876, 0), (0,
    1222), (0, 2)], [(0, 20096942), (0, 229393), (0, 802)], [(1738, 0), (121, 0), (1, 0)]], 3, 4⟩, 68719476736,
    61494021, 287477967414712271144273528383580477814031660482589952556835936346676558571476580481087129519, ⟨2, 0,
    -190427247062041, [126595090942, 44607150, 20957]⟩⟩))) (.sy (.sx (.leaf ⟨567, 16, 1548, 447, 16, 162,
    ⟨[[(299573968896, 0)], [(415538085888, 0)]], 3, 4⟩, ⟨[[(238209087047, 0), (0, 3990280545506), (52448130579, 0),
    (0, 911058600), (17182631, 0)], [(0, 109589877233), (0, 4027258), (0, 118110), (0, 2004), (0, 46)], [(36434966,
    0), (0, 4029), (0, 119), (0, 2)], [(0, 16230), (0, 2)]], 3, 4⟩, 1099511627776, 0, 236979313, ⟨[[(50445297317966,
    0), (295860499497, 0), (663755916, 0), (245071, 0), (0, 1349)], [(78064192586, 0), (349470232, 0), (199405, 0),
    (0, 1460), (4, 0)], [(0, 22706053), (0, 256387), (0, 747), (4, 0)], [(4192, 0), (170, 0), (2, 0)]], 3, 4⟩,
    68719476736, 152044947,
    285627201191042002919483218339323181686801013975417587648445339976659471637925724288415861667, ⟨1, 0,
    -165052658190250, [109536867382, 36487964, 16206]⟩⟩) (.leaf ⟨598, 16, 1548, 445, 16, 164, ⟨[[(288836550656, 0)],
    [(415538085888, 0)]], 3, 4⟩, ⟨[[(0, 350155058241), (0, 4039906024505), (53084996898, 0), (0, 922487017),
    (17390577, 0)], [(0, 105208026629), (0, 4783310), (0, 140354), (0, 2387), (0, 55)], [(33151014, 0), (0, 4539),
    (0, 134), (0, 2)], [(0, 14012), (0, 2)]], 3, 4⟩, 1099511627776, 0, 221649849, ⟨[[(50604452891787, 0),
    (292930858494, 0), (648226039, 0), (232251, 0), (0, 1256)], [(74197341353, 0), (327461866, 0), (182711, 0), (0,
    1315), (4, 0)], [(0, 20533050), (0, 228386), (0, 646), (3, 0)], [(3652, 0), (145, 0), (2, 0)]], 3, 4⟩,
    68719476736, 151145900,
    329858245706773224101696394131627476154142653947580474556869934023202347886705908430979489048, ⟨1, 0,
    -158237116364166, [105145073124, 33210699, 13986]⟩⟩)) (.leaf ⟨291, 16, 774, 366, 16, 140, ⟨[[(421980536832, 0)],
    [(415538085888, 0)]], 3, 4⟩, ⟨[[(0, 521633958165), (0, 2978514431094), (33831347605, 0), (0, 514166525),
    (8572628, 0)], [(0, 184442637745), (0, 10698285), (0, 312115), (0, 6567), (0, 149)], [(119214012, 0), (0, 20876),
    (0, 613), (0, 13)], [(0, 103600), (0, 18), (0, 1)]], 3, 4⟩, 1099511627776, 0, 1262832841, ⟨[[(44905264081704, 0),
    (312631492448, 0), (865410254, 0), (544870, 0), (0, 2346)], [(138946282057, 0), (766328233, 0), (753358, 0), (0,
    4500), (0, 10)], [(0, 68298051), (0, 986168), (0, 4316)], [(10890, 0), (966, 0), (10, 0)]], 3, 4⟩, 68719476736,
    1315518157, 405685465326409695916777041603301983057976863308604590797061562047438901364703357707950919517, ⟨1, 0,
    -138809039314276, [184289101149, 119513036, 103340]⟩⟩))) (.sy (.sx (.sx (.leaf ⟨629, 16, 1548, 442, 16, 166,
    ⟨[[(278099132416, 0)], [(415538085888, 0)]], 3, 4⟩, ⟨[[(396802385709, 0), (0, 4089602164941), (53719783401, 0),
    (0, 933951243), (17597680, 0)], [(0, 101260016141), (0, 5635046), (0, 165445), (0, 2820), (0, 66)], [(30319297,
    0), (0, 5086), (0, 150), (0, 3)], [(0, 12193), (0, 2)]], 3, 4⟩, 1099511627776, 0, 210092484, ⟨[[(50408655608636,
    0), (288513639899, 0), (632449153, 0), (225741, 0), (0, 1182)], [(70334364456, 0), (307286501, 0), (172331, 0),
    (0, 1205), (3, 0)], [(0, 18417097), (0, 203182), (0, 573), (3, 0)], [(3055, 0), (122, 0), (1, 0)]], 3, 4⟩,
    68719476736, 149941339,
    362332016657924343285479392572715924298721390240305361514341676243530578402029117694689196591, ⟨1, 0,
    -151658313753660, [101185864005, 30386145, 12167]⟩⟩) (.leaf ⟨660, 16, 1548, 440, 16, 168, ⟨[[(267361714176, 0)],
    [(415538085888, 0)]], 3, 4⟩, ⟨[[(252235842881, 0), (0, 4139377886106), (54352224605, 0), (0, 945456052),
    (17803820, 0)], [(0, 97685024020), (0, 6589555), (0, 193603), (0, 3309), (0, 77)], [(27858622, 0), (0, 5670), (0,
    167), (0, 3)], [(0, 10688), (0, 2)]], 3, 4⟩, 1099511627776, 0, 201354383, ⟨[[(50448876556613, 0), (285217861708,
    0), (617808201, 0), (215432, 0), (0, 1103)], [(67073960244, 0), (289354856, 0), (160168, 0), (0, 1098), (3, 0)],
    [(0, 16749273), (0, 182520), (0, 504), (2, 0)], [(2658, 0), (105, 0), (1, 0)]], 3, 4⟩, 68719476736, 147543022,
    385834374484860581283313320919115529605537152515577251991283459302144314469726373438335626892, ⟨1, 0,
    -145288545000205, [97598326493, 27933121, 10659]⟩⟩)) (.sx (.leaf ⟨691, 16, 1548, 438, 16, 170, ⟨[[(256624295936,
    0)], [(415538085888, 0)]], 3, 4⟩, ⟨[[(291867203158, 0), (0, 4189242780143), (54982033996, 0), (0, 957006663),
    (18008865, 0)], [(0, 94433155111), (0, 7654167), (0, 225060), (0, 3859), (0, 90)], [(25705338, 0), (0, 6293), (0,
    186), (0, 3)], [(0, 9430), (0, 2)]], 3, 4⟩, 1099511627776, 0, 194864369, ⟨[[(50440849881191, 0), (281787824849,
    0), (603605583, 0), (206066, 0), (0, 1030)], [(64059670400, 0), (273053132, 0), (149742, 0), (0, 1005), (3, 0)],
    [(0, 15271199), (0, 164569), (0, 447), (2, 0)], [(2312, 0), (90, 0), (1, 0)]], 3, 4⟩, 68719476736, 138916729,
    396104189519014190298341097317601975590140645659784331470349561637357999715811307169567235352, ⟨1, 0,
    -139104146037708, [94332470857, 25787991, 9400]⟩⟩) (.leaf ⟨722, 16, 1548, 436, 16, 172, ⟨[[(245886877696, 0)],
    [(415538085888, 0)]], 3, 4⟩, ⟨[[(495209642515, 0), (0, 4239207136315), (55608902999, 0), (0, 968608780),
    (18212669, 0)], [(0, 91463097223), (0, 8836464), (0, 260060), (0, 4476), (0, 105)], [(23808963, 0), (0, 6957),
    (0, 206), (0, 4)], [(0, 8370), (0, 2)]], 3, 4⟩, 1099511627776, 0, 189958963, ⟨[[(50391492942467, 0),
    (278256652144, 0), (589843598, 0), (197399, 0), (0, 961)], [(61266229616, 0), (258176798, 0), (140720, 0), (0,
    925), (3, 0)], [(0, 13957074), (0, 148898), (0, 399), (2, 0)], [(2011, 0), (78, 0), (1, 0)]], 3, 4⟩, 68719476736,
    133660770, 404500046670098366421259690415770715489597402892647737721858726348555899213017558927428502994, ⟨1, 0,
    -133084764707726, [91346887499, 23900285, 8338]⟩⟩))) (.sx (.leaf ⟨322, 16, 774, 368, 16, 146, ⟨[[(411243118592,
    0)], [(415538085888, 0)]], 3, 4⟩, ⟨[[(0, 488123541057), (0, 3107237079456), (35249946868, 0), (0, 536863336),
    (8924924, 0)], [(0, 173928915356), (0, 15125491), (0, 442402), (0, 9370), (0, 215)], [(101442101, 0), (0, 26718),
    (0, 789), (0, 17)], [(0, 79881), (0, 21), (0, 1)]], 3, 4⟩, 1099511627776, 0, 896297321, ⟨[[(44896311112724, 0),
    (299633873815, 0), (796605569, 0), (470185, 0), (0, 1864)], [(125559223858, 0), (663797348, 0), (625107, 0), (0,
    3512), (0, 9)], [(0, 55711526), (0, 773362), (0, 3200), (0, 1)], [(7891, 0), (692, 0), (7, 0)]], 3, 4⟩,
    68719476736, 1043327128,
    261110388997833091562155434201975026021556869540679134279896787069253340406791974543242244916, ⟨1, 0,
    -129781641971910, [173711999330, 101824150, 79581]⟩⟩) (.leaf ⟨353, 16, 774, 370, 16, 152, ⟨[[(400505700352, 0)],
    [(415538085888, 0)]], 3, 4⟩, ⟨[[(0, 259935002514), (0, 3236422544621), (36654897002, 0), (0, 559855334),
    (9270309, 0)], [(0, 165287708814), (0, 20770035), (0, 609560), (0, 13022), (0, 301)], [(87751533, 0), (0, 33537),
    (0, 999), (0, 22), (0, 1)], [(0, 63253), (0, 24), (0, 1)]], 3, 4⟩, 1099511627776, 0, 664744397,
    ⟨[[(44836568722322, 0), (287368759674, 0), (735831925, 0), (405682, 0), (0, 1449)], [(114423330293, 0),
    (581107383, 0), (526529, 0), (0, 2758), (0, 8)], [(0, 46176225), (0, 618385), (0, 2416), (0, 1)], [(5772, 0),
    (510, 0), (5, 0)]], 3, 4⟩, 68719476736, 835143794,
    255221123113589328269152553359453040196905570956098411581831758394988045507310279222267320730, ⟨1, 0,
    -120955544329601, [164990132482, 88230017, 62909]⟩⟩)))
theorem c7 : checkC job ⟨6, 8, 8, 10, 9, 13⟩ 3 100 lims t7 203 41 512 9 3 32 = true := by decide +kernel

def t8 : CTree :=
  .sy (.sx (.sx (.sy (.leaf ⟨384, 16, 774, 482, 16, 169, ⟨[[(389768282112, 0)], [(415538085888, 0)]], 3, 4⟩,
    ⟨[[(170079090552, 0), (0, 3208480440353), (31453039157, 0), (0, 386696631), (5288970, 0)], [(0, 168737207898),
    (0, 4199664), (0, 87996), (0, 573), (0, 1)], [(82790885, 0), (0, 6198), (0, 130), (0, 1)], [(0, 54436), (0, 4)]],
    3, 4⟩, 1099511627776, 0, 506439379, ⟨[[(70785658778879, 0), (362213912052, 0), (635469451, 0), (67540, 0), (0,
    1199)], [(147220574543, 0), (515246592, 0), (73738, 0), (0, 2965), (0, 74)], [(0, 86866929), (0, 648897), (0,
    2395), (0, 75), (0, 1)], [(62448, 0), (369, 0), (0, 32), (0, 1)]], 3, 4⟩, 68719476736, 1038130852,
    709419156533371781188396240152712725968577765242865594017686745470304961818780771560793833472, ⟨1, 0,
    -120064558283481, [168652097139, 82916469, 54354]⟩⟩) (.leaf ⟨384, 16, 774, 499, 16, 181, ⟨[[(389768282112, 0)],
    [(415538085888, 0)]], 3, 4⟩, ⟨[[(0, 366827232876), (0, 3072461259446), (27275156282, 0), (0, 306329216),
    (3598762, 0)], [(0, 180749062269), (0, 5696248), (0, 105622), (0, 659), (0, 3)], [(88624488, 0), (0, 8409), (0,
    156), (0, 1)], [(0, 58331), (0, 6)]], 3, 4⟩, 1099511627776, 0, 522140753, ⟨[[(65124248361692, 0), (319176176601,
    0), (550183209, 0), (84324, 0), (0, 155)], [(138961437313, 0), (477574104, 0), (122528, 0), (0, 380), (0, 9)],
    [(0, 76819570), (0, 570095), (0, 420), (0, 11)], [(50937, 0), (859, 0), (0, 5)]], 3, 4⟩, 68719476736, 372352210,
    336377663613012586690379255427949208585735063634153189520078375158219820613342782528679178592, ⟨1, 0,
    -128589852362782, [180627393977, 88804029, 58213]⟩⟩)) (.sy (.leaf ⟨415, 16, 774, 487, 16, 175, ⟨[[(379030863872,
    0)], [(415538085888, 0)]], 3, 4⟩, ⟨[[(0, 286683110529), (0, 3322793116684), (32561288941, 0), (0, 400480452),
    (5476665, 0)], [(0, 161720528690), (0, 5488756), (0, 115015), (0, 751), (0, 1)], [(73373716, 0), (0, 7498), (0,
    157), (0, 1)], [(0, 44694), (0, 5)]], 3, 4⟩, 1099511627776, 0, 392976351, ⟨[[(70938236139849, 0), (350268099531,
    0), (592563314, 0), (32226, 0), (0, 1742)], [(136431844784, 0), (460068243, 0), (36887, 0), (0, 3482), (0, 80)],
    [(0, 74629189), (0, 545294), (0, 2390), (0, 71), (0, 1)], [(49056, 0), (197, 0), (0, 28), (0, 1)]], 3, 4⟩,
    68719476736, 945267412,
    842870541896137043089152854091194936107048728737828448653754575827552943269621518514071273472, ⟨1, 0,
    -110554800838240, [161609300484, 73525614, 44602]⟩⟩) (.leaf ⟨415, 16, 774, 502, 16, 187, ⟨[[(379030863872, 0)],
    [(415538085888, 0)]], 3, 4⟩, ⟨[[(0, 218441639012), (0, 3174855009172), (28169212155, 0), (0, 316546903),
    (3717763, 0)], [(0, 172849727166), (0, 7428212), (0, 137793), (0, 863), (0, 4)], [(78350692, 0), (0, 10151), (0,
    189), (0, 1)], [(0, 47792), (0, 6)]], 3, 4⟩, 1099511627776, 0, 398940806, ⟨[[(65084063423741, 0), (308749484990,
    0), (515813991, 0), (74074, 0), (0, 232)], [(128535442866, 0), (427590321, 0), (106694, 0), (0, 447), (0, 11)],
    [(0, 65682553), (0, 472675), (0, 387), (0, 11)], [(40254, 0), (652, 0), (0, 4)]], 3, 4⟩, 68719476736, 332838227,
    314185777195934113391483960711849184518906016411050891810457688665738570606342437785301612720, ⟨1, 0,
    -118135701467148, [172691081089, 78567371, 47660]⟩⟩))) (.sy (.sx (.leaf ⟨446, 16, 774, 489, 16, 180,
    ⟨[[(368293445632, 0)], [(415538085888, 0)]], 3, 4⟩, ⟨[[(0, 351500720047), (0, 3418247495501), (33480768369, 0),
    (0, 411993709), (5633036, 0)], [(0, 154827135539), (0, 7007489), (0, 146853), (0, 963), (0, 1)], [(65308571, 0),
    (0, 8911), (0, 187), (0, 1)], [(0, 37070), (0, 5)]], 3, 4⟩, 1099511627776, 0, 311445066, ⟨[[(70960277553543, 0),
    (340559623560, 0), (560206072, 0), (10002, 0), (0, 2071)], [(126985587640, 0), (415955227, 0), (18481, 0), (0,
    3617), (0, 80)], [(0, 64632795), (0, 462590), (0, 2201), (0, 64), (0, 1)], [(39403, 0), (122, 0), (0, 23), (0,
    1)]], 3, 4⟩, 68719476736, 881338973,
    914635794695966315952877875492295882167412858806470143851365392609032004165246098059527454720, ⟨1, 0,
    -100567472289288, [154685142479, 65489053, 36968]⟩⟩) (.leaf ⟨477, 16, 774, 488, 16, 184, ⟨[[(357556027392, 0)],
    [(415538085888, 0)]], 3, 4⟩, ⟨[[(139298410347, 0), (0, 3494860080598), (34211130866, 0), (0, 421238875),
    (5758077, 0)], [(0, 148034076524), (0, 8763714), (0, 183678), (0, 1210), (0, 2)], [(58322767, 0), (0, 10425), (0,
    219), (0, 1)], [(0, 31009), (0, 6)]], 3, 4⟩, 1099511627776, 0, 251812228, ⟨[[(70813236159404, 0), (332621562636,
    0), (536449602, 0), (645, 0), (0, 2192)], [(118576487092, 0), (380316831, 0), (15592, 0), (0, 3432), (0, 76)],
    [(0, 56294983), (0, 394719), (0, 1886), (0, 56), (0, 1)], [(32273, 0), (106, 0), (0, 18)]], 3, 4⟩, 68719476736,
    866563579, 937768780310950563323529448627853530012366230022319781815023407024668082030010583939580690432, ⟨1, 0,
    -90266578573231, [147856515357, 58533854, 30897]⟩⟩)) (.sx (.leaf ⟨446, 16, 774, 505, 16, 193, ⟨[[(368293445632,
    0)], [(415538085888, 0)]], 3, 4⟩, ⟨[[(75315898898, 0), (0, 3277424699777), (29059999024, 0), (0, 326785383),
    (3836661, 0)], [(0, 166060071236), (0, 9516660), (0, 176624), (0, 1112), (0, 5)], [(69960468, 0), (0, 12106), (0,
    225), (0, 1)], [(0, 39784), (0, 7)]], 3, 4⟩, 1099511627776, 0, 312367892, ⟨[[(65006509350254, 0), (298835702544,
    0), (484640325, 0), (66346, 0), (0, 250)], [(119512430683, 0), (385327117, 0), (95403, 0), (0, 428), (0, 12)],
    [(0, 56736396), (0, 396148), (0, 322), (0, 9)], [(32354, 0), (511, 0), (0, 3)]], 3, 4⟩, 68719476736, 287166095,
    290786938424927585842948863995229191159406910197082639975777796247982987510905331297004896725, ⟨1, 0,
    -107830678621292, [165856847213, 70218818, 39638]⟩⟩) (.leaf ⟨477, 16, 774, 506, 16, 198, ⟨[[(357556027392, 0)],
    [(415538085888, 0)]], 3, 4⟩, ⟨[[(0, 145936313762), (0, 3363220126029), (29796361842, 0), (0, 335355423),
    (3935555, 0)], [(0, 159361522504), (0, 11945673), (0, 221844), (0, 1405), (0, 7)], [(62684244, 0), (0, 14216),
    (0, 265), (0, 2)], [(0, 33408), (0, 8)]], 3, 4⟩, 1099511627776, 0, 248824177, ⟨[[(65069340650927, 0),
    (291410309830, 0), (461015144, 0), (60696, 0), (0, 248)], [(111833485474, 0), (351074047, 0), (87353, 0), (0,
    391), (0, 12)], [(0, 49642185), (0, 337213), (0, 263), (0, 8)], [(26624, 0), (411, 0), (0, 3)]], 3, 4⟩,
    68719476736, 256230284,
    272065620431495531897009117308238396833118880841134749123117508226553269660114120292702655050, ⟨1, 0,
    -97134687812499, [159106467612, 62987517, 33248]⟩⟩)))) (.sx (.sx (.sy (.leaf ⟨384, 16, 774, 509, 16, 191,
    ⟨[[(389768282112, 0)], [(415538085888, 0)]], 3, 4⟩, ⟨[[(447939736518, 0), (0, 2928737042366), (23692492914, 0),
    (0, 246694623), (2678850, 0)], [(0, 190775431773), (0, 7427021), (0, 124892), (0, 809), (0, 6)], [(93461463, 0),
    (0, 10969), (0, 185), (0, 1)], [(0, 61593), (0, 7)]], 3, 4⟩, 1099511627776, 0, 544038483, ⟨[[(59962324657943, 0),
    (285173204680, 0), (490084926, 0), (80696, 0), (0, 189)], [(131045571294, 0), (448466905, 0), (124014, 0), (0,
    360), (6, 0)], [(0, 67422752), (0, 529403), (0, 370), (6, 0)], [(36289, 0), (808, 0), (3, 0)]], 3, 4⟩,
    68719476736, 122931991,
    430928305481331382881242198628743032652479257446254852683437559205680008720837053440761238582, ⟨1, 0,
    -135694264095532, [190606808009, 93710328, 61429]⟩⟩) (.leaf ⟨384, 16, 774, 520, 16, 201, ⟨[[(389768282112, 0)],
    [(415538085888, 0)]], 3, 4⟩, ⟨[[(30383185669, 0), (0, 2808663241245), (20809279057, 0), (0, 201580656), (2064563,
    0)], [(0, 200815494681), (0, 9491665), (0, 148494), (0, 1061), (0, 11)], [(98278176, 0), (0, 14028), (0, 221),
    (0, 2)], [(0, 64868), (0, 9)]], 3, 4⟩, 1099511627776, 0, 569149720, ⟨[[(55829713652887, 0), (257188729142, 0),
    (438977162, 0), (84027, 0), (0, 322)], [(124405507296, 0), (422339717, 0), (134709, 0), (0, 673), (6, 0)], [(0,
    59654826), (0, 488080), (0, 639), (7, 0)], [(25209, 0), (640, 0), (5, 0)]], 3, 4⟩, 68719476736, 68096497,
    416654168792922008400314221529201310442458198051183152044277786879748076953382864063567610256, ⟨1, 0,
    -142798675828283, [200586222041, 98616628, 64645]⟩⟩)) (.sy (.leaf ⟨415, 16, 774, 514, 16, 198, ⟨[[(379030863872,
    0)], [(415538085888, 0)]], 3, 4⟩, ⟨[[(0, 121072684256), (0, 3036784961265), (24548826489, 0), (0, 255813604),
    (2776412, 0)], [(0, 183070005565), (0, 9719236), (0, 163565), (0, 1065), (0, 8)], [(82887594, 0), (0, 13289), (0,
    225), (0, 1)], [(0, 50647), (0, 8)]], 3, 4⟩, 1099511627776, 0, 415228669, ⟨[[(60113571788370, 0), (275526984798,
    0), (456561336, 0), (71559, 0), (0, 145)], [(121487200921, 0), (400253330, 0), (108484, 0), (0, 280), (4, 0)],
    [(0, 57938603), (0, 437427), (0, 280), (4, 0)], [(29104, 0), (621, 0), (2, 0)]], 3, 4⟩, 68719476736, 96197670,
    398949616055273312547205982201409838088851540686032489444054521870020221258407123237245591984, ⟨1, 0,
    -125084860376980, [182849379977, 83188981, 50463]⟩⟩) (.leaf ⟨415, 16, 774, 523, 16, 208, ⟨[[(379030863872, 0)],
    [(415538085888, 0)]], 3, 4⟩, ⟨[[(253034117052, 0), (0, 2907385810828), (21519758995, 0), (0, 208702831),
    (2135411, 0)], [(0, 192383666403), (0, 12401696), (0, 194273), (0, 1398), (0, 15)], [(86981223, 0), (0, 16974),
    (0, 268), (0, 2)], [(0, 53261), (0, 10)]], 3, 4⟩, 1099511627776, 0, 432694819, ⟨[[(55784084036721, 0),
    (248303748161, 0), (410297903, 0), (74272, 0), (0, 260)], [(115055199551, 0), (377387832, 0), (117963, 0), (0,
    550), (5, 0)], [(0, 50971180), (0, 403807), (0, 505), (6, 0)], [(19872, 0), (490, 0), (3, 0)]], 3, 4⟩,
    68719476736, 55770530,
    384216296188092988903463780398162479525806536801846949858097752980399709680321804121621295204, ⟨1, 0,
    -131402277567737, [192084197147, 87390445, 53012]⟩⟩))) (.sx (.sy (.leaf ⟨446, 16, 774, 518, 16, 205,
    ⟨[[(368293445632, 0)], [(415538085888, 0)]], 3, 4⟩, ⟨[[(463803411501, 0), (0, 3145068436279), (25401183889, 0),
    (0, 264958983), (2873756, 0)], [(0, 176452717497), (0, 12493155), (0, 210451), (0, 1379), (0, 11)], [(74224228,
    0), (0, 15906), (0, 269), (0, 2)], [(0, 42307), (0, 9)]], 3, 4⟩, 1099511627776, 0, 324315323, ⟨[[(59975146667426,
    0), (265595530990, 0), (426247726, 0), (63759, 0), (0, 108)], [(112868008783, 0), (359420995, 0), (96479, 0), (0,
    224), (3, 0)], [(0, 49945640), (0, 365535), (0, 220), (3, 0)], [(23211, 0), (484, 0), (2, 0)]], 3, 4⟩,
    68719476736, 75089013,
    346929907770254050915919170510549503706403015104097490684115561987234652238500961512012313223, ⟨1, 0,
    -114535176773912, [176169190045, 74584754, 42103]⟩⟩) (.leaf ⟨446, 16, 774, 529, 16, 216, ⟨[[(368293445632, 0)],
    [(415538085888, 0)]], 3, 4⟩, ⟨[[(0, 20952711480), (0, 3020388986901), (22328932093, 0), (0, 216863590), (2216143,
    0)], [(0, 186008206842), (0, 15993015), (0, 250940), (0, 1821), (0, 19)], [(78095782, 0), (0, 20388), (0, 323),
    (0, 2)], [(0, 44641), (0, 12)]], 3, 4⟩, 1099511627776, 0, 338124748, ⟨[[(55849636550270, 0), (239221439094, 0),
    (380990926, 0), (63795, 0), (0, 199)], [(107164580246, 0), (337973109, 0), (102447, 0), (0, 443), (4, 0)], [(0,
    44191512), (0, 337168), (0, 396), (4, 0)], [(16101, 0), (382, 0), (3, 0)]], 3, 4⟩, 68719476736, 45494678,
    327860912948286796312817741340267616330074065252318794485458027462474681468813376765595970086, ⟨1, 0,
    -120680966747146, [185622170975, 78586863, 44362]⟩⟩)) (.sy (.leaf ⟨477, 16, 774, 520, 16, 211, ⟨[[(357556027392,
    0)], [(415538085888, 0)]], 3, 4⟩, ⟨[[(546272954882, 0), (0, 3238288954109), (26124916856, 0), (0, 272843582),
    (2956810, 0)], [(0, 169909877863), (0, 15736256), (0, 265399), (0, 1753), (0, 14)], [(66698399, 0), (0, 18748),
    (0, 318), (0, 2)], [(0, 35656), (0, 10)]], 3, 4⟩, 1099511627776, 0, 257396616, ⟨[[(59962530990513, 0),
    (257908353352, 0), (402826295, 0), (56979, 0), (0, 69)], [(105530782511, 0), (326270098, 0), (86915, 0), (0,
    172), (3, 0)], [(0, 43619558), (0, 310521), (0, 169), (3, 0)], [(18967, 0), (387, 0), (2, 0)]], 3, 4⟩,
    68719476736, 70076979,
    268594612212528425867433150358647385321470938513455786212206256467736563477966458043377744196, ⟨1, 0,
    -103512217820390, [169552851849, 67123061, 35430]⟩⟩) (.leaf ⟨477, 16, 774, 530, 16, 222, ⟨[[(357556027392, 0)],
    [(415538085888, 0)]], 3, 4⟩, ⟨[[(0, 125049085284), (0, 3105784167248), (22925691609, 0), (0, 223058897),
    (2275881, 0)], [(0, 178877551261), (0, 20121623), (0, 316354), (0, 2319), (0, 25)], [(70044631, 0), (0, 24014),
    (0, 382), (0, 3)], [(0, 37585), (0, 13)]], 3, 4⟩, 1099511627776, 0, 267026519, ⟨[[(55874883566417, 0),
    (232721808487, 0), (361237196, 0), (55836, 0), (0, 156)], [(100249184329, 0), (307228508, 0), (91499, 0), (0,
    374), (4, 0)], [(0, 38629572), (0, 287200), (0, 322), (4, 0)], [(13180, 0), (305, 0), (2, 0)]], 3, 4⟩,
    68719476736, 36998290,
    242965625505710708280496457809791895567705677388074492676252749405346172014054064894840917517, ⟨1, 0,
    -108908589365529, [178392100050, 70622367, 37278]⟩⟩))))
theorem c8 : checkC job ⟨6, 8, 8, 10, 9, 13⟩ 3 100 lims t8 285 41 512 3 3 32 = true := by decide +kernel

def t9 : CTree :=
  .sy (.sx (.sy (.sx (.leaf ⟨508, 16, 774, 488, 16, 188, ⟨[[(346818609152, 0)], [(415538085888, 0)]], 3, 4⟩, ⟨[[(0,
    211946738774), (0, 3571644334036), (34937893448, 0), (0, 430508299), (5883075, 0)], [(0, 142079671086), (0,
    10817604), (0, 226757), (0, 1503), (0, 2)], [(52491544, 0), (0, 12089), (0, 254), (0, 2)], [(0, 26261), (0, 6)]],
    3, 4⟩, 1099511627776, 0, 208139978, ⟨[[(70921610990797, 0), (325814774128, 0), (514401873, 0), (0, 9089), (0,
    2325)], [(111470293864, 0), (349450245, 0), (11295, 0), (0, 3336), (0, 74)], [(0, 49697597), (0, 340843), (0,
    1679), (0, 50), (0, 1)], [(26977, 0), (81, 0), (0, 15)]], 3, 4⟩, 68719476736, 817228090,
    908613301636664511514074049485751875029680236831524145139293145743481826611536110007323983872, ⟨1, 0,
    -80226628668175, [141860523810, 52736254, 26139]⟩⟩) (.leaf ⟨539, 16, 774, 488, 16, 192, ⟨[[(336081190912, 0)],
    [(415538085888, 0)]], 3, 4⟩, ⟨[[(0, 352351298076), (0, 3648629148400), (35660448957, 0), (0, 439806405),
    (6008017, 0)], [(0, 136820988567), (0, 13199426), (0, 276732), (0, 1847), (0, 3)], [(47564918, 0), (0, 13910),
    (0, 292), (0, 2)], [(0, 22485), (0, 7)]], 3, 4⟩, 1099511627776, 0, 175786729, ⟨[[(70964063408827, 0),
    (319074201993, 0), (493891740, 0), (0, 12315), (0, 2321)], [(105117399906, 0), (322463184, 0), (13418, 0), (0,
    3085), (0, 69)], [(0, 44125871), (0, 295040), (0, 1436), (0, 44), (0, 1)], [(22883, 0), (74, 0), (0, 12)]], 3,
    4⟩, 68719476736, 763579677,
    840048385471614192918860250311855440781309257294350436639285643193671424886973988413800185856, ⟨1, 0,
    -70401579853834, [136553630100, 47846402, 22353]⟩⟩)) (.sx (.leaf ⟨508, 16, 774, 507, 16, 203, ⟨[[(346818609152,
    0)], [(415538085888, 0)]], 3, 4⟩, ⟨[[(0, 183338184272), (0, 3449256559247), (30528235976, 0), (0, 343954633),
    (4034298, 0)], [(0, 153495069155), (0, 14797573), (0, 275018), (0, 1754), (0, 9)], [(56591110, 0), (0, 16547),
    (0, 309), (0, 2)], [(0, 28401), (0, 8)]], 3, 4⟩, 1099511627776, 0, 202063182, ⟨[[(65081283609551, 0),
    (284177203847, 0), (439146113, 0), (56082, 0), (0, 215)], [(105036452903, 0), (321361641, 0), (81366, 0), (0,
    322), (0, 11)], [(0, 43746374), (0, 289411), (0, 199), (0, 7)], [(22154, 0), (338, 0), (0, 2)]], 3, 4⟩,
    68719476736, 224261164,
    251761399841220851489070183907612881725996251727554756476678879136116063153184873556282846179, ⟨1, 0,
    -86627689466167, [153179182624, 56943934, 28225]⟩⟩) (.leaf ⟨539, 16, 774, 505, 16, 207, ⟨[[(336081190912, 0)],
    [(415538085888, 0)]], 3, 4⟩, ⟨[[(534487786094, 0), (0, 3518577697868), (31104573678, 0), (0, 350893439),
    (4112983, 0)], [(0, 147606688873), (0, 18030230), (0, 335407), (0, 2156), (0, 11)], [(51179133, 0), (0, 19017),
    (0, 356), (0, 2)], [(0, 24290), (0, 9)]], 3, 4⟩, 1099511627776, 0, 166345188, ⟨[[(64901524918275, 0),
    (278030703100, 0), (422849185, 0), (53109, 0), (0, 147)], [(98819421346, 0), (296721517, 0), (77834, 0), (0,
    222), (0, 9)], [(0, 38660477), (0, 251331), (0, 130), (0, 5)], [(18460, 0), (286, 0), (0, 1)]], 3, 4⟩,
    68719476736, 200009117,
    218141703655543866527968231706794075161220861529567358922945355303073805286809547322901996691, ⟨1, 0,
    -75901703279915, [147221882451, 51584402, 24099]⟩⟩))) (.sy (.sx (.leaf ⟨570, 16, 774, 488, 16, 196,
    ⟨[[(325343772672, 0)], [(415538085888, 0)]], 3, 4⟩, ⟨[[(0, 320029626556), (0, 3725846384665), (36378127230, 0),
    (0, 449138224), (6132890, 0)], [(0, 132146326575), (0, 15940962), (0, 334280), (0, 2249), (0, 4)], [(43357548,
    0), (0, 15897), (0, 334), (0, 2)], [(0, 19440), (0, 7)]], 3, 4⟩, 1099511627776, 0, 151196957, ⟨[[(70955464637821,
    0), (312438333796, 0), (474781467, 0), (0, 10580), (0, 2206)], [(99409387813, 0), (298684941, 0), (19582, 0), (0,
    2738), (0, 63)], [(0, 39385719), (0, 256066), (0, 1186), (0, 37), (0, 1)], [(19649, 0), (76, 0), (0, 10)]], 3,
    4⟩, 68719476736, 698122060,
    732750411339398509662829709512537108068966365821463607023279161581280834985171983232810352640, ⟨0, 0,
    -60753961331369, [131823496210, 43679091, 19297]⟩⟩) (.leaf ⟨601, 16, 774, 485, 16, 199, ⟨[[(314606354432, 0)],
    [(415538085888, 0)]], 3, 4⟩, ⟨[[(469966135816, 0), (0, 3784314370774), (36904740611, 0), (0, 456216930),
    (6226387, 0)], [(0, 127327335691), (0, 18980189), (0, 398114), (0, 2704), (0, 5)], [(39530900, 0), (0, 17966),
    (0, 378), (0, 3)], [(0, 16870), (0, 8)]], 3, 4⟩, 1099511627776, 0, 131904161, ⟨[[(70735695443055, 0),
    (306953835050, 0), (461547114, 0), (0, 1164), (0, 1947)], [(94101256442, 0), (278942487, 0), (31992, 0), (0,
    2255), (0, 55)], [(0, 35201177), (0, 223007), (0, 906), (0, 30), (0, 1)], [(16995, 0), (90, 0), (0, 7)]], 3, 4⟩,
    68719476736, 654942621,
    576558598707010143669606702331099986734677899937224176425115593924211580562154185549861093376, ⟨0, 0,
    -50996703135596, [126943038970, 39894104, 16717]⟩⟩)) (.sx (.leaf ⟨570, 16, 774, 504, 16, 211, ⟨[[(325343772672,
    0)], [(415538085888, 0)]], 3, 4⟩, ⟨[[(373907489231, 0), (0, 3588212054627), (31675056506, 0), (0, 357871507),
    (4191446, 0)], [(0, 142376017185), (0, 21746279), (0, 404981), (0, 2629), (0, 14)], [(46559550, 0), (0, 21708),
    (0, 407), (0, 3)], [(0, 20980), (0, 10)]], 3, 4⟩, 1099511627776, 0, 139171884, ⟨[[(64946530294466, 0),
    (272766712133, 0), (407671866, 0), (49503, 0), (0, 92)], [(93508172892, 0), (275051325, 0), (74324, 0), (0, 152),
    (0, 8)], [(0, 34568034), (0, 219993), (0, 83), (0, 4)], [(15734, 0), (244, 0), (0, 1)]], 3, 4⟩, 68719476736,
    177072499, 182404957672101417169639290627185710538735766810729633034414627326045490194644724316052067826, ⟨0, 0,
    -65403499188362, [141912029083, 47021878, 20774]⟩⟩) (.leaf ⟨601, 16, 774, 503, 16, 215, ⟨[[(314606354432, 0)],
    [(415538085888, 0)]], 3, 4⟩, ⟨[[(397305193349, 0), (0, 3658206314017), (32238796427, 0), (0, 364895663),
    (4269637, 0)], [(0, 137703872075), (0, 25990199), (0, 484646), (0, 3182), (0, 17)], [(42577469, 0), (0, 24632),
    (0, 464), (0, 3)], [(0, 18283), (0, 11)]], 3, 4⟩, 1099511627776, 0, 118467105, ⟨[[(64944902541797, 0),
    (267540271251, 0), (393392370, 0), (45732, 0), (0, 27)], [(88703287671, 0), (255744463, 0), (71364, 0), (0, 81),
    (0, 6)], [(0, 31052559), (0, 193766), (0, 42), (0, 3)], [(13498, 0), (210, 0), (0, 1)]], 3, 4⟩, 68719476736,
    156982882, 165868267051567883343100614853835029075207876318087657156221690806984017003718400830958102119, ⟨0, 0,
    -55096940573634, [137149514465, 43101670, 18061]⟩⟩)))) (.sx (.sy (.sx (.leaf ⟨508, 16, 774, 520, 16, 216,
    ⟨[[(346818609152, 0)], [(415538085888, 0)]], 3, 4⟩, ⟨[[(284841542779, 0), (0, 3316481402219), (26719421030, 0),
    (0, 279472059), (3025526, 0)], [(0, 163430225647), (0, 19468042), (0, 328816), (0, 2191), (0, 18)], [(60097210,
    0), (0, 21799), (0, 371), (0, 3)], [(0, 30279), (0, 11)]], 3, 4⟩, 1099511627776, 0, 207112477,
    ⟨[[(60028541062273, 0), (252027264210, 0), (384980645, 0), (50966, 0), (0, 31)], [(99185184804, 0), (299053339,
    0), (79354, 0), (0, 128), (3, 0)], [(0, 38495988), (0, 267638), (0, 128), (2, 0)], [(15796, 0), (316, 0), (1,
    0)]], 3, 4⟩, 68719476736, 56164864,
    175141463080181770587836842951661638998420057140624032435858980578581423590328566024636741094, ⟨1, 0,
    -92175275491094, [162988686930, 60590590, 30033]⟩⟩) (.leaf ⟨539, 16, 774, 520, 16, 221, ⟨[[(336081190912, 0)],
    [(415538085888, 0)]], 3, 4⟩, ⟨[[(211907000535, 0), (0, 3395041395106), (27307673351, 0), (0, 286144031),
    (3093845, 0)], [(0, 157718654348), (0, 23807755), (0, 402820), (0, 2714), (0, 23)], [(54504455, 0), (0, 25154),
    (0, 430), (0, 3)], [(0, 25997), (0, 12)]], 3, 4⟩, 1099511627776, 0, 169495658, ⟨[[(60049121853033, 0),
    (246255609849, 0), (368389234, 0), (44879, 0), (4, 0)], [(93521676126, 0), (275206860, 0), (72897, 0), (0, 94),
    (3, 0)], [(0, 34179267), (0, 232548), (0, 97), (2, 0)], [(13256, 0), (261, 0), (1, 0)]], 3, 4⟩, 68719476736,
    50057342, 89894195908848076673143475715992822596139715272793562327792588940775200953953599227933284245, ⟨1, 0,
    -81035151810924, [157178917979, 55073202, 25729]⟩⟩)) (.sx (.leaf ⟨508, 16, 774, 531, 16, 228, ⟨[[(346818609152,
    0)], [(415538085888, 0)]], 3, 4⟩, ⟨[[(0, 79169339085), (0, 3191592111618), (23515902833, 0), (0, 229304444),
    (2335038, 0)], [(0, 172646002958), (0, 24983670), (0, 393755), (0, 2923), (0, 32)], [(63283136, 0), (0, 28038),
    (0, 448), (0, 4)], [(0, 32038), (0, 14)]], 3, 4⟩, 1099511627776, 0, 214791145, ⟨[[(55867661639627, 0),
    (226443233209, 0), (343098760, 0), (48178, 0), (0, 121)], [(94140695386, 0), (280600172, 0), (82416, 0), (0,
    322), (3, 0)], [(0, 34011602), (0, 246891), (0, 266), (3, 0)], [(10890, 0), (246, 0), (2, 0)]], 3, 4⟩,
    68719476736, 34638999,
    152664175303820962915743264809894021560188143931309879152334443995503393169103087653232913334, ⟨1, 0,
    -97296124129488, [172043613982, 63956734, 31701]⟩⟩) (.leaf ⟨539, 16, 774, 532, 16, 234, ⟨[[(336081190912, 0)],
    [(415538085888, 0)]], 3, 4⟩, ⟨[[(73302863646, 0), (0, 3277885616504), (24098373137, 0), (0, 235610807), (2393469,
    0)], [(0, 167163482519), (0, 30661257), (0, 484656), (0, 3652), (0, 41)], [(57533638, 0), (0, 32487), (0, 523),
    (0, 4)], [(0, 27611), (0, 16)]], 3, 4⟩, 1099511627776, 0, 175668107, ⟨[[(55839260297659, 0), (220398366170, 0),
    (326437351, 0), (40750, 0), (0, 91)], [(88713533006, 0), (257353749, 0), (74846, 0), (0, 284), (3, 0)], [(0,
    30141224), (0, 213983), (0, 223), (3, 0)], [(9081, 0), (201, 0), (1, 0)]], 3, 4⟩, 68719476736, 30688594,
    119317391028511998182887428136984371765516718919239352622473828790854560742629972767891649412, ⟨1, 0,
    -85801925446860, [166424736684, 58312802, 27243]⟩⟩))) (.sy (.sx (.leaf ⟨570, 16, 774, 520, 16, 226,
    ⟨[[(325343772672, 0)], [(415538085888, 0)]], 3, 4⟩, ⟨[[(287319064942, 0), (0, 3474028509750), (27888634495, 0),
    (0, 292867806), (3161671, 0)], [(0, 152653534764), (0, 28817141), (0, 488597), (0, 3334), (0, 29)], [(49713582,
    0), (0, 28830), (0, 496), (0, 4)], [(0, 22542), (0, 13)]], 3, 4⟩, 1099511627776, 0, 140848233,
    ⟨[[(60036134796343, 0), (240617640930, 0), (352966954, 0), (38639, 0), (35, 0)], [(88441998933, 0), (254168070,
    0), (67337, 0), (0, 70), (3, 0)], [(0, 30513031), (0, 203539), (0, 74), (2, 0)], [(11207, 0), (217, 0), (1, 0)]],
    3, 4⟩, 68719476736, 44276189,
    119779306893243155333877478499356480399813138232480501846142482052967424458932243007374236403, ⟨0, 0,
    -70053037045354, [152000561956, 50364666, 22251]⟩⟩) (.leaf ⟨601, 16, 774, 518, 16, 230, ⟨[[(314606354432, 0)],
    [(415538085888, 0)]], 3, 4⟩, ⟨[[(199713681606, 0), (0, 3538125278149), (28337939144, 0), (0, 298355879),
    (3214911, 0)], [(0, 147497367589), (0, 34412021), (0, 584899), (0, 4051), (0, 37)], [(45371242, 0), (0, 32704),
    (0, 565), (0, 4)], [(0, 19634), (0, 14)]], 3, 4⟩, 1099511627776, 0, 118325930, ⟨[[(60058283355455, 0),
    (236321983818, 0), (341611920, 0), (32714, 0), (63, 0)], [(83925046589, 0), (236545727, 0), (63043, 0), (0, 52),
    (3, 0)], [(0, 27421350), (0, 180137), (0, 57), (2, 0)], [(9587, 0), (184, 0), (1, 0)]], 3, 4⟩, 68719476736,
    41779865, 159236317025136321148209201432495329053218692636427998704091248579797689584596769942156717865, ⟨0, 0,
    -58940913171795, [146718085242, 46108763, 19321]⟩⟩)) (.leaf ⟨293, 16, 387, 378, 16, 172, ⟨[[(0, 114890375168)],
    [(415538085888, 0)]], 3, 4⟩, ⟨[[(0, 114497653375), (0, 2412541263194), (17663323148, 0), (0, 173566031),
    (1754924, 0)], [(0, 226636881007), (0, 57900122), (0, 920230), (0, 7124), (0, 83)], [(142609398, 0), (0, 113320),
    (0, 1847), (0, 16)], [(0, 127374), (0, 101), (0, 2)]], 3, 4⟩, 1099511627776, 0, 1454078305, ⟨[[(55929386390842,
    0), (299813879352, 0), (606828405, 0), (83922, 0), (0, 207)], [(163460596086, 0), (642810850, 0), (260392, 0),
    (0, 1325), (19, 0)], [(0, 102016407), (0, 988784), (0, 1359), (22, 0)], [(56962, 0), (1714, 0), (15, 0)]], 3, 4⟩,
    68719476736, 1099152504,
    347717865312420487514461887801169665538758180393604618090312377928592990697912316282183870215, ⟨0, 0,
    -48635035116087, [225243744531, 145318545, 125005]⟩⟩)))
theorem c9 : checkC job ⟨6, 8, 8, 10, 9, 13⟩ 3 100 lims t9 367 41 512 3 3 32 = true := by decide +kernel

def t10 : CTree :=
  .sx (.sx (.sy (.sx (.leaf ⟨384, 16, 774, 355, 16, 143, ⟨[[(389768282112, 0)], [(415538085888, 0)]], 3, 4⟩, ⟨[[(0,
    420782178239), (0, 3525452096194), (46203676679, 0), (0, 805802811), (15129961, 0)], [(0, 142938675096), (0,
    17728379), (0, 522587), (0, 9051), (0, 215)], [(69815841, 0), (0, 26251), (0, 781), (0, 14)], [(0, 46218), (0,
    17), (0, 1)]], 3, 4⟩, 1099511627776, 0, 527071014, ⟨[[(50618149211628, 0), (335746813153, 0), (854774301, 0),
    (331262, 0), (0, 1921)], [(115597300954, 0), (584138884, 0), (377636, 0), (0, 2975), (11, 0)], [(0, 49742154),
    (0, 636299), (0, 2006), (12, 0)], [(13774, 0), (637, 0), (8, 0)]], 3, 4⟩, 68719476736, 1590988959,
    486156165537448422045172446652097343214828056577175230237028463450872262722541222538129988888, ⟨1, 0,
    -101593087778330, [142705620656, 70160089, 45992]⟩⟩) (.leaf ⟨415, 16, 774, 354, 16, 147, ⟨[[(379030863872, 0)],
    [(415538085888, 0)]], 3, 4⟩, ⟨[[(0, 5788833449), (0, 3625752082958), (47446324524, 0), (0, 829209079), (15532465,
    0)], [(0, 136054256142), (0, 23022150), (0, 680421), (0, 11907), (0, 287)], [(61347882, 0), (0, 31591), (0, 946),
    (0, 17)], [(0, 37718), (0, 20), (0, 1)]], 3, 4⟩, 1099511627776, 0, 431573794, ⟨[[(50495622207149, 0),
    (325851054498, 0), (809733740, 0), (296692, 0), (0, 1626)], [(106778844538, 0), (525192099, 0), (334784, 0), (0,
    2526), (9, 0)], [(0, 42349030), (0, 529384), (0, 1623), (9, 0)], [(10700, 0), (488, 0), (6, 0)]], 3, 4⟩,
    68719476736, 1441703240,
    417003152371621508558687589097187094296151241498548800343396952018763453172249923858672195398, ⟨1, 0,
    -92866032704122, [135751812407, 61761516, 37465]⟩⟩)) (.sx (.leaf ⟨384, 16, 774, 370, 16, 157, ⟨[[(389768282112,
    0)], [(415538085888, 0)]], 3, 4⟩, ⟨[[(0, 310079993880), (0, 3344890177671), (37801637847, 0), (0, 579539352),
    (9545768, 0)], [(0, 157072603946), (0, 27660895), (0, 815361), (0, 17612), (0, 412)], [(76443260, 0), (0, 41168),
    (0, 1238), (0, 28), (0, 1)], [(0, 50882), (0, 28), (0, 1)]], 3, 4⟩, 1099511627776, 0, 509145208,
    ⟨[[(44851460861716, 0), (278124222128, 0), (691158643, 0), (353504, 0), (0, 1124)], [(105226799415, 0),
    (516926991, 0), (451978, 0), (0, 2223), (0, 8)], [(0, 38990798), (0, 507528), (0, 1873), (0, 2)], [(4397, 0),
    (392, 0), (3, 0)]], 3, 4⟩, 68719476736, 756320488,
    321111166344647579621161016691290520507810713680514085661094506783004564581770079168651937711, ⟨1, 0,
    -111539264204181, [156676800300, 77028909, 50494]⟩⟩) (.leaf ⟨415, 16, 774, 370, 16, 162, ⟨[[(379030863872, 0)],
    [(415538085888, 0)]], 3, 4⟩, ⟨[[(0, 151016474854), (0, 3454057627374), (38927408195, 0), (0, 599694746),
    (9809770, 0)], [(0, 150119865819), (0, 36106747), (0, 1070240), (0, 23436), (0, 556)], [(67356593, 0), (0,
    49892), (0, 1519), (0, 35), (0, 1)], [(0, 41724), (0, 32), (0, 1)]], 3, 4⟩, 1099511627776, 0, 404046853,
    ⟨[[(44813800654249, 0), (269152676120, 0), (650694350, 0), (305642, 0), (0, 815)], [(97316710241, 0), (463102941,
    0), (392178, 0), (0, 1780), (0, 8)], [(0, 33259603), (0, 422201), (0, 1463), (0, 2)], [(3332, 0), (307, 0), (2,
    0)]], 3, 4⟩, 68719476736, 683655154,
    403214080857730825437439721494510624177024325256598666490057140276082636983192836920786099897, ⟨1, 0,
    -102342158490257, [149604038163, 68063712, 41288]⟩⟩))) (.sy (.sx (.leaf ⟨446, 16, 774, 351, 16, 150,
    ⟨[[(368293445632, 0)], [(415538085888, 0)]], 3, 4⟩, ⟨[[(252717991512, 0), (0, 3701901332568), (48350841360, 0),
    (0, 847254832), (15822209, 0)], [(0, 129287458751), (0, 29191712), (0, 865602), (0, 15340), (0, 375)],
    [(54086222, 0), (0, 37342), (0, 1127), (0, 21), (0, 1)], [(0, 31085), (0, 22), (0, 1)]], 3, 4⟩, 1099511627776, 0,
    363261213, ⟨[[(50424151449204, 0), (318798657066, 0), (778929462, 0), (267597, 0), (0, 1396)], [(99265787527, 0),
    (478383363, 0), (302084, 0), (0, 2204), (7, 0)], [(0, 36520764), (0, 449280), (0, 1342), (7, 0)], [(8505, 0),
    (385, 0), (4, 0)]], 3, 4⟩, 68719476736, 1422415487,
    329229203783154012482978816028378592850257724241297764695357648877389009080099736121425669772, ⟨1, 0,
    -83806226907740, [128904285399, 54574211, 30807]⟩⟩) (.leaf ⟨477, 16, 774, 349, 16, 153, ⟨[[(357556027392, 0)],
    [(415538085888, 0)]], 3, 4⟩, ⟨[[(0, 283916566408), (0, 3778649463072), (49237334784, 0), (0, 865637986),
    (16103164, 0)], [(0, 123424236757), (0, 36478748), (0, 1086055), (0, 19544), (0, 487)], [(48102069, 0), (0,
    43731), (0, 1331), (0, 26), (0, 1)], [(0, 25996), (0, 24), (0, 1)]], 3, 4⟩, 1099511627776, 0, 315307885,
    ⟨[[(50581359446392, 0), (313076989607, 0), (750767808, 0), (234761, 0), (0, 1173)], [(93053149475, 0),
    (438355523, 0), (270286, 0), (0, 1919), (5, 0)], [(0, 32072600), (0, 386923), (0, 1107), (5, 0)], [(7080, 0),
    (313, 0), (3, 0)]], 3, 4⟩, 68719476736, 1413339143,
    386051862363121354861621809256211524413299293171167120965141700261209727816052950668979589493, ⟨1, 0,
    -75058622400567, [122945906791, 48672172, 25691]⟩⟩)) (.sx (.leaf ⟨446, 16, 774, 368, 16, 166, ⟨[[(368293445632,
    0)], [(415538085888, 0)]], 3, 4⟩, ⟨[[(0, 82833989347), (0, 3542738877831), (39787573747, 0), (0, 616732437),
    (9998682, 0)], [(0, 143310719343), (0, 46055920), (0, 1374570), (0, 30604), (0, 737)], [(59556579, 0), (0,
    59464), (0, 1838), (0, 44), (0, 1)], [(0, 34576), (0, 35), (0, 1)]], 3, 4⟩, 1099511627776, 0, 329343518,
    ⟨[[(44799852853681, 0), (262349564905, 0), (621676859, 0), (264779, 0), (0, 537)], [(90547350537, 0), (420115561,
    0), (346263, 0), (0, 1439), (0, 9)], [(0, 28706238), (0, 358221), (0, 1161), (0, 3)], [(2558, 0), (249, 0), (1,
    0)]], 3, 4⟩, 68719476736, 686312327,
    477595302222521587392991711788444242821975674814186563441720955039897123698733417812244016661, ⟨1, 0,
    -92745557777899, [142654075842, 60395460, 34093]⟩⟩) (.leaf ⟨477, 16, 774, 366, 16, 170, ⟨[[(357556027392, 0)],
    [(415538085888, 0)]], 3, 4⟩, ⟨[[(220961336185, 0), (0, 3632403651631), (40617505701, 0), (0, 634489979),
    (10169195, 0)], [(0, 137430165714), (0, 57909166), (0, 1742897), (0, 39578), (0, 971)], [(53094546, 0), (0,
    70265), (0, 2213), (0, 55), (0, 1)], [(0, 29080), (0, 40), (0, 1)]], 3, 4⟩, 1099511627776, 0, 276480533,
    ⟨[[(44731529938863, 0), (255555886083, 0), (594955328, 0), (224362, 0), (0, 243)], [(84579873824, 0), (382983036,
    0), (307891, 0), (0, 1132), (0, 9)], [(0, 24935994), (0, 307032), (0, 918), (0, 3)], [(1918, 0), (206, 0), (1,
    0)]], 3, 4⟩, 68719476736, 676394056,
    522792172044208229261083209575158814025162812600977565017754299408840556094792507930337743995, ⟨1, 0,
    -83398469333963, [136606563101, 54080191, 28546]⟩⟩)))) (.sy (.sx (.sx (.leaf ⟨508, 16, 774, 346, 16, 156,
    ⟨[[(346818609152, 0)], [(415538085888, 0)]], 3, 4⟩, ⟨[[(529757551273, 0), (0, 3856104018503), (50102391325, 0),
    (0, 884434268), (16373023, 0)], [(0, 118303503973), (0, 45009786), (0, 1346618), (0, 24677), (0, 628)],
    [(43099480, 0), (0, 50805), (0, 1564), (0, 32), (0, 1)], [(0, 22023), (0, 26), (0, 1)]], 3, 4⟩, 1099511627776, 0,
    281229908, ⟨[[(50355811420785, 0), (305724343197, 0), (723724267, 0), (207483, 0), (0, 960)], [(87098567419, 0),
    (402837824, 0), (249933, 0), (0, 1699), (3, 0)], [(0, 27977720), (0, 333937), (0, 934), (4, 0)], [(5647, 0),
    (252, 0), (2, 0)]], 3, 4⟩, 68719476736, 1383280964,
    415655680977126860523445499471203382379243021378375949516953047132052147573506164643679651282, ⟨1, 0,
    -66571032299124, [117714051672, 43759871, 21690]⟩⟩) (.leaf ⟨539, 16, 774, 344, 16, 159, ⟨[[(336081190912, 0)],
    [(415538085888, 0)]], 3, 4⟩, ⟨[[(451033002081, 0), (0, 3934384866725), (50942123039, 0), (0, 903735213),
    (16628871, 0)], [(0, 113801641432), (0, 54921346), (0, 1652811), (0, 30937), (0, 806)], [(38863502, 0), (0,
    58621), (0, 1828), (0, 39), (0, 1)], [(0, 18873), (0, 29), (0, 1)]], 3, 4⟩, 1099511627776, 0, 256809069,
    ⟨[[(50382585893825, 0), (299763379004, 0), (699097901, 0), (176439, 0), (0, 748)], [(82145838190, 0), (372004098,
    0), (228737, 0), (0, 1491), (1, 0)], [(0, 24819748), (0, 291927), (0, 782), (3, 0)], [(4718, 0), (209, 0), (2,
    0)]], 3, 4⟩, 68719476736, 1369737924,
    404132074518064579127190735158731908057447401351343380215304975144038086670292711550848621848, ⟨1, 0,
    -58301308316456, [113083474926, 39622801, 18511]⟩⟩)) (.sy (.leaf ⟨293, 16, 387, 380, 16, 179, ⟨[[(0,
    114890375168)], [(415538085888, 0)]], 3, 4⟩, ⟨[[(157014636023, 0), (0, 2308183413869), (15488123404, 0), (0,
    142837150), (1348990, 0)], [(0, 236258215380), (0, 72633491), (0, 1112953), (0, 10021), (0, 132)], [(147632543,
    0), (0, 143025), (0, 2281), (0, 24)], [(0, 133263), (0, 131), (0, 2)]], 3, 4⟩, 1099511627776, 0, 1513005616,
    ⟨[[(52173855801309, 0), (273133976197, 0), (557027296, 0), (89910, 0), (0, 350)], [(155240190875, 0), (610468742,
    0), (302073, 0), (0, 1799), (6, 0)], [(0, 89567435), (0, 907458), (0, 1865), (10, 0)], [(37295, 0), (1308, 0),
    (11, 0)]], 3, 4⟩, 68719476736, 878733346,
    394237344971913209001834043426974515050756198694948870071549479048593515995028513024315823942, ⟨0, 0,
    -50614367940579, [234410641110, 151232672, 130093]⟩⟩) (.leaf ⟨293, 16, 387, 378, 16, 184, ⟨[[(0, 114890375168)],
    [(415538085888, 0)]], 3, 4⟩, ⟨[[(338397899873, 0), (0, 2196352501867), (13549643200, 0), (0, 118057310),
    (1029093, 0)], [(0, 243349181904), (0, 89632737), (0, 1362840), (0, 14245), (0, 195)], [(150784078, 0), (0,
    178128), (0, 2873), (0, 35), (0, 1)], [(0, 137886), (0, 168), (0, 3)]], 3, 4⟩, 1099511627776, 0, 1555707416,
    ⟨[[(48905738937021, 0), (252453869394, 0), (523761521, 0), (95571, 0), (0, 128)], [(147797561253, 0), (585860015,
    0), (349592, 0), (0, 1608), (0, 7)], [(0, 78724822), (0, 835705), (0, 1899), (0, 2)], [(22605, 0), (1076, 0), (5,
    0)]], 3, 4⟩, 68719476736, 849953254,
    494218276039746677747431750040345942039845803646204747069942814864184576445366096054869914211, ⟨0, 0,
    -52028177100930, [240958424382, 155457048, 133726]⟩⟩))) (.sx (.sx (.leaf ⟨508, 16, 774, 363, 16, 173,
    ⟨[[(346818609152, 0)], [(415538085888, 0)]], 3, 4⟩, ⟨[[(0, 495469163140), (0, 3701840946377), (41172872055, 0),
    (0, 649395043), (10256742, 0)], [(0, 131555745904), (0, 71502444), (0, 2173787), (0, 50508), (0, 1264)],
    [(47386672, 0), (0, 81966), (0, 2637), (0, 69), (0, 2)], [(0, 24639), (0, 45), (0, 2)]], 3, 4⟩, 1099511627776, 0,
    236846812, ⟨[[(44898602638195, 0), (251528742198, 0), (577686724, 0), (186548, 0), (6, 0)], [(79675471109, 0),
    (353273063, 0), (275225, 0), (0, 907), (0, 10)], [(0, 22078696), (0, 268859), (0, 737), (0, 3)], [(1579, 0),
    (176, 0), (1, 0)]], 3, 4⟩, 68719476736, 704019170,
    533930894490843538116966329604350285576902924159578664548268094972220746443616781154252625019, ⟨1, 0,
    -73825567870182, [130541864995, 48528574, 24054]⟩⟩) (.leaf ⟨539, 16, 774, 359, 16, 176, ⟨[[(336081190912, 0)],
    [(415538085888, 0)]], 3, 4⟩, ⟨[[(151464302051, 0), (0, 3772585878258), (41686492159, 0), (0, 665373723),
    (10315172, 0)], [(0, 126408460334), (0, 87361490), (0, 2687741), (0, 64104), (0, 1640)], [(42545439, 0), (0,
    95079), (0, 3136), (0, 86), (0, 2)], [(0, 21131), (0, 50), (0, 2)]], 3, 4⟩, 1099511627776, 0, 208167820,
    ⟨[[(44753617979599, 0), (246156458550, 0), (561123220, 0), (146679, 0), (354, 0)], [(74925801614, 0), (326464933,
    0), (249447, 0), (0, 648), (0, 11)], [(0, 19382804), (0, 236006), (0, 576), (0, 3)], [(1107, 0), (151, 0)]], 3,
    4⟩, 68719476736, 769650838,
    526116578941095231349779763836224267610497581128472346386684196667220008758098361628101286298, ⟨1, 0,
    -64534781532681, [125174160925, 43859201, 20490]⟩⟩)) (.sx (.leaf ⟨570, 16, 774, 356, 16, 179, ⟨[[(325343772672,
    0)], [(415538085888, 0)]], 3, 4⟩, ⟨[[(0, 81766730991), (0, 3844855910853), (42150302519, 0), (0, 682688753),
    (10336290, 0)], [(0, 121877765043), (0, 105765494), (0, 3299500), (0, 81032), (0, 2123)], [(38388158, 0), (0,
    109792), (0, 3726), (0, 107), (0, 3)], [(0, 18324), (0, 56), (0, 2)]], 3, 4⟩, 1099511627776, 0, 187799502,
    ⟨[[(44807427070690, 0), (241771110708, 0), (546326003, 0), (105053, 0), (673, 0)], [(70946186662, 0), (303069196,
    0), (224552, 0), (0, 435), (0, 11)], [(0, 17280390), (0, 209822), (0, 446), (0, 4)], [(830, 0), (133, 0)]], 3,
    4⟩, 68719476736, 833763887,
    495117111280884785489466829426677426042666856715968188957626943402870237902148008405404903015, ⟨0, 0,
    -55484485093444, [120389825620, 39890598, 17623]⟩⟩) (.leaf ⟨601, 16, 774, 351, 16, 181, ⟨[[(314606354432, 0)],
    [(415538085888, 0)]], 3, 4⟩, ⟨[[(0, 66120573150), (0, 3897363299311), (42320977505, 0), (0, 697813023),
    (10252942, 0)], [(0, 117229113115), (0, 126332837), (0, 4004802), (0, 101572), (0, 2726)], [(34585638, 0), (0,
    125637), (0, 4401), (0, 132), (0, 4)], [(0, 15966), (0, 62), (0, 3)]], 3, 4⟩, 1099511627776, 0, 172004333,
    ⟨[[(44805493165163, 0), (238505972971, 0), (538675757, 0), (61328, 0), (1055, 0)], [(67315358733, 0), (283641563,
    0), (204425, 0), (0, 226), (0, 12)], [(0, 15438105), (0, 188891), (0, 338), (0, 4)], [(568, 0), (120, 0)]], 3,
    4⟩, 68719476736, 936864163,
    441829805092197130471555190270246730968033287916100921673511949700588399322870593032897806992, ⟨0, 0,
    -46383936017804, [115460754038, 36285592, 15205]⟩⟩))))
theorem c10 : checkC job ⟨6, 8, 8, 10, 9, 13⟩ 3 100 lims t10 163 41 256 9 3 32 = true := by decide +kernel

end PyX.Kron.S2a
