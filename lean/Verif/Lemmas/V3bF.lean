import Verif.Lemmas.V3bJob

/-!
# The volume from pressure and enthalpy in subregion 3b, part F of the certificate
-/

namespace PyX.Kron.V3b

set_option Elab.async false

def t155 : CTree :=
  .sx (.sy (.leaf ⟨2067, 16, 7791, 420, 16, 2602, ⟨[[(10662905038012416, 0), (0, 16044352476328786), (0,
    195045751639), (0, 158837763), (0, 26302)], [(64555504176916635, 0), (0, 61248417690381), (0, 2725240029), (0,
    1187490), (0, 199)], [(0, 444280914940436), (19219561580, 0), (6927491, 0), (1401, 0)], [(1181963733336, 0),
    (245411454, 0), (101236, 0), (26, 0)]], 3, 4⟩, ⟨[[(0, 23450130565722112), (0, 6424685753084729), (0,
    415739170249), (0, 145130994), (0, 27278)], [(0, 122303073578217289), (0, 11694756807925), (0, 4081880382), (0,
    1041565), (0, 160)], [(124466602872779, 0), (2446408574, 0), (0, 1473227), (0, 280)], [(0, 43818763702),
    (89855216, 0), (41473, 0), (10, 0)]], 3, 4⟩, 72057594037927936, 2555534985954, 476681494089, ⟨[[(12784731828470,
    0), (19986958607, 0), (8008507, 0), (0, 779), (19, 0)], [(0, 8006644060), (0, 13233877), (0, 2821), (8, 0)],
    [(5598262, 0), (9457, 0), (0, 11)], [(0, 3271), (0, 14)]], 3, 4⟩, 17592186044416, 624310,
    10550442660480301421823904063315593189547197981948727310749058877192439574361418591807586767470077244935179569578832357144034552,
    lc0⟩) (.leaf ⟨2110, 16, 8021, 409, 16, 2580, ⟨[[(19780507516108800, 0), (0, 16552363749557350), (0,
    240072320214), (0, 172165934), (0, 28308)], [(61525194550291758, 0), (0, 63516942291693), (0, 3099361430), (0,
    1287964), (0, 215)], [(0, 455809172133009), (20926379839, 0), (7479477, 0), (1528, 0)], [(1237210852439, 0),
    (269409349, 0), (110615, 0), (28, 0)]], 3, 4⟩, ⟨[[(14031179616571392, 0), (0, 6437350232735218), (0,
    446900028292), (0, 152536794), (0, 28299)], [(0, 122198595495141358), (0, 12246421054140), (0, 4294909432), (0,
    1083324), (0, 165)], [(123594418383853, 0), (2192647994, 0), (0, 1528265), (0, 300)], [(0, 36243823418),
    (95696619, 0), (43529, 0), (11, 0)]], 3, 4⟩, 72057594037927936, 2621921342193, 477057890000, ⟨[[(12775152766414,
    0), (20271765753, 0), (8221357, 0), (0, 1658), (24, 0)], [(0, 7871412979), (0, 13264588), (0, 2654), (16, 0)],
    [(5372434, 0), (9943, 0), (0, 11)], [(0, 2955), (0, 16)]], 3, 4⟩, 17592186044416, 571343,
    11846051705347702920629021367816104937879361693214488593819164188186168696918226060571873033194975780207311135981885099930892698,
    lc0⟩)) (.sy (.leaf ⟨2179, 16, 8167, 403, 16, 2644, ⟨[[(0, 11690886489604096), (0, 17712870129697694), (0,
    242736975649), (0, 183568052), (0, 30423)], [(55347059921861550, 0), (0, 63488547693110), (0, 2590485170), (0,
    1187642), (0, 198)], [(0, 415000064353873), (30982891135, 0), (11773042, 0), (2618, 0)], [(1176066408810, 0),
    (257780786, 0), (108274, 0), (28, 0)]], 3, 4⟩, ⟨[[(0, 25549294665748480), (0, 6694020490697366), (0,
    480696561402), (0, 162318509), (0, 30005)], [(0, 120760115062013477), (0, 11760119835915), (0, 4164981229), (0,
    1060322), (0, 164)], [(124810722187220, 0), (6329234301, 0), (263390, 0), (144, 0)], [(0, 35289441477),
    (91359141, 0), (41560, 0), (10, 0)]], 3, 4⟩, 72057594037927936, 2755066243022, 344373266180, ⟨[[(12232204785693,
    0), (19149247464, 0), (7828732, 0), (0, 2321), (17, 0)], [(0, 7225612524), (0, 12071366), (0, 3645), (17, 0)],
    [(4796094, 0), (8324, 0), (0, 3)], [(0, 2512), (0, 12)]], 3, 4⟩, 17592186044416, 425456,
    11676119127561472798267082823676366971615539576065516116687072751131250402476193475335800752217800595384928682507052660127756757,
    lc0⟩) (.leaf ⟨2226, 16, 8417, 392, 16, 2621, ⟨[[(0, 17925326705360896), (0, 18297618065330366), (0,
    295599035587), (0, 199191914), (0, 32788)], [(51920761454746450, 0), (0, 65871213731165), (0, 2963765140), (0,
    1289194), (0, 214)], [(0, 425137869050030), (33874304688, 0), (12782875, 0), (2854, 0), (1, 0)], [(1233481937926,
    0), (283607572, 0), (118420, 0), (30, 0)]], 3, 4⟩, ⟨[[(0, 5872062059429888), (0, 6713119911490664), (0,
    515269408848), (0, 170398719), (0, 31111)], [(0, 120644564021022775), (0, 12321400148292), (0, 4380712777), (0,
    1102782), (0, 169)], [(124216043279941, 0), (6317520073, 0), (294599, 0), (143, 0)], [(0, 27662964898),
    (97177560, 0), (43606, 0), (11, 0)]], 3, 4⟩, 72057594037927936, 2849103707060, 338861030104, ⟨[[(12226015519302,
    0), (19432277467, 0), (8104978, 0), (0, 3338), (19, 0)], [(0, 7100816813), (0, 12085395), (0, 3972), (24, 0)],
    [(4587026, 0), (8672, 0), (0, 2)], [(0, 2222), (0, 13)]], 3, 4⟩, 17592186044416, 492986,
    11307279767571669184628082803563763945703440673398632377533924815704129314885990799668377839260952192473217113628788260278364616,
    lc0⟩))
theorem c155 : checkR job con2 true ⟨7, 9, 7, 9, 13, 17⟩ 1 28336 t155 159 7 320 16195 39 16000 = true := by decide +kernel

def t156 : CTree :=
  .sy (.leaf ⟨2156, 16, 8266, 399, 16, 2557, ⟨[[(17705503597199360, 0), (0, 17099842291254046), (0, 290003430068),
    (0, 186730334), (0, 30487)], [(58278749549921179, 0), (0, 65979975681259), (0, 3512826742), (0, 1398005), (0,
    232)], [(0, 468002013128737), (22797317591, 0), (8087297, 0), (1668, 0)], [(1297364475289, 0), (295958700, 0),
    (120944, 0), (31, 0)]], 3, 4⟩, ⟨[[(0, 28653493563953152), (0, 6451871025021176), (0, 479330700490), (0,
    160126021), (0, 29326)], [(0, 122082346391312091), (0, 12821191383353), (0, 4513925003), (0, 1125862), (0, 171)],
    [(122652750638873, 0), (1931247785, 0), (0, 1586990), (0, 321)], [(0, 28255417956), (101768116, 0), (45658, 0),
    (11, 0)]], 3, 4⟩, 72057594037927936, 2690967147829, 477087546190, ⟨[[(12786645444483, 0), (20589823837, 0),
    (8459981, 0), (0, 2747), (28, 0)], [(0, 7742802989), (0, 13320977), (0, 2613), (24, 0)], [(5143377, 0), (10464,
    0), (0, 10)], [(0, 2637), (0, 17)]], 3, 4⟩, 17592186044416, 628239,
    12081588932753024143565308168603386795206249921627789394864712021423794852901300785912392165349631023849969401530709692089338482,
    lc0⟩) (.sx (.leaf ⟨2732, 16, 10578, 643, 16, 4133, ⟨[[(16121683873595392, 0), (0, 21646546315121680), (0,
    411115366077), (0, 244782160), (0, 39664)], [(36101761399689399, 0), (0, 42685029373247), (0, 2497517611), (0,
    949097), (0, 157)], [(0, 153604748542918), (6649936346, 0), (2286737, 0), (457, 0)], [(213804683082, 0),
    (50208283, 0), (20340, 0), (5, 0)]], 3, 4⟩, ⟨[[(0, 27142165189918720), (0, 10477482801521333), (0, 810058594936),
    (0, 267270307), (0, 48530)], [(0, 100189874354082121), (0, 10953967841281), (0, 3855198884), (0, 951507), (0,
    143)], [(49710144777143, 0), (215675471, 0), (0, 877976), (0, 190)], [(0, 4615487698), (21975407, 0), (9767, 0),
    (2, 0)]], 3, 4⟩, 72057594037927936, 211862390056, 52603926335, ⟨[[(12927710184517, 0), (12903047318, 0),
    (3262005, 0), (0, 823), (5, 0)], [(0, 6210245631), (0, 6663248), (0, 665), (6, 0)], [(3234772, 0), (4418, 0), (0,
    3)], [(0, 1257), (0, 6)]], 3, 4⟩, 17592186044416, 136714,
    9821855248850714696754656454316410830086440066717563334380285734000856322311110941881104225559579219988055113055894251340992642,
    lc0⟩) (.sy (.leaf ⟨4536, 16, 17482, 776, 16, 5123, ⟨[[(24348336627843072, 0), (0, 18365859695791606), (0,
    177902430967), (0, 52621160), (0, 4275)], [(54129772374532517, 0), (0, 35016750695284), (0, 978058216), (0,
    190333), (0, 16)], [(0, 239469948546851), (7144816363, 0), (1284637, 0), (137, 0)], [(343545192439, 0),
    (41170578, 0), (8415, 0), (1, 0)]], 3, 4⟩, ⟨[[(11067887829196800, 0), (0, 6567896359739070), (0, 262742828971),
    (0, 42872657), (0, 3873)], [(0, 122204207563376896), (0, 6684182043445), (0, 1183284005), (0, 146305), (0, 11)],
    [(61378530381105, 0), (718539386, 0), (0, 143419), (0, 14)], [(0, 4902883138), (13448306, 0), (2977, 0)]], 3, 4⟩,
    72057594037927936, 356747388998, 53762980703, ⟨[[(12633256353090, 0), (10252581625, 0), (2147113, 0), (0, 547),
    (2, 0)], [(0, 3641459942), (0, 3184948), (0, 409), (2, 0)], [(1140594, 0), (1260, 0)], [(0, 256), (0, 1)]], 3,
    4⟩, 17592186044416, 74400,
    9844130446201046649769743482279802889212991380446594909297095710556475276207170605672365612921018197262097863246594385714719670,
    lc0⟩) (.sy (.sy (.out ⟨6582, 16, 34163, 101571, 16, 159857, ⟨[[(25952875025399808, 0), (0, 8981213871284019), (0,
    22675773550)], [(102438893265668078, 0), (0, 17154525659960), (0, 122883786)], [(0, 467281071902962),
    (3552238766, 0), (159372, 0)]], 2, 2⟩, ⟨[[(0, 34901128934064128), (0, 28072089041832182), (107671819245, 0)]], 2,
    2⟩, 72057594037927936, 232771212192470, 24501820799, ⟨[], 0, 0⟩, 0, 0, 0, lc0⟩ 3 1 763) (.out ⟨6629, 16, 34454,
    101601, 16, 159953, ⟨[[(0, 27237439045894144), (0, 9061313400505675), (0, 23255373401)], [(101961259112858624,
    0), (0, 17320089798691), (0, 125328774)], [(0, 470980951471107), (3607649194, 0), (161739, 0)]], 2, 2⟩,
    ⟨[[(8372903604125696, 0), (0, 28072148010717607), (107639842524, 0)]], 2, 2⟩, 72057594037927936, 235312442532424,
    24487920953, ⟨[], 0, 0⟩, 0, 0, 0, lc0⟩ 3 1 946)) (.out ⟨5031, 16, 26209, 50816, 16, 80036, ⟨[[(12033744771547136,
    0), (0, 13794182082554611), (0, 72538824899)], [(76018638813687771, 0), (0, 26395619447203), (0, 387781564)],
    [(0, 357950277478845), (5546495860, 0), (496784, 0)]], 2, 2⟩, ⟨[[(0, 32065776823828480), (0, 28067843295909934),
    (215150151360, 0)]], 2, 2⟩, 72057594037927936, 180457618300216, 97858538357, ⟨[], 0, 0⟩, 0, 0, 0, lc0⟩ 3 1
    1141))))
theorem c156 : checkR job con2 true ⟨7, 9, 7, 9, 13, 17⟩ 1 28336 t156 311 7 640 16273 39 16000 = true := by decide +kernel

def t157 : CTree :=
  .sy (.sx (.leaf ⟨2748, 16, 10495, 626, 16, 4204, ⟨[[(0, 29132779356717056), (0, 22586945465194624), (0,
    413725611071), (0, 255442656), (0, 41751)], [(31027047582968146, 0), (0, 41519792309023), (0, 2096661036), (0,
    858810), (0, 142)], [(0, 135814837933162), (10206278353, 0), (3788116, 0), (837, 0)], [(198374607184, 0),
    (47218511, 0), (19527, 0), (5, 0)]], 3, 4⟩, ⟨[[(29381397772550144, 0), (0, 10828403527824622), (0, 866200084209),
    (0, 282738738), (0, 51173)], [(0, 98248283050018633), (0, 10478701991004), (0, 3725712352), (0, 928078), (0,
    141)], [(50095456081514, 0), (2113547860, 0), (0, 63254), (10, 0)], [(0, 4365714326), (20937344, 0), (9300, 0),
    (2, 0)]], 3, 4⟩, 72057594037927936, 220039566491, 36966385016, ⟨[[(12351393340904, 0), (12266821551, 0),
    (3192143, 0), (0, 987), (3, 0)], [(0, 5842889273), (0, 6238142), (0, 1258), (6, 0)], [(3034537, 0), (3871, 0)],
    [(0, 1132), (0, 5)]], 3, 4⟩, 17592186044416, 126906,
    9457907348658314104336813740548964198830581790352556489662110068233746840381609353591155851178117571998094113660783089483860826,
    lc0⟩) (.sy (.leaf ⟨4666, 16, 17745, 762, 16, 5251, ⟨[[(0, 12571089038606336), (0, 19570348604074860), (0,
    180385964417), (0, 55774996), (0, 4568)], [(47583734300638958, 0), (0, 34771435174617), (0, 816110968), (0,
    173691), (0, 14)], [(0, 216130185904915), (10151856358, 0), (1923133, 0), (218, 0)], [(325164326589, 0),
    (39137999, 0), (8166, 0), (1, 0)]], 3, 4⟩, ⟨[[(32043469323771904, 0), (0, 6831767057423590), (0, 281400635893),
    (0, 45527914), (0, 4104)], [(0, 120716156498024631), (0, 6409570327706), (0, 1145426262), (0, 142940), (0, 11)],
    [(62290216924753, 0), (1859859923, 0), (99672, 0), (16, 0)], [(0, 5024402917), (12773559, 0), (2831, 0)]], 3, 4⟩,
    72057594037927936, 378876929947, 36817657174, ⟨[[(12090316968773, 0), (9681575954, 0), (2067620, 0), (0, 561),
    (1, 0)], [(0, 3356443451), (0, 2890954), (0, 586), (2, 0)], [(1027021, 0), (1035, 0)], [(0, 219), (0, 1)]], 3,
    4⟩, 17592186044416, 50168,
    8708303183207065575313239547210191287609658620897733586350256683608022631064258248836067936656494033067733319178427538455794731,
    lc0⟩) (.sy (.leaf ⟨7249, 16, 27665, 858, 16, 5950, ⟨[[(27492143169667072, 0), (0, 15272288298068414), (0,
    74158723966), (0, 11079417), (0, 453)], [(71008824941031451, 0), (0, 27180698755080), (0, 330081924), (0, 34509),
    (0, 1)], [(0, 336017386066014), (8090678370, 0), (764603, 0), (43, 0)], [(510554578617, 0), (31261740, 0), (3254,
    0)]], 3, 4⟩, ⟨[[(0, 25980829471440896), (0, 3889517411008631), (0, 82002443597), (0, 6585705), (0, 295)], [(0,
    137214937535995429), (0, 3708161869089), (0, 331645788), (0, 20611), (0, 1)], [(70705810377544, 0), (1060421163,
    0), (29042, 0), (2, 0)], [(0, 4835458515), (7426610, 0), (819, 0)]], 3, 4⟩, 72057594037927936, 590998440154,
    41279230733, ⟨[[(12098733385478, 0), (8568444163, 0), (1624571, 0), (0, 420), (1, 0)], [(0, 2165520225), (0,
    1652684), (0, 309), (1, 0)], [(424811, 0), (390, 0)], [(0, 56)]], 3, 4⟩, 17592186044416, 61674,
    11885457727569357557658662148589848516548710308154581329891512506515502413728400988602335187884394604479432063892481613542840397,
    lc0⟩) (.sy (.out ⟨7365, 16, 37673, 101388, 16, 159284, ⟨[[(0, 12985191235846144), (0, 10404556090214938), (0,
    25911670525)], [(94529907994330313, 0), (0, 18533287009063), (0, 114444609)], [(0, 456925836720268), (5569982066,
    0), (262902, 0)]], 2, 2⟩, ⟨[[(31470866174836736, 0), (0, 28072156553418096), (107865701009, 0)]], 2, 2⟩,
    72057594037927936, 240611772848746, 24589893016, ⟨[], 0, 0⟩, 0, 0, 0, lc0⟩ 3 1 960) (.out ⟨7421, 16, 38019,
    101419, 16, 159379, ⟨[[(6645849745588224, 0), (0, 10504229109414096), (0, 26600720595)], [(93938519999004379, 0),
    (0, 18721629022799), (0, 116900826)], [(0, 460682312500246), (5662665369, 0), (267082, 0)]], 2, 2⟩, ⟨[[(0,
    35270434775629824), (0, 28072069801281598), (107833048955, 0)]], 2, 2⟩, 72057594037927936, 243409486444810,
    24574967485, ⟨[], 0, 0⟩, 0, 0, 0, lc0⟩ 3 1 1085))))) (.sx (.sy (.sy (.sy (.out ⟨6921, 16, 35603, 101449, 16,
    159475, ⟨[[(0, 12290011819212800), (0, 9593956555123917), (0, 23737868156)], [(99061683819022830, 0), (0,
    17686490911758), (0, 117215017)], [(0, 459191088503707), (4470971763, 0), (206727, 0)]], 2, 2⟩,
    ⟨[[(14586732486852608, 0), (0, 28072154144421002), (107801073490, 0)]], 2, 2⟩, 72057594037927936,
    234478107544472, 24560177093, ⟨[], 0, 0⟩, 0, 0, 0, lc0⟩ 3 1 740) (.out ⟨6971, 16, 35916, 101479, 16, 159570,
    ⟨[[(14029692763242496, 0), (0, 9682068606027307), (0, 24358994134)], [(98540177469692489, 0), (0,
    17860534206727), (0, 119632720)], [(0, 462874945078003), (4542916353, 0), (209900, 0)]], 2, 2⟩,
    ⟨[[(17294077067264000, 0), (0, 28072057429226086), (107768422094, 0)]], 2, 2⟩, 72057594037927936,
    237105254004281, 24545388049, ⟨[], 0, 0⟩, 0, 0, 0, lc0⟩ 3 1 881)) (.out ⟨5204, 16, 26874, 50755, 16, 79845,
    ⟨[[(28923693999325184, 0), (0, 14497775433644731), (0, 74772441259)], [(72167455587589074, 0), (0,
    26770402798427), (0, 364336968)], [(0, 345944417651991), (6872298309, 0), (634368, 0)]], 2, 2⟩, ⟨[[(0,
    1437623684431872), (0, 28067948425348598), (215408541956, 0)]], 2, 2⟩, 72057594037927936, 178892117676535,
    98093680466, ⟨[], 0, 0⟩, 0, 0, 0, lc0⟩ 3 1 1091)) (.sy (.out ⟨5257, 16, 27226, 50786, 16, 79941, ⟨[[(0,
    24204383982583808), (0, 14699685344507211), (0, 78301026190)], [(70995012022264585, 0), (0, 27179294424998), (0,
    377685664)], [(0, 349928666196589), (7063223672, 0), (651072, 0)]], 2, 2⟩, ⟨[[(0, 28586155437981696), (0,
    28068081398497995), (215280692431, 0)]], 2, 2⟩, 72057594037927936, 182124995175540, 97977212155, ⟨[], 0, 0⟩, 0,
    0, 0, lc0⟩ 3 1 1400) (.out ⟨5311, 16, 27589, 50816, 16, 80036, ⟨[[(0, 27416321222901760), (0, 14908255394817726),
    (0, 81961081220)], [(69790980749125504, 0), (0, 27602061413119), (0, 391524554)], [(0, 354031902078742),
    (7260989209, 0), (668378, 0)]], 2, 2⟩, ⟨[[(0, 32065776823828480), (0, 28067843295909934), (215150151360, 0)]], 2,
    2⟩, 72057594037927936, 185469322375988, 97858538357, ⟨[], 0, 0⟩, 0, 0, 0, lc0⟩ 3 1 1688))) (.sy (.sy (.out ⟨5423,
    16, 27846, 50725, 16, 79750, ⟨[[(0, 8298635076632576), (0, 15396318238089049), (0, 79930010124)],
    [(67197255779952594, 0), (0, 27464747332651), (0, 348708221)], [(0, 336926501648540), (8386941457, 0), (790293,
    0)]], 2, 2⟩, ⟨[[(0, 3157911345823744), (0, 28068146945336448), (215539090217, 0)]], 2, 2⟩, 72057594037927936,
    179812014163490, 98211578025, ⟨[], 0, 0⟩, 0, 0, 0, lc0⟩ 3 1 1313) (.out ⟨5479, 16, 28220, 50755, 16, 79845,
    ⟨[[(0, 12761281889566720), (0, 15615955442130570), (0, 83733595103)], [(65926592910115694, 0), (0,
    27889417890574), (0, 361897852)], [(0, 340783903911587), (8625361049, 0), (811610, 0)]], 2, 2⟩, ⟨[[(0,
    1437623684431872), (0, 28067948425348598), (215408541956, 0)]], 2, 2⟩, 72057594037927936, 183132914711753,
    98093680466, ⟨[], 0, 0⟩, 0, 0, 0, lc0⟩ 3 1 1600)) (.out ⟨3532, 16, 18276, 25393, 16, 39982, ⟨[[(0,
    14727968877740032), (0, 20252598414483184), (0, 227689955499)], [(40579272755348503, 0), (0, 36235458765922), (0,
    971084815)], [(0, 220039641522482), (11420468985, 0), (2144784, 0)]], 2, 2⟩, ⟨[[(0, 35174714133446656), (0,
    28059367735910236), (430299003756, 0)]], 2, 2⟩, 72057594037927936, 123176126387319, 391666680939, ⟨[], 0, 0⟩, 0,
    0, 0, lc0⟩ 3 1 1992)))
theorem c157 : checkR job con2 true ⟨7, 9, 7, 9, 13, 17⟩ 1 28336 t157 325 7 640 16273 39 16000 = true := by decide +kernel

def t158 : CTree :=
  .sx (.sy (.leaf ⟨2280, 16, 8508, 386, 16, 2688, ⟨[[(0, 8357393502601216), (0, 19371333789952630), (0,
    287939479435), (0, 207940492), (0, 34469)], [(46260089564310501, 0), (0, 65078532752044), (0, 2288862282), (0,
    1143976), (0, 189)], [(0, 382280106410967), (43462559929, 0), (17003009, 0), (3933, 0), (1, 0)], [(1157702363050,
    0), (263135034, 0), (112410, 0), (29, 0)]], 3, 4⟩, ⟨[[(0, 11740583748489216), (0, 6971285181032466), (0,
    547808481629), (0, 180054542), (0, 32829)], [(0, 119236593661311616), (0, 11721334074817), (0, 4202174122), (0,
    1067880), (0, 165)], [(125524104705614, 0), (10301170246, 0), (2017243, 0), (572, 0)], [(0, 29534419338),
    (90935315, 0), (40946, 0), (10, 0)]], 3, 4⟩, 72057594037927936, 2970379870202, 229264256171, ⟨[[(11723580420354,
    0), (18360582647, 0), (7734567, 0), (0, 3328), (11, 0)], [(0, 6583568460), (0, 11059041), (0, 4696), (21, 0)],
    [(4181194, 0), (7197, 0), (4, 0)], [(0, 1963), (0, 10)]], 3, 4⟩, 17592186044416, 339404,
    10769156820190094571902091810007479991871303324045502969578637914603127647169442479552531179597571065833367841306924050859376127,
    lc0⟩) (.sy (.leaf ⟨3594, 16, 13504, 431, 16, 3048, ⟨[[(0, 23402323925237760), (0, 15401659139314704), (0,
    129020043015), (0, 42883312), (0, 3537)], [(67369105463709458, 0), (0, 51868682775524), (0, 989454967), (0,
    235922), (0, 19)], [(0, 602630383975535), (36103407120, 0), (7026536, 0), (814, 0)], [(1862571488269, 0),
    (219499256, 0), (46637, 0), (6, 0)]], 3, 4⟩, ⟨[[(4609458138820608, 0), (0, 3989871608492354), (0, 164445090576),
    (0, 26628478), (0, 2406)], [(0, 135999864450990153), (0, 6930619922547), (0, 1245341941), (0, 156932), (0, 12)],
    [(143026653868449, 0), (5977570574, 0), (600730, 0), (84, 0)], [(0, 27296571818), (54331836, 0), (12112, 0), (1,
    0)]], 3, 4⟩, 72057594037927936, 4732688461774, 248906892373, ⟨[[(11718471556080, 0), (16264568874, 0), (6125749,
    0), (0, 2694), (6, 0)], [(0, 4189350096), (0, 6241207), (0, 2573), (11, 0)], [(1678234, 0), (2680, 0), (2, 0)],
    [(0, 472), (0, 3)]], 3, 4⟩, 17592186044416, 183110,
    6600219080892223886861681565910275176293695686535331352136461670608474228882658744593097835429662665470634475237063903644593259,
    lc0⟩) (.sx (.leaf ⟨4718, 16, 17829, 756, 16, 5318, ⟨[[(30162519317413888, 0), (0, 20121042791932725), (0,
    178817601427), (0, 56959323), (0, 4682)], [(44615435013537106, 0), (0, 34511687040998), (0, 722287715), (0,
    163519), (0, 13)], [(0, 204528815133130), (11494233918, 0), (2216196, 0), (255, 0)], [(314780735396, 0),
    (37702452, 0), (7952, 0), (1, 0)]], 3, 4⟩, ⟨[[(11079105218215936, 0), (0, 6963293675227576), (0, 290097585069),
    (0, 46801139), (0, 4217)], [(0, 119998229124436827), (0, 6253376481938), (0, 1122216895), (0, 140700), (0, 11)],
    [(62699889789829, 0), (2390291783, 0), (213302, 0), (30, 0)], [(0, 5322651537), (12358466, 0), (2743, 0)]], 3,
    4⟩, 72057594037927936, 387697992676, 29612735296, ⟨[[(11842810587335, 0), (9412267025, 0), (2023302, 0), (0,
    540), (1, 0)], [(0, 3236741488), (0, 2763753), (0, 638), (2, 0)], [(983127, 0), (938, 0)], [(0, 206), (0, 1)]],
    3, 4⟩, 17592186044416, 99202,
    7663528626848685459115266863186049690546041214998763489228344834146447901845292482339904797667568003784756233473925335021868558,
    lc0⟩) (.sy (.leaf ⟨7615, 16, 28692, 848, 16, 6135, ⟨[[(24478069071675392, 0), (0, 16571297505401708), (0,
    74438267355), (0, 11831758), (0, 487)], [(63949849704431104, 0), (0, 27472474219364), (0, 260094522), (0, 31138),
    (0, 1)], [(0, 308584223865042), (10434159971, 0), (1018590, 0), (59, 0)], [(490792781901, 0), (29631638, 0),
    (3152, 0)]], 3, 4⟩, ⟨[[(0, 12923095966105600), (0, 4059891938461316), (0, 87363348152), (0, 6982975), (0, 313)],
    [(0, 136273103179996032), (0, 3539279654017), (0, 319121491), (0, 20019), (0, 1)], [(72023972965015, 0),
    (1668554016, 0), (93688, 0), (6, 0)], [(0, 5748315992), (6955006, 0), (770, 0)]], 3, 4⟩, 72057594037927936,
    634816190822, 25483150813, ⟨[[(11602695025448, 0), (8051973736, 0), (1539282, 0), (0, 368)], [(0, 1958944736),
    (0, 1459480), (0, 342), (1, 0)], [(368995, 0), (299, 0)], [(0, 46)]], 3, 4⟩, 17592186044416, 64342,
    9157610711123594468772055263784808944767697615116332750943737294158335703125299262749150721921506991197127119900619228055368316,
    lc0⟩) (.sy (.out ⟨8024, 16, 40351, 101145, 16, 158521, ⟨[[(0, 21026856329150464), (0, 11658733637139589), (0,
    26905153905)], [(87674422165860498, 0), (0, 19339583718688), (0, 93376612)], [(0, 433114132653349), (7421272298,
    0), (361804, 0)]], 2, 2⟩, ⟨[[(20307552818429952, 0), (0, 28072140634521984), (108124889301, 0)]], 2, 2⟩,
    72057594037927936, 238964221651892, 24708230082, ⟨[], 0, 0⟩, 0, 0, 0, lc0⟩ 3 1 714) (.out ⟨8088, 16, 40739,
    101176, 16, 158616, ⟨[[(8451479189520384, 0), (0, 11775115967696866), (0, 27661594760)], [(86993897552632338, 0),
    (0, 19540354746604), (0, 95584397)], [(0, 436692142055088), (7549811352, 0), (367782, 0)]], 2, 2⟩, ⟨[[(0,
    35964616219557888), (0, 28072093990355125), (108092235384, 0)]], 2, 2⟩, 72057594037927936, 241838921701862,
    24693300924, ⟨[], 0, 0⟩, 0, 0, 0, lc0⟩ 3 1 834)))))) (.sy (.leaf ⟨2368, 16, 8806, 369, 16, 2732,
    ⟨[[(739053770899456, 0), (0, 20983285277375810), (0, 327424225862), (0, 230921721), (0, 38265)],
    [(37492192101453915, 0), (0, 65940238078009), (0, 1808328226), (0, 1052779), (0, 173)], [(0, 346848835284008),
    (56199609637, 0), (22430419, 0), (5300, 0), (1, 0)], [(1126168862291, 0), (260688616, 0), (113311, 0), (29, 0)]],
    3, 4⟩, ⟨[[(0, 3372389204783104), (0, 7249879826310961), (0, 616054194361), (0, 198055619), (0, 35699)], [(0,
    117632970211471982), (0, 11566352328439), (0, 4189436322), (0, 1063241), (0, 165)], [(126405368339835, 0),
    (14279024601, 0), (3759171, 0), (996, 0)], [(0, 26280799677), (88699620, 0), (39665, 0), (10, 0)]], 3, 4⟩,
    72057594037927936, 3184385800219, 126030963603, ⟨[[(11256888137020, 0), (17626855230, 0), (7687901, 0), (0,
    3625), (3, 0)], [(0, 6057502416), (0, 10173776), (0, 5688), (20, 0)], [(3713622, 0), (6099, 0), (9, 0)], [(0,
    1570), (0, 8)]], 3, 4⟩, 17592186044416, 283831,
    8590999380757119517945353050444052961481902852810656341861387321405322310647830749654783159328289692640988379296703574804090402,
    lc0⟩) (.sy (.sx (.leaf ⟨4852, 16, 18186, 733, 16, 5430, ⟨[[(0, 24182384321953792), (0, 21469347958287166), (0,
    186628493996), (0, 60957547), (0, 5027)], [(37250588843738674, 0), (0, 34367115816043), (0, 556559942), (0,
    146046), (0, 12)], [(0, 183578925628952), (14451209354, 0), (2856473, 0), (336, 0)], [(299518179986, 0),
    (35861788, 0), (7713, 0), (1, 0)]], 3, 4⟩, ⟨[[(1666894770053120, 0), (0, 7236297341582270), (0, 316110514042),
    (0, 50354648), (0, 4511)], [(0, 118473882193594094), (0, 6045755212794), (0, 1094518430), (0, 137797), (0, 11)],
    [(63341873193346, 0), (3414114065, 0), (434702, 0), (57, 0)], [(0, 5363876451), (11749588, 0), (2606, 0)]], 3,
    4⟩, 72057594037927936, 409233831498, 16384141268, ⟨[[(11367018937703, 0), (8963150602, 0), (1974302, 0), (0,
    513)], [(0, 2999693086), (0, 2535386), (0, 742), (1, 0)], [(890726, 0), (778, 0), (1, 0)], [(0, 175), (0, 1)]],
    3, 4⟩, 17592186044416, 116556,
    10302981105470802119592142570284413773943482405438196445336830760298857087902760287642866100572761213798226310897667814782586592,
    lc0⟩) (.sy (.leaf ⟨8089, 16, 30240, 826, 16, 6300, ⟨[[(0, 33861311732973568), (0, 18241166135937467), (0,
    79054331940), (0, 12997013), (0, 536)], [(54783704700501275, 0), (0, 28204146944481), (0, 192943030), (0, 28102),
    (0, 1)], [(0, 285188229257784), (13147968500, 0), (1311782, 0), (78, 0)], [(481010220985, 0), (28758984, 0),
    (3123, 0)]], 3, 4⟩, ⟨[[(18639390111899648, 0), (0, 4239084291787821), (0, 95223451222), (0, 7528282), (0, 336)],
    [(0, 135267749316983314), (0, 3423411603694), (0, 311199108), (0, 19606), (0, 1)], [(73148551808561, 0),
    (2251094057, 0), (156207, 0), (10, 0)], [(0, 6158584891), (6587015, 0), (730, 0)]], 3, 4⟩, 72057594037927936,
    689844106468, 11484921181, ⟨[[(11141985783408, 0), (7625945453, 0), (1483275, 0), (0, 322)], [(0, 1758822540),
    (0, 1287302), (0, 364), (1, 0)], [(314073, 0), (228, 0)], [(0, 36)]], 3, 4⟩, 17592186044416, 62494,
    11053493364142412422608151589417336384098953459581755778344739884047333529524239846961982821343930193220082338124062955548621521,
    lc0⟩) (.sy (.out ⟨8921, 16, 44407, 101024, 16, 158140, ⟨[[(0, 11996475916025856), (0, 13400333092530073), (0,
    29863982365)], [(78025178618416411, 0), (0, 20725477260702), (0, 72652767)], [(0, 417658655158173), (9767079005,
    0), (486620, 0)]], 2, 2⟩, ⟨[[(0, 29908246127968256), (0, 28072099461433019), (108254823136, 0)]], 2, 2⟩,
    72057594037927936, 244653215233708, 24767475612, ⟨[], 0, 0⟩, 0, 0, 0, lc0⟩ 3 1 910) (.out ⟨8998, 16, 44865,
    101054, 16, 158235, ⟨[[(13159742286331904, 0), (0, 13543291310266806), (0, 30743313042)], [(77196196783131557,
    0), (0, 20950780356567), (0, 74637213)], [(0, 421193569231708), (9944775916, 0), (495061, 0)]], 2, 2⟩, ⟨[[(0,
    8866778992082944), (0, 28072073036395655), (108222168819, 0)]], 2, 2⟩, 72057594037927936, 247762836975511,
    24753427208, ⟨[], 0, 0⟩, 0, 0, 0, lc0⟩ 3 1 1040)))) (.sy (.sy (.out ⟨5580, 16, 27890, 101084, 16, 158330, ⟨[[(0,
    14654706628558848), (0, 8330578512932953), (0, 19123680222)], [(101394583731161545, 0), (0, 26232807551183), (0,
    102799750)], [(0, 1083276525332575), (23765103542, 0), (1177173, 0)]], 2, 2⟩, ⟨[[(10862356478296064, 0), (0,
    28072041569525632), (108189514703, 0)]], 2, 2⟩, 72057594037927936, 1259852495863436, 24737584250, ⟨[], 0, 0⟩, 0,
    0, 0, lc0⟩ 3 1 1016) (.out ⟨5644, 16, 28259, 101115, 16, 158426, ⟨[[(34721795989897216, 0), (0,
    8443847364720343), (0, 19735584751)], [(100662221882653659, 0), (0, 26596258346787), (0, 105795233)], [(0,
    1095723391351884), (24266242020, 0), (1201019, 0)]], 2, 2⟩, ⟨[[(3213349645975552, 0), (0, 28072182264214965),
    (108157543524, 0)]], 2, 2⟩, 72057594037927936, 1279575127791762, 24723557796, ⟨[], 0, 0⟩, 0, 0, 0, lc0⟩ 3 1
    1124)) (.out ⟨4372, 16, 21943, 50572, 16, 79272, ⟨[[(19352940101697536, 0), (0, 13120497487547441), (0,
    62983919201)], [(75746406833622482, 0), (0, 41342670143476), (0, 336278454)], [(0, 848607413278155),
    (38123999401, 0), (3769215, 0)]], 2, 2⟩, ⟨[[(27511643017052160, 0), (0, 28067780589904791), (216183717467, 0)]],
    2, 2⟩, 72057594037927936, 999206278290021, 98801356047, ⟨[], 0, 0⟩, 0, 0, 0, lc0⟩ 3 1 1337))))
theorem c158 : checkR job con2 true ⟨7, 9, 7, 9, 13, 17⟩ 1 28336 t158 173 7 320 16195 39 16000 = true := by decide +kernel

def t159 : CTree :=
  .sy (.sx (.sy (.sx (.sy (.leaf ⟨7440, 16, 28211, 853, 16, 6041, ⟨[[(9975256539398144, 0), (0, 15935878702701831),
    (0, 74728784334), (0, 11484425), (0, 471)], [(67396894802777170, 0), (0, 27372284363356), (0, 297183096), (0,
    32972), (0, 1)], [(0, 322551885072623), (9300947098, 0), (894565, 0), (51, 0)], [(501613929941, 0), (30572777,
    0), (3216, 0)]], 3, 4⟩, ⟨[[(0, 34740209444667392), (0, 3974541214011837), (0, 84741623393), (0, 6786761), (0,
    304)], [(0, 136732344385477029), (0, 3627172405131), (0, 325772268), (0, 20340), (0, 1)], [(71383829677506, 0),
    (1371981798, 0), (62093, 0), (4, 0)], [(0, 5214283400), (7203562, 0), (796, 0)]], 3, 4⟩, 72057594037927936,
    614345330157, 32975952525, ⟨[[(11846821186060, 0), (8306700280, 0), (1582757, 0), (0, 397)], [(0, 2056602288),
    (0, 1550899), (0, 331), (1, 0)], [(394636, 0), (341, 0)], [(0, 51)]], 3, 4⟩, 17592186044416, 68784,
    10647424680924924589203536023369344974993997082795683492316063870933998794122843495225986609646569418888508379365373449489586665,
    lc0⟩) (.sy (.out ⟨7700, 16, 39050, 101267, 16, 158902, ⟨[[(0, 28146813611671552), (0, 11035449062377241), (0,
    26560947203)], [(91073653459076791, 0), (0, 18968819807335), (0, 104853267)], [(0, 445722726728813), (6510046321,
    0), (312710, 0)]], 2, 2⟩, ⟨[[(0, 22585224383692800), (0, 28072100724456369), (107994955449, 0)]], 2, 2⟩,
    72057594037927936, 240344535970270, 24649370046, ⟨[], 0, 0⟩, 0, 0, 0, lc0⟩ 3 1 844) (.out ⟨7760, 16, 39418,
    101297, 16, 158997, ⟨[[(7834092077187072, 0), (0, 11143664697061990), (0, 27286656126)], [(90437756953934592, 0),
    (0, 19164196080414), (0, 107206393)], [(0, 449408641872276), (6620804587, 0), (317791, 0)]], 2, 2⟩, ⟨[[(0,
    12036912961290240), (0, 28072034006803499), (107962302491, 0)]], 2, 2⟩, 72057594037927936, 243194625347939,
    24634006831, ⟨[], 0, 0⟩, 0, 0, 0, lc0⟩ 3 1 977))) (.sy (.out ⟨5722, 16, 28888, 50603, 16, 79368, ⟨[[(0,
    20334445212073984), (0, 16708759485243697), (0, 80593946863)], [(60065227093295589, 0), (0, 27744155837067), (0,
    276733341)], [(0, 309028181513246), (10829811219, 0), (1053901, 0)]], 2, 2⟩, ⟨[[(16212408981782528, 0), (0,
    28068036144054387), (216055885522, 0)]], 2, 2⟩, 72057594037927936, 173015365336863, 98683614286, ⟨[], 0, 0⟩, 0,
    0, 0, lc0⟩ 3 1 1071) (.out ⟨5781, 16, 29281, 50633, 16, 79463, ⟨[[(15697254240878592, 0), (0, 16949040644457682),
    (0, 84607790396)], [(58687163887922130, 0), (0, 28165950000285), (0, 288176268)], [(0, 312369536756340),
    (11144929644, 0), (1082908, 0)]], 2, 2⟩, ⟨[[(28388850546507776, 0), (0, 28067917652824097), (215925329473, 0)]],
    2, 2⟩, 72057594037927936, 176231395543544, 98564693905, ⟨[], 0, 0⟩, 0, 0, 0, lc0⟩ 3 1 1334))) (.sy (.out ⟨3976,
    16, 20220, 50664, 16, 79559, ⟨[[(0, 28152092600303616), (0, 11576690992822050), (0, 58999516536)],
    [(84143256744111726, 0), (0, 39175130836160), (0, 429273414)], [(0, 890247079413619), (29372448738, 0), (2833886,
    0)]], 2, 2⟩, ⟨[[(11787531440357376, 0), (0, 28068132054010788), (215797489402, 0)]], 2, 2⟩, 72057594037927936,
    992619173191205, 98447431450, ⟨[], 0, 0⟩, 0, 0, 0, lc0⟩ 3 1 1428) (.out ⟨4041, 16, 20618, 50694, 16, 79654,
    ⟨[[(5761310204133376, 0), (0, 11814106633620268), (0, 62228885288)], [(82680996649780114, 0), (0,
    40015404349498), (0, 449103103)], [(0, 905416434147057), (30404460367, 0), (2929136, 0)]], 2, 2⟩,
    ⟨[[(18726476697305088, 0), (0, 28067973403783588), (215666936139, 0)]], 2, 2⟩, 72057594037927936,
    1017176683530410, 98329056269, ⟨[], 0, 0⟩, 0, 0, 0, lc0⟩ 3 1 1680))) (.sy (.sy (.out ⟨4449, 16, 22400, 50603, 16,
    79368, ⟨[[(0, 12635292102426624), (0, 13403964685436670), (0, 66615683827)], [(74029954989359424, 0), (0,
    42258075763192), (0, 353852654)], [(0, 863221973134343), (39522406433, 0), (3901259, 0)]], 2, 2⟩,
    ⟨[[(16212408981782528, 0), (0, 28068036144054387), (216055885522, 0)]], 2, 2⟩, 72057594037927936,
    1025010169058572, 98683614286, ⟨[], 0, 0⟩, 0, 0, 0, lc0⟩ 3 1 1612) (.out ⟨4529, 16, 22876, 50633, 16, 79463,
    ⟨[[(0, 33241373202448384), (0, 13699598599928998), (0, 70431087703)], [(72234698172764224, 0), (0,
    43213284913025), (0, 372305509)], [(0, 878392832303388), (40988100678, 0), (4039596, 0)]], 2, 2⟩,
    ⟨[[(28388850546507776, 0), (0, 28067917652824097), (215925329473, 0)]], 2, 2⟩, 72057594037927936,
    1051977222297942, 98564693905, ⟨[], 0, 0⟩, 0, 0, 0, lc0⟩ 3 1 1882)) (.out ⟨3070, 16, 15585, 25332, 16, 39791,
    ⟨[[(3369383218085888, 0), (0, 18689608927003149), (0, 201901267066)], [(45764124610010423, 0), (0,
    59002193581358), (0, 1059988505)], [(0, 595127860631223), (57150308296, 0), (11238925, 0)]], 2, 2⟩, ⟨[[(0,
    13726417272963072), (0, 28059416871651079), (431331635307, 0)]], 2, 2⟩, 72057594037927936, 727457400235716,
    393548656501, ⟨[], 0, 0⟩, 0, 0, 0, lc0⟩ 3 1 2206))) (.sy (.sy (.out ⟨2758, 16, 14093, 50725, 16, 79750,
    ⟨[[(23257204381450240, 0), (0, 8272754201030395), (0, 46066807090)], [(92062924932127214, 0), (0,
    54171770141411), (0, 568897594)], [(0, 2302175225833168), (95183540407, 0), (9254328, 0)]], 2, 2⟩, ⟨[[(0,
    3157911345823744), (0, 28068146945336448), (215539090217, 0)]], 2, 2⟩, 72057594037927936, 5467976746624137,
    98211578025, ⟨[], 0, 0⟩, 0, 0, 0, lc0⟩ 3 1 2264) (.out ⟨2826, 16, 14486, 50755, 16, 79845, ⟨[[(2385633876082688,
    0), (0, 8510956938231632), (0, 48897814903)], [(90283391231857792, 0), (0, 55774847082876), (0, 600308930)], [(0,
    2358684618518801), (99331995222, 0), (9643659, 0)]], 2, 2⟩, ⟨[[(0, 1437623684431872), (0, 28067948425348598),
    (215408541956, 0)]], 2, 2⟩, 72057594037927936, 5649281034689337, 98093680466, ⟨[], 0, 0⟩, 0, 0, 0, lc0⟩ 3 1
    2531)) (.out ⟨2204, 16, 11352, 25393, 16, 39982, ⟨[[(0, 14920081625219072), (0, 13357641022227249), (0,
    160662954339)], [(65630490800540535, 0), (0, 87640767101090), (0, 1956009072)], [(0, 1839179048769775),
    (159257078611, 0), (30856935, 0)]], 2, 2⟩, ⟨[[(0, 35174714133446656), (0, 28059367735910236), (430299003756,
    0)]], 2, 2⟩, 72057594037927936, 4478432730255482, 391666680939, ⟨[], 0, 0⟩, 0, 0, 0, lc0⟩ 3 1 2884))
theorem c159 : checkR job con2 true ⟨7, 9, 7, 9, 13, 17⟩ 1 28336 t159 173 7 320 16273 39 16000 = true := by decide +kernel

def t160 : CTree :=
  .sy (.sx (.sy (.sx (.leaf ⟨2675, 16, 9551, 640, 16, 4564, ⟨[[(5759912120090624, 0), (0, 23341131385574896), (0,
    151715337581), (0, 212345966), (0, 36055)], [(27469565325004722, 0), (0, 34771477545590), (0, 277012124), (0,
    412264), (0, 68)], [(0, 89462414993302), (13480451469, 0), (5624984, 0), (1342, 0)], [(135984804472, 0),
    (25409340, 0), (11655, 0), (3, 0)]], 3, 4⟩, ⟨[[(543634900066304, 0), (0, 11718699083281570), (0, 809325496393),
    (0, 277974799), (0, 52061)], [(0, 93426393056553472), (0, 7488631364377), (0, 2684598383), (0, 713333), (0,
    114)], [(50425766143669, 0), (5956266214, 0), (1621140, 0), (444, 0)], [(0, 10046186830), (13322187, 0), (6291,
    0), (2, 0)]], 3, 4⟩, 72057594037927936, 205204949678, 12228585328, ⟨[[(10932215457486, 0), (10104629549, 0),
    (2548964, 0), (0, 444), (1, 0)], [(0, 5073966212), (0, 5123060), (0, 1276), (2, 0)], [(2812194, 0), (2277, 0),
    (1, 0)], [(0, 1272), (0, 2)]], 3, 4⟩, 17592186044416, 132615,
    10414141770146564024752423409288987181852399536506791769157116418103367986292706254823088057884553125935036901832862180009176160,
    lc0⟩) (.leaf ⟨2677, 16, 9538, 625, 16, 4588, ⟨[[(0, 33814278176931840), (0, 23792792077237110), (0,
    154249027853), (0, 217549763), (0, 36902)], [(25009563224235909, 0), (0, 34332502879083), (0, 112573814), (0,
    372402), (0, 60)], [(0, 83736209910360), (14504824573, 0), (6098811, 0), (1466, 0)], [(131074246578, 0),
    (24255103, 0), (11278, 0), (3, 0)]], 3, 4⟩, ⟨[[(18978343282163712, 0), (0, 11884504527861571), (0, 851026770664),
    (0, 289384027), (0, 53921)], [(0, 92504228165072146), (0, 7352570554143), (0, 2649409540), (0, 703686), (0,
    112)], [(50271325690978, 0), (6540651577, 0), (1890609, 0), (510, 0)], [(0, 9896696992), (12935499, 0), (6099,
    0), (1, 0)]], 3, 4⟩, 72057594037927936, 206194745666, 8652497552, ⟨[[(10720416770402, 0), (9930220437, 0),
    (2539990, 0), (0, 465)], [(0, 4956364720), (0, 5030395), (0, 1332), (2, 0)], [(2757698, 0), (2182, 0), (2, 0)],
    [(0, 1235), (0, 2)]], 3, 4⟩, 17592186044416, 133470,
    10369534712749407219392025062075097495007377028668005198144064528205965938503576486674387518789053737084258222215200542210979281,
    lc0⟩)) (.sy (.leaf ⟨3595, 16, 12914, 448, 16, 3292, ⟨[[(0, 26703762197348352), (0, 15957630036339312), (0,
    64865745107), (0, 37835617), (0, 3196)], [(65478183683145737, 0), (0, 46791280110643), (0, 180417114), (0,
    138024), (0, 11)], [(0, 463999042121703), (39777980703, 0), (8274853, 0), (991, 0)], [(1461537791370, 0),
    (141922618, 0), (32498, 0), (4, 0)]], 3, 4⟩, ⟨[[(13844773254639616, 0), (0, 4281133099415662), (0, 158467374891),
    (0, 26645818), (0, 2467)], [(0, 134398201806018249), (0, 5569841421105), (0, 1005265298), (0, 132303), (0, 10)],
    [(145952364949947, 0), (9295620456, 0), (1325196, 0), (178, 0)], [(0, 52780970670), (39932307, 0), (9309, 0), (1,
    0)]], 3, 4⟩, 72057594037927936, 4484529561553, 99696727634, ⟨[[(10823514063129, 0), (13989435674, 0), (4993414,
    0), (0, 1363), (1, 0)], [(0, 3748432140), (0, 5277092), (0, 2026), (4, 0)], [(1547933, 0), (1759, 0), (2, 0)],
    [(0, 504), (0, 1)]], 3, 4⟩, 17592186044416, 111751,
    10466302244074179678067537669513338904992486627109369265965946320249970762868684082055972031505183787519833224646086681164505343,
    lc0⟩) (.leaf ⟨3660, 16, 13212, 442, 16, 3280, ⟨[[(0, 7202965228716032), (0, 16336929341212498), (0, 75540686716),
    (0, 39740738), (0, 3346)], [(63254010455069303, 0), (0, 47902417012242), (0, 218046946), (0, 144844), (0, 12)],
    [(0, 471479889683850), (42035240825, 0), (8706535, 0), (1043, 0)], [(1506793598408, 0), (150463683, 0), (34270,
    0), (4, 0)]], 3, 4⟩, ⟨[[(0, 5218207423602688), (0, 4290647568941613), (0, 164192556800), (0, 27324616), (0,
    2516)], [(0, 134347314081978295), (0, 5708213918313), (0, 1032831331), (0, 135118), (0, 11)], [(146150872631786,
    0), (9470981250, 0), (1362439, 0), (182, 0)], [(0, 49428234980), (41254577, 0), (9544, 0), (1, 0)]], 3, 4⟩,
    72057594037927936, 4633424359969, 90293825307, ⟨[[(10828160701053, 0), (14089797482, 0), (5085604, 0), (0, 1473),
    (1, 0)], [(0, 3694618058), (0, 5220387), (0, 2119), (4, 0)], [(1496720, 0), (1733, 0), (2, 0)], [(0, 468), (0,
    1)]], 3, 4⟩, 17592186044416, 97404,
    10200925177194761071105819398461483480355073039116694585292287377068789206113706268969661437010541660421970864145043032143383830,
    lc0⟩))) (.sy (.sx (.leaf ⟨2676, 16, 9518, 611, 16, 4612, ⟨[[(0, 32791792900767744), (0, 24219646149841017), (0,
    154274848324), (0, 222001583), (0, 37616)], [(22693406175178976, 0), (0, 33841235768106), (64609116, 0), (0,
    328957), (0, 53)], [(0, 78166478497836), (15465094842, 0), (6550093, 0), (1584, 0)], [(126061172633, 0),
    (22948656, 0), (10834, 0), (3, 0)]], 3, 4⟩, ⟨[[(0, 28487254089687040), (0, 12048823251187070), (0, 892375128838),
    (0, 300696314), (0, 55765)], [(0, 91578983229099026), (0, 7199387415827), (0, 2606496857), (0, 692130), (0,
    110)], [(50119256197335, 0), (7110480085, 0), (2152926, 0), (575, 0)], [(0, 9828744889), (12494413, 0), (5887,
    0), (1, 0)]], 3, 4⟩, 72057594037927936, 206913411582, 5323989343, ⟨[[(10528114541213, 0), (9768438385, 0),
    (2531478, 0), (0, 469)], [(0, 4855447961), (0, 4948345), (0, 1382), (1, 0)], [(2715452, 0), (2091, 0), (2, 0)],
    [(0, 1208), (0, 2)]], 3, 4⟩, 17592186044416, 99773,
    10428458700161256948828688957551866645155522886754894159122603184893583499009115188362524164408028705177240184709832850985467712,
    lc0⟩) (.leaf ⟨2672, 16, 9491, 596, 16, 4636, ⟨[[(10406828186566656, 0), (0, 24620290435864727), (0,
    151625746918), (0, 225646981), (0, 38186)], [(20519563007073369, 0), (0, 33300252441316), (253569418, 0), (0,
    282173), (0, 44)], [(0, 72764763034152), (16353719153, 0), (6975396, 0), (1695, 0)], [(120959070550, 0),
    (21499453, 0), (10325, 0), (3, 0)]], 3, 4⟩, ⟨[[(2407635180437504, 0), (0, 12211404039198914), (0, 933259501768),
    (0, 311884119), (0, 57589)], [(0, 90650698826742821), (0, 7029444222253), (0, 2556035801), (0, 678709), (0,
    108)], [(49966275510947, 0), (7663443451, 0), (2407245, 0), (638, 0)], [(0, 9836814560), (12003086, 0), (5657,
    0), (1, 0)]], 3, 4⟩, 72057594037927936, 207305122355, 2238020279, ⟨[[(10335148392080, 0), (9608798247, 0),
    (2525503, 0), (0, 460)], [(0, 4760675222), (0, 4871037), (0, 1434), (1, 0)], [(2680828, 0), (1994, 0), (2, 0)],
    [(0, 1185), (0, 2)]], 3, 4⟩, 17592186044416, 115792,
    10170930396915299037650685249811294362955381762188773260340795805756382113412451641709992325086927521030736727972703459671284518,
    lc0⟩)) (.leaf ⟨2360, 16, 8473, 371, 16, 2904, ⟨[[(9245821976379392, 0), (0, 21795746833533328), (0,
    184606608494), (0, 210403970), (0, 35417)], [(33820490551507205, 0), (0, 59826319685494), (150269300, 0), (0,
    573073), (0, 91)], [(0, 264423169526979), (60631834201, 0), (25533110, 0), (6187, 0), (1, 0)], [(893678927338,
    0), (170748796, 0), (80233, 0), (21, 0)]], 3, 4⟩, ⟨[[(0, 28969161844441088), (0, 7711210016413163), (0,
    619649496068), (0, 203736995), (0, 37281)], [(0, 115163119514667977), (0, 9460649923555), (0, 3449989871), (0,
    904961), (0, 143)], [(127197221446278, 0), (19484745502, 0), (6096175, 0), (1603, 0)], [(0, 44373598336),
    (66228541, 0), (30721, 0), (8, 0)]], 3, 4⟩, 72057594037927936, 3021098303044, 18568482385, ⟨[[(10436494468565,
    0), (15532966145, 0), (6559721, 0), (0, 2042), (0, 1)], [(0, 5485971808), (0, 8899798), (0, 4554), (8, 0)],
    [(3481320, 0), (4259, 0), (9, 0)], [(0, 1671), (0, 4)]], 3, 4⟩, 17592186044416, 183266,
    10197589480104823691642590542001988949515323443723928381639936625815881731848460817439221589160788611768783689767767351585665686,
    lc0⟩))) (.sy (.sx (.leaf ⟨2346, 16, 8531, 375, 16, 2829, ⟨[[(4523524576608256, 0), (0, 21122502265776784), (0,
    231852438092), (0, 213516793), (0, 35791)], [(37222207511920507, 0), (0, 61934936745045), (0, 697015129), (0,
    777239), (0, 126)], [(0, 301181294804333), (56971509960, 0), (23453279, 0), (5621, 0), (1, 0)], [(984612574051,
    0), (204903322, 0), (92613, 0), (24, 0)]], 3, 4⟩, ⟨[[(9101108256104448, 0), (0, 7469607116402658), (0,
    600274186357), (0, 196805114), (0, 35931)], [(0, 116462971314103808), (0, 10273262135591), (0, 3729946924), (0,
    967348), (0, 152)], [(127027207827286, 0), (16900446598, 0), (4924968, 0), (1303, 0)], [(0, 38354432968),
    (75100539, 0), (34370, 0), (8, 0)]], 3, 4⟩, 72057594037927936, 3056837574609, 70656416823, ⟨[[(10825589504046,
    0), (16412923213, 0), (6961499, 0), (0, 2528), (1, 0)], [(0, 5788155044), (0, 9485702), (0, 4883), (12, 0)],
    [(3648645, 0), (5014, 0), (8, 0)], [(0, 1710), (0, 6)]], 3, 4⟩, 17592186044416, 195484,
    10338478216991816743843120941113138545959617969675282428627083561538442590870748493418104308727225328337534944053250486561468944,
    lc0⟩) (.leaf ⟨2405, 16, 8720, 359, 16, 2879, ⟨[[(0, 26592077558611968), (0, 22464784245704553), (0,
    242009323430), (0, 228177728), (0, 38178)], [(30004576798060315, 0), (0, 61557160417027), (13182339, 0), (0,
    619582), (0, 98)], [(0, 267101396195509), (66617036464, 0), (27809897, 0), (6734, 0), (1, 0)], [(933950264730,
    0), (189005611, 0), (87722, 0), (23, 0)]], 3, 4⟩, ⟨[[(5697606889803776, 0), (0, 7744416345139321), (0,
    662949135273), (0, 213782780), (0, 38689)], [(0, 114924519555733961), (0, 9929417653768), (0, 3635484374), (0,
    942421), (0, 148)], [(127646463860007, 0), (20289314286, 0), (6425003, 0), (1671, 0)], [(0, 38681359904),
    (70548003, 0), (32247, 0), (8, 0)]], 3, 4⟩, 72057594037927936, 3186689118000, 40150604632, ⟨[[(10425936246364,
    0), (15757727848, 0), (6846261, 0), (0, 2227), (0, 3)], [(0, 5411433718), (0, 8834011), (0, 5180), (9, 0)],
    [(3358684, 0), (4191, 0), (11, 0)], [(0, 1491), (0, 4)]], 3, 4⟩, 17592186044416, 245611,
    7894456117635093029024898603478657987694894889794537670824372059619952760283957246116926457356180752861910637440574225643435172,
    lc0⟩)) (.leaf ⟨1952, 16, 7160, 204, 16, 1622, ⟨[[(21575078607601664, 0), (0, 18123665618977927), (0,
    241781748293), (0, 193345834), (0, 32184)], [(47637859724230181, 0), (0, 102689014156498), (0, 876207884), (0,
    1226618), (0, 196)], [(0, 926394889393427), (219048845964, 0), (90096174, 0), (21697, 0), (4, 0)],
    [(6480135036859, 0), (1408981566, 0), (637862, 0), (163, 0)]], 3, 4⟩, ⟨[[(0, 5088540755861504), (0,
    4381594876588527), (0, 387080008865), (0, 123450325), (0, 22188)], [(0, 132437430434694674), (0, 12170643892663),
    (0, 4452995442), (0, 1141399), (0, 178)], [(292867354891762, 0), (44389103855, 0), (13731346, 0), (3557, 0), (1,
    0)], [(0, 147320130278), (356162837, 0), (160590, 0), (39, 0)]], 3, 4⟩, 72057594037927936, 42556049298895,
    301616503249, ⟨[[(10628047698945, 0), (28486498792, 0), (21974151, 0), (0, 14307), (0, 32)], [(0, 6855532604),
    (0, 19699334), (0, 21879), (82, 0)], [(5185203, 0), (12319, 0), (55, 0)], [(0, 2670), (0, 18)]], 3, 4⟩,
    17592186044416, 2065410,
    9678951877694325640018108924301987007709988983435863394216880546384598788070252254933794345496665789083608283713559762562335012,
    lc0⟩))
theorem c160 : checkR job con2 true ⟨7, 9, 7, 9, 13, 17⟩ 1 28336 t160 187 7 320 8039 39 8000 = true := by decide +kernel

def t161 : CTree :=
  .sy (.sy (.sx (.leaf ⟨2364, 16, 8378, 366, 16, 2981, ⟨[[(0, 22772562675105792), (0, 22343854823825536), (0,
    126346027741), (0, 203734872), (0, 34403)], [(31108012788207630, 0), (0, 57529241142804), (988389187, 0), (0,
    366347), (0, 54)], [(0, 230813891557287), (62274397254, 0), (26837326, 0), (6561, 0), (1, 0)], [(803738680949,
    0), (135515845, 0), (67121, 0), (18, 0)]], 3, 4⟩, ⟨[[(33470563216236544, 0), (0, 7944746739016425), (0,
    633895383771), (0, 209520857), (0, 38460)], [(0, 113896759412277285), (0, 8606179101333), (0, 3147704256), (0,
    836096), (0, 133)], [(126918218429330, 0), (21583202515, 0), (7074845, 0), (1856, 0)], [(0, 50940478703),
    (57071976, 0), (26959, 0), (7, 0)]], 3, 4⟩, 72057594037927936, 2937648470408, 57948591857, ⟨[[(10051491861166,
    0), (14686377631, 0), (6173328, 0), (0, 1604), (0, 2)], [(0, 5210501540), (0, 8402047), (0, 4116), (5, 0)],
    [(3347500, 0), (3653, 0), (9, 0)], [(0, 1661), (0, 3)]], 3, 4⟩, 17592186044416, 214507,
    9955529880892313252589891264359999645910802150527187374488701279302904313429252233273597008170458210604099705206665663067283271,
    lc0⟩) (.leaf ⟨2398, 16, 8479, 351, 16, 3036, ⟨[[(0, 22278491159429120), (0, 23415624595875797), (0,
    108360924293), (0, 210032881), (0, 35341)], [(25407251329233129, 0), (0, 56382150341759), (1799041009, 0), (0,
    174817), (0, 19)], [(0, 200865748567246), (68274261957, 0), (29828266, 0), (7340, 0), (1, 0)], [(745167080369,
    0), (112297593, 0), (58865, 0), (15, 0)]], 3, 4⟩, ⟨[[(2757478833299456, 0), (0, 8209575071898480), (0,
    688986287121), (0, 224919363), (0, 41002)], [(0, 112409654194745435), (0, 8116638534880), (0, 2988484562), (0,
    794777), (0, 126)], [(127052093736154, 0), (24278964332, 0), (8293953, 0), (2157, 0)], [(0, 53445283747),
    (51180736, 0), (24347, 0), (6, 0)]], 3, 4⟩, 72057594037927936, 2980197764246, 108697362874, ⟨[[(9713380847139,
    0), (14115560862, 0), (6020318, 0), (0, 1234), (0, 4)], [(0, 4937987810), (0, 7941586), (0, 4038), (2, 0)],
    [(3170554, 0), (3087, 0), (9, 0)], [(0, 1546), (0, 2)]], 3, 4⟩, 17592186044416, 133453,
    8164268111422144334815471213869861604601275998825959172998648626838656279284869940950905178560141738014414148531872866587111021,
    lc0⟩)) (.leaf ⟨2023, 16, 7237, 201, 16, 1728, ⟨[[(0, 1735924518305792), (0, 19665248030148217), (0,
    144752587704), (0, 187501076), (0, 31429)], [(40743456103433015, 0), (0, 97487484436961), (2261037473, 0), (0,
    490293), (0, 67)], [(0, 722299563391468), (240225154847, 0), (103199404, 0), (25286, 0), (5, 0)],
    [(5390546181475, 0), (924075158, 0), (461403, 0), (120, 0)]], 3, 4⟩, ⟨[[(713657104422912, 0), (0,
    4701242536954997), (0, 410064563049), (0, 132079708), (0, 23899)], [(0, 130766187351473902), (0, 10185734052359),
    (0, 3754959648), (0, 985604), (0, 156)], [(296012671405075, 0), (55587004597, 0), (18789322, 0), (4860, 0), (1,
    0)], [(0, 218964578227), (268154180, 0), (125009, 0), (31, 0)]], 3, 4⟩, 72057594037927936, 41923900344618,
    1052357833229, ⟨[[(9884022771949, 0), (25238924513, 0), (18927240, 0), (0, 7300), (0, 43)], [(0, 6016737009), (0,
    16752125), (0, 16519), (22, 0)], [(4539027, 0), (8023, 0), (45, 0)], [(0, 2491), (0, 8)]], 3, 4⟩, 17592186044416,
    1270774,
    8544680319334651494260264455075531159124691899030287289902781394396978546996429678797546000303985673152986865605360757185538517,
    lc0⟩)) (.sy (.leaf ⟨2102, 16, 7598, 194, 16, 1714, ⟨[[(0, 34290990275887104), (0, 20673564880945044), (0,
    199260453700), (0, 207391748), (0, 34563)], [(34806707079375013, 0), (0, 101989622451580), (2250762641, 0), (0,
    537225), (0, 74)], [(0, 737985505910741), (269604059542, 0), (114736006, 0), (28070, 0), (5, 0)],
    [(5738121590246, 0), (1048086530, 0), (514785, 0), (133, 0)]], 3, 4⟩, ⟨[[(21503572934862848, 0), (0,
    4729042264486800), (0, 438277157124), (0, 138576569), (0, 24807)], [(0, 130517919288654501), (0, 10702378061925),
    (0, 3959012175), (0, 1026784), (0, 161)], [(298030784465828, 0), (58133543900, 0), (19794506, 0), (5073, 0), (1,
    0)], [(0, 195675030998), (285887894, 0), (131278, 0), (32, 0)]], 3, 4⟩, 72057594037927936, 45389838673889,
    1289816566874, ⟨[[(9873574915237, 0), (25589848246, 0), (19728523, 0), (0, 6783), (0, 63)], [(0, 5826754973), (0,
    16223500), (0, 18327), (20, 0)], [(4218030, 0), (7299, 0), (50, 0)], [(0, 2083), (0, 7)]], 3, 4⟩, 17592186044416,
    1445676,
    6668943136570394514237453514637143608334554502041726592567173325642850826585111428699792627723747787336218418505499749953268046,
    lc0⟩) (.sx (.sy (.leaf ⟨4364, 16, 15917, 390, 16, 3396, ⟨[[(6327741845929984, 0), (0, 21304596566849195), (0,
    126989471212), (0, 55862105), (0, 4641)], [(35735799395697394, 0), (0, 54296003386363), (350067534, 0), (0,
    98771), (0, 7)], [(0, 410661461445677), (70999278834, 0), (14914917, 0), (1817, 0)], [(1588422894855, 0),
    (158505832, 0), (37673, 0), (5, 0)]], 3, 4⟩, ⟨[[(3208891471347712, 0), (0, 4697653263848523), (0, 222090252875),
    (0, 34844174), (0, 3104)], [(0, 132030637461732681), (0, 5740140034741), (0, 1060589192), (0, 136301), (0, 11)],
    [(150253706262482, 0), (14175808969, 0), (2380176, 0), (304, 0)], [(0, 42595770672), (39642503, 0), (8983, 0),
    (1, 0)]], 3, 4⟩, 72057594037927936, 5983477530534, 136344162750, ⟨[[(10058503002743, 0), (13128536668, 0),
    (5101711, 0), (0, 1028), (0, 4)], [(0, 2880758322), (0, 4004483), (0, 2444), (2, 0)], [(992717, 0), (927, 0), (3,
    0)], [(0, 223), (0, 1)]], 3, 4⟩, 17592186044416, 121941,
    7206152392454061800954268861122312345165784683949212470532323369664183930220093329565890510423941511147146730681811011488223461,
    lc0⟩) (.sx (.leaf ⟨5061, 16, 18564, 668, 16, 5797, ⟨[[(4377855109955584, 0), (0, 24649395847277105), (0,
    164668782058), (0, 66421352), (0, 5506)], [(20058778981012130, 0), (0, 31927818502948), (128704275, 0), (0,
    66461), (0, 5)], [(0, 123052351460584), (20876334740, 0), (4353862, 0), (529, 0)], [(238507581062, 0), (24916848,
    0), (5830, 0), (1, 0)]], 3, 4⟩, ⟨[[(9029888326098944, 0), (0, 8043570330880305), (0, 386642925724), (0,
    60310423), (0, 5354)], [(0, 113982014336177390), (0, 5128233248042), (0, 947131555), (0, 121025), (0, 9)],
    [(64774242472317, 0), (6023818744, 0), (1004515, 0), (128, 0)], [(0, 8258454821), (9006506, 0), (2025, 0)]], 3,
    4⟩, 72057594037927936, 440423457897, 13928110715, ⟨[[(10147656389210, 0), (7757123448, 0), (1770685, 0), (0,
    222), (0, 1)], [(0, 2516899369), (0, 2038296), (0, 765)], [(742721, 0), (420, 0), (1, 0)], [(0, 138)]], 3, 4⟩,
    17592186044416, 94603,
    9650865540647615048715996084241673510687640917959675038492762335236808332998923490670835260249479601260106692779165752659600729,
    lc0⟩) (.sy (.leaf ⟨9125, 16, 33402, 765, 16, 6840, ⟨[[(0, 3377815978770432), (0, 22568467838486968), (0,
    71106361674), (0, 15027008), (0, 622)], [(31240278787148485, 0), (0, 28193923354254), (115586926, 0), (0,
    11454)], [(0, 204532942151797), (19526542705, 0), (2050696, 0), (125, 0)], [(409955078292, 0), (20503875, 0),
    (2448, 0)]], 3, 4⟩, ⟨[[(65723843821568, 0), (0, 4777877916880418), (0, 116837840559), (0, 9078385), (0, 402)],
    [(0, 132241956846529591), (0, 2901840371992), (0, 268725109), (0, 17196), (0, 1)], [(75864569674545, 0),
    (3745972951, 0), (318368, 0), (20, 0)], [(0, 10340265778), (4977458, 0), (562, 0)]], 3, 4⟩, 72057594037927936,
    792319870288, 19829396593, ⟨[[(9970103427268, 0), (6497348087, 0), (1274484, 0), (0, 105)], [(0, 1368224907), (0,
    941980), (0, 306)], [(225670, 0), (99, 0)], [(0, 23)]], 3, 4⟩, 17592186044416, 48580,
    8602632008827078148105133721354778404380320056803616727101987980566254191614185178560158263059570747039914988128281049554656405,
    lc0⟩) (.out ⟨6851, 16, 33198, 50329, 16, 78512, ⟨[[(0, 32503856939663360), (0, 22441931376433070), (0,
    74189598952)], [(28864479803964078, 0), (0, 28004018385371), (112202134, 0)], [(0, 201757546129561),
    (19727518885, 0), (2067447, 0)]], 2, 2⟩, ⟨[[(30553446007439360, 0), (0, 28067837409010846), (217228191604, 0)]],
    2, 2⟩, 72057594037927936, 142368108862508, 99758525565, ⟨[], 0, 0⟩, 0, 0, 0, lc0⟩ 3 1 1028)))) (.sy (.leaf ⟨4570,
    16, 16644, 374, 16, 3478, ⟨[[(0, 31050008788533248), (0, 23057547760351908), (0, 124503335567), (0, 59473652),
    (0, 4926)], [(26292547904581490, 0), (0, 54605119193990), (824925493, 0), (0, 47225), (0, 3)], [(0,
    362703749255204), (80616881266, 0), (17143574, 0), (2100, 0)], [(1515650198867, 0), (137209943, 0), (34164, 0),
    (4, 0)]], 3, 4⟩, ⟨[[(0, 28250842416209920), (0, 4890431698122371), (0, 242157307840), (0, 37575807), (0, 3327)],
    [(0, 130936265108961920), (0, 5449284298357), (0, 1012735294), (0, 130241), (0, 10)], [(151977608101956, 0),
    (16123784336, 0), (2802406, 0), (356, 0)], [(0, 47296317656), (35794521, 0), (8158, 0), (1, 0)]], 3, 4⟩,
    72057594037927936, 6324316744535, 202659871201, ⟨[[(9718109343509, 0), (12546014053, 0), (4904795, 0), (0, 491),
    (0, 5)], [(0, 2649506633), (0, 3614571), (0, 2264)], [(885003, 0), (671, 0), (3, 0)], [(0, 187)]], 3, 4⟩,
    17592186044416, 76548,
    8239979043792185989140084333199797367930951424880593182444356464275809331202970929761942457707794381776513262594126644513893704,
    lc0⟩) (.sy (.sy (.out ⟨9186, 16, 44266, 100598, 16, 156811, ⟨[[(0, 25984935784349696), (0, 15339185726502951),
    (0, 22152936179)], [(62852462932204069, 0), (0, 36253377203485), (135967654, 0)], [(0, 954077218250824),
    (54723081733, 0), (2901151, 0)]], 2, 2⟩, ⟨[[(15622753210073088, 0), (0, 28072113900700882), (108712678192, 0)]],
    2, 2⟩, 72057594037927936, 1407502995848945, 24977713622, ⟨[], 0, 0⟩, 0, 0, 0, lc0⟩ 3 1 976) (.out ⟨9338, 16,
    45084, 100629, 16, 156906, ⟨[[(33843701519613952, 0), (0, 15626208025246080), (0, 23162833670)],
    [(61134749128785966, 0), (0, 36901744417282), (138006289, 0)], [(0, 967342499498046), (56196917056, 0), (2975992,
    0)]], 2, 2⟩, ⟨[[(0, 16909657488490496), (0, 28072158918413640), (108680024152, 0)]], 2, 2⟩, 72057594037927936,
    1436156846034708, 24962334795, ⟨[], 0, 0⟩, 0, 0, 0, lc0⟩ 3 1 1054)) (.out ⟨6053, 16, 29304, 50329, 16, 78512,
    ⟨[[(27847270236028928, 0), (0, 20320838393830876), (0, 62583094457)], [(36931678936489422, 0), (0,
    47929413481377), (356950448, 0)], [(0, 624459488363739), (73964651434, 0), (7820930, 0)]], 2, 2⟩,
    ⟨[[(30553446007439360, 0), (0, 28067837409010846), (217228191604, 0)]], 2, 2⟩, 72057594037927936,
    937960989301191, 99758525565, ⟨[], 0, 0⟩, 0, 0, 0, lc0⟩ 3 1 1219)))))
theorem c161 : checkR job con2 true ⟨7, 9, 7, 9, 13, 17⟩ 1 28336 t161 201 7 320 8039 39 8000 = true := by decide +kernel

def t162 : CTree :=
  .sx (.sy (.leaf ⟨4037, 16, 14934, 410, 16, 3214, ⟨[[(0, 17789990197460992), (0, 18554242852015101), (0,
    141531726148), (0, 51174216), (0, 4243)], [(50333900101358016, 0), (0, 54416039840008), (0, 450688693), (0,
    185816), (0, 15)], [(0, 512830943458129), (55754277672, 0), (11322110, 0), (1356, 0)], [(1775711524274, 0),
    (202681613, 0), (45013, 0), (6, 0)]], 3, 4⟩, ⟨[[(0, 5942625405759488), (0, 4342623908881009), (0, 194553015984),
    (0, 30848036), (0, 2761)], [(0, 133987425514624183), (0, 6445714937989), (0, 1176850033), (0, 149615), (0, 12)],
    [(147043361590049, 0), (10406551438, 0), (1557047, 0), (202, 0)], [(0, 31175446092), (48265178, 0), (10784, 0),
    (1, 0)]], 3, 4⟩, 72057594037927936, 5514787526913, 38851700576, ⟨[[(10826652088708, 0), (14607380372, 0),
    (5656821, 0), (0, 2076), (0, 2)], [(0, 3398058535), (0, 4901432), (0, 2799), (6, 0)], [(1230913, 0), (1581, 0),
    (3, 0)], [(0, 294), (0, 1)]], 3, 4⟩, 17592186044416, 145223,
    9165900102604909890812060689144779054776499015610037706625688154068422008784870902691140300212501524363261480435710808222599232,
    lc0⟩) (.sx (.sy (.leaf ⟨8214, 16, 30520, 822, 16, 6399, ⟨[[(6356075412062208, 0), (0, 18781216928541643), (0,
    76007818589), (0, 13155039), (0, 544)], [(51890320550302939, 0), (0, 28030131162731), (0, 143783400), (0, 25397),
    (0, 1)], [(0, 270002849137220), (14021206205, 0), (1414659, 0), (84, 0)], [(464858199119, 0), (27102768, 0),
    (2984, 0)]], 3, 4⟩, ⟨[[(10287883580899328, 0), (0, 4322939226288885), (0, 97454891887), (0, 7706044), (0, 344)],
    [(0, 134792328854976677), (0, 3313611020312), (0, 302153021), (0, 19131), (0, 1)], [(73644006897417, 0),
    (2505183569, 0), (183672, 0), (12, 0)], [(0, 7086090860), (6269963, 0), (698, 0)]], 3, 4⟩, 72057594037927936,
    701273348875, 6010335354, ⟨[[(10929428442145, 0), (7397096867, 0), (1435074, 0), (0, 280)], [(0, 1691192758), (0,
    1222759), (0, 353)], [(299570, 0), (201, 0)], [(0, 34)]], 3, 4⟩, 17592186044416, 58904,
    8741691535182261524253837903862013908015594987788731776750159756421760385078438804743116723963272829855146529027913077322884274,
    lc0⟩) (.sy (.out ⟨9206, 16, 45454, 100902, 16, 157760, ⟨[[(12255951590522880, 0), (0, 13992329811000871), (0,
    29163735422)], [(74838344032553975, 0), (0, 20885618092972), (0, 55202251)], [(0, 400891397856592), (10564920842,
    0), (532265, 0)]], 2, 2⟩, ⟨[[(16894043878326272, 0), (0, 28072154560599234), (108385441715, 0)]], 2, 2⟩,
    72057594037927936, 239823104645010, 24827380423, ⟨[], 0, 0⟩, 0, 0, 0, lc0⟩ 3 1 712) (.out ⟨9286, 16, 45926,
    100933, 16, 157855, ⟨[[(33296114172035072, 0), (0, 14142270393657886), (0, 30053109997)], [(73969138329918811,
    0), (0, 21111286137488), (0, 56907557)], [(0, 404218403523921), (10758817432, 0), (541560, 0)]], 2, 2⟩, ⟨[[(0,
    28860896353714176), (0, 28072148394262128), (108352786944, 0)]], 2, 2⟩, 72057594037927936, 242874633975209,
    24812652125, ⟨[], 0, 0⟩, 0, 0, 0, lc0⟩ 3 1 827))) (.sy (.sy (.out ⟨9635, 16, 47344, 100841, 16, 157570,
    ⟨[[(14402609710497792, 0), (0, 14866978285708872), (0, 29841024585)], [(70021591207015899, 0), (0,
    21421020448003), (0, 39206515)], [(0, 389544014016252), (11694015816, 0), (594403, 0)]], 2, 2⟩,
    ⟨[[(32390332118204416, 0), (0, 28072151621269747), (108450751298, 0)]], 2, 2⟩, 72057594037927936,
    239942247514444, 24858064465, ⟨[], 0, 0⟩, 0, 0, 0, lc0⟩ 3 1 758) (.out ⟨9722, 16, 47849, 100872, 16, 157665,
    ⟨[[(0, 21072727705255936), (0, 15030311618501173), (0, 30778113181)], [(69079579240823762, 0), (0,
    21655773487912), (0, 40675891)], [(0, 392773602134639), (11912796904, 0), (604975, 0)]], 2, 2⟩, ⟨[[(0,
    10726878747820032), (0, 28072155639336172), (108418096512, 0)]], 2, 2⟩, 72057594037927936, 243053521584243,
    24842448068, ⟨[], 0, 0⟩, 0, 0, 0, lc0⟩ 3 1 887)) (.out ⟨6358, 16, 31373, 50451, 16, 78892, ⟨[[(14086776876630016,
    0), (0, 19719339851038999), (0, 83174750268)], [(43631536158279515, 0), (0, 28410667681132), (0, 110847171)],
    [(0, 256609289418740), (15808268846, 0), (1603439, 0)]], 2, 2⟩, ⟨[[(14089785692389376, 0), (0,
    28067971731172513), (216705952943, 0)]], 2, 2⟩, 72057594037927936, 160883090956532, 99278893457, ⟨[], 0, 0⟩, 0,
    0, 0, lc0⟩ 3 1 1071)))) (.sy (.sx (.sy (.leaf ⟨8592, 16, 31695, 802, 16, 6576, ⟨[[(21311434125737984, 0), (0,
    20282805273692974), (0, 75276960097), (0, 13961825), (0, 579)], [(43696934511675218, 0), (0, 28212286136385), (0,
    50197718), (0, 20497), (0, 1)], [(0, 243864208119871), (16297195442, 0), (1673277, 0), (101, 0)], [(444499812572,
    0), (24808252, 0), (2806, 0)]], 3, 4⟩, ⟨[[(0, 24352580769038336), (0, 4502407592695230), (0, 104776818096), (0,
    8227970), (0, 366)], [(0, 133800449462114450), (0, 3154589440657), (0, 289566388), (0, 18425), (0, 1)],
    [(74593794067370, 0), (3020876402, 0), (239520, 0), (15, 0)], [(0, 8257068394), (5772384, 0), (645, 0)]], 3, 4⟩,
    72057594037927936, 740550028997, 6604340413, ⟨[[(10527734299537, 0), (7012138395, 0), (1368613, 0), (0, 212)],
    [(0, 1547069263), (0, 1096676), (0, 340)], [(265125, 0), (153, 0)], [(0, 29)]], 3, 4⟩, 17592186044416, 56120,
    8717079136753383404853062445576181698879537759161673391514011224106785891294767606798829452234170204231225051373802736811505540,
    lc0⟩) (.sy (.out ⟨10054, 16, 49171, 100781, 16, 157380, ⟨[[(11822233170345984, 0), (0, 15740116076968888), (0,
    30150756706)], [(65229865208213422, 0), (0, 21888712554647), (0, 20870585)], [(0, 376838159662161), (12794240137,
    0), (655876, 0)]], 2, 2⟩, ⟨[[(0, 29453589960196096), (0, 28072128257830600), (108516060697, 0)]], 2, 2⟩,
    72057594037927936, 238955368096214, 24887311990, ⟨[], 0, 0⟩, 0, 0, 0, lc0⟩ 3 1 766) (.out ⟨10147, 16, 49707,
    100811, 16, 157475, ⟨[[(0, 33481359999369216), (0, 15916500239431782), (0, 31128215115)], [(64214857724455013,
    0), (0, 22130681069250), (0, 22050042)], [(0, 379933099795022), (13037504281, 0), (667718, 0)]], 2, 2⟩,
    ⟨[[(2129295234301952, 0), (0, 28072142497180062), (108483406039, 0)]], 2, 2⟩, 72057594037927936, 242097017118140,
    24872309715, ⟨[], 0, 0⟩, 0, 0, 0, lc0⟩ 3 1 909))) (.sy (.sy (.out ⟨10458, 16, 50912, 100720, 16, 157190,
    ⟨[[(13966486148874240, 0), (0, 16602485912493555), (0, 30043268974)], [(60505985085922203, 0), (0,
    22280806304240), (0, 278372)], [(0, 362856540778554), (13846745140, 0), (715722, 0)]], 2, 2⟩, ⟨[[(0,
    24532096870514688), (0, 28072084396322471), (108581369626, 0)]], 2, 2⟩, 72057594037927936, 236818963266641,
    24917499385, ⟨[], 0, 0⟩, 0, 0, 0, lc0⟩ 3 1 766) (.out ⟨10556, 16, 51478, 100750, 16, 157285,
    ⟨[[(20598084253646848, 0), (0, 16791850953279606), (0, 31053220581)], [(59421416600571730, 0), (0,
    22528615912315), (0, 1116056)], [(0, 365794030941892), (14113977110, 0), (728822, 0)]], 2, 2⟩,
    ⟨[[(9698074524909568, 0), (0, 28072108893968072), (108548715238, 0)]], 2, 2⟩, 72057594037927936, 239967739822763,
    24902697779, ⟨[], 0, 0⟩, 0, 0, 0, lc0⟩ 3 1 892)) (.out ⟨6633, 16, 32428, 50390, 16, 78702, ⟨[[(0,
    26144148016463872), (0, 21164988970832407), (0, 80822101396)], [(35771431192439250, 0), (0, 28383822381865), (0,
    5990675)], [(0, 229381379537743), (17997899600, 0), (1856063, 0)]], 2, 2⟩, ⟨[[(27612195986079744, 0), (0,
    28067945547614690), (216967074152, 0)]], 2, 2⟩, 72057594037927936, 152643431146119, 99518391391, ⟨[], 0, 0⟩, 0,
    0, 0, lc0⟩ 3 1 1095))) (.sy (.out ⟨5182, 16, 25436, 50421, 16, 78797, ⟨[[(0, 8839784775417856), (0,
    16455027732034114), (0, 65991765814)], [(57752971519056686, 0), (0, 44925520877211), (0, 56805432)], [(0,
    744598089998018), (55724014871, 0), (5717922, 0)]], 2, 2⟩, ⟨[[(0, 13857552151347200), (0, 28067968846783626),
    (216836513730, 0)]], 2, 2⟩, 72057594037927936, 981447179018836, 99398336031, ⟨[], 0, 0⟩, 0, 0, 0, lc0⟩ 3 1 1196)
    (.out ⟨5281, 16, 26014, 50451, 16, 78892, ⟨[[(29268227558670336, 0), (0, 16839693159103183), (0, 70288182281)],
    [(55481145122864210, 0), (0, 45956045479766), (0, 65644838)], [(0, 757037125063545), (57909009771, 0), (5931044,
    0)]], 2, 2⟩, ⟨[[(14089785692389376, 0), (0, 28067971731172513), (216705952943, 0)]], 2, 2⟩, 72057594037927936,
    1008295098838157, 99278893457, ⟨[], 0, 0⟩, 0, 0, 0, lc0⟩ 3 1 1418)))
theorem c162 : checkR job con2 true ⟨7, 9, 7, 9, 13, 17⟩ 1 28336 t162 187 7 320 32351 39 32000 = true := by decide +kernel

def t163 : CTree :=
  .sx (.sy (.sy (.out ⟨4748, 16, 23521, 50482, 16, 78987, ⟨[[(0, 20420205226819584), (0, 14644149620089836), (0,
    64168598450)], [(67563002246517303, 0), (0, 42957733506024), (0, 208089977)], [(0, 795382819733118),
    (46401151261, 0), (4682011, 0)]], 2, 2⟩, ⟨[[(0, 32656210938822656), (0, 28067954274429125), (216575392360, 0)]],
    2, 2⟩, 72057594037927936, 987020893039044, 99159114669, ⟨[], 0, 0⟩, 0, 0, 0, lc0⟩ 3 1 1181) (.out ⟨4834, 16,
    24031, 50512, 16, 79082, ⟨[[(33077306227228672, 0), (0, 14972099825770910), (0, 68096089197)],
    [(65603286296707840, 0), (0, 43923057204948), (0, 221799836)], [(0, 808901902613797), (48158733262, 0), (4850950,
    0)]], 2, 2⟩, ⟨[[(0, 9975597818183680), (0, 28067916549935600), (216444832545, 0)]], 2, 2⟩, 72057594037927936,
    1013197644802969, 99039690950, ⟨[], 0, 0⟩, 0, 0, 0, lc0⟩ 3 1 1407)) (.sy (.out ⟨4925, 16, 24564, 50542, 16,
    79177, ⟨[[(8185242841776128, 0), (0, 15315239263812611), (0, 72232337582)], [(63554961858777883, 0), (0,
    44933366038918), (0, 236240138)], [(0, 822973086143176), (50005848601, 0), (5028410, 0)]], 2, 2⟩,
    ⟨[[(10078775729979392, 0), (0, 28067858630809479), (216314274061, 0)]], 2, 2⟩, 72057594037927936,
    1040635422847571, 98920548336, ⟨[], 0, 0⟩, 0, 0, 0, lc0⟩ 3 1 1672) (.out ⟨5020, 16, 25121, 50572, 16, 79272,
    ⟨[[(0, 12081989127897088), (0, 15674254831442846), (0, 76590338524)], [(61410334485405714, 0), (0,
    45990707372148), (0, 251456823)], [(0, 837614045673837), (51947610799, 0), (5214869, 0)]], 2, 2⟩,
    ⟨[[(27511643017052160, 0), (0, 28067780589904791), (216183717467, 0)]], 2, 2⟩, 72057594037927936,
    1069397499208939, 98801356047, ⟨[], 0, 0⟩, 0, 0, 0, lc0⟩ 3 1 1927))) (.sy (.sy (.out ⟨5385, 16, 26618, 50482, 16,
    78987, ⟨[[(26911476561346560, 0), (0, 17242126820557571), (0, 74818981812)], [(53101097616849472, 0), (0,
    47034152226681), (0, 74988112)], [(0, 769955341109719), (60206997844, 0), (6155050, 0)]], 2, 2⟩, ⟨[[(0,
    32656210938822656), (0, 28067954274429125), (216575392360, 0)]], 2, 2⟩, 72057594037927936, 1036439547499245,
    99159114669, ⟨[], 0, 0⟩, 0, 0, 0, lc0⟩ 3 1 1626) (.out ⟨5495, 16, 27252, 50512, 16, 79082, ⟨[[(0,
    33890170816757760), (0, 17664991628634040), (0, 79607298375)], [(50609355140313024, 0), (0, 48167041311835), (0,
    84878258)], [(0, 783447977173604), (62631065209, 0), (6391228, 0)]], 2, 2⟩, ⟨[[(0, 9975597818183680), (0,
    28067916549935600), (216444832545, 0)]], 2, 2⟩, 72057594037927936, 1066057727329554, 99039690950, ⟨[], 0, 0⟩, 0,
    0, 0, lc0⟩ 3 1 1887)) (.out ⟨3402, 16, 16961, 25271, 16, 39600, ⟨[[(0, 14104368908664832), (0,
    22012398241157136), (0, 209590356803)], [(27989878015711182, 0), (0, 59982568548778), (0, 242034472)], [(0,
    482983975634032), (79841610421, 0), (16251265, 0)]], 2, 2⟩, ⟨[[(0, 13306954736205824), (0, 28059142209620480),
    (432364241947, 0)]], 2, 2⟩, 72057594037927936, 673681845317663, 395439623519, ⟨[], 0, 0⟩, 0, 0, 0, lc0⟩ 3 1
    2194))
theorem c163 : checkR job con2 true ⟨7, 9, 7, 9, 13, 17⟩ 1 28336 t163 187 7 320 32429 39 32000 = true := by decide +kernel

def t164 : CTree :=
  .sy (.sy (.out ⟨2634, 16, 13237, 25302, 16, 39696, ⟨[[(18581510460243968, 0), (0, 16874761524724647), (0,
    173535846556)], [(47250578637707913, 0), (0, 95434180168892), (0, 795982679)], [(0, 1617726012104820),
    (241124642195, 0), (48609289, 0)]], 2, 2⟩, ⟨[[(0, 23943167593152512), (0, 28059673738823542), (431853385746,
    0)]], 2, 2⟩, 72057594037927936, 4433838554640290, 394498024903, ⟨[], 0, 0⟩, 0, 0, 0, lc0⟩ 3 1 2408) (.out ⟨2746,
    16, 13896, 25332, 16, 39791, ⟨[[(15282510961344512, 0), (0, 17744280522397867), (0, 194983656326)],
    [(41783230800714981, 0), (0, 100321977266175), (0, 916462124)], [(0, 1678206560629887), (261202309726, 0),
    (52481804, 0)]], 2, 2⟩, ⟨[[(0, 13726417272963072), (0, 28059416871651079), (431331635307, 0)]], 2, 2⟩,
    72057594037927936, 4701706203923046, 393548656501, ⟨[], 0, 0⟩, 0, 0, 0, lc0⟩ 3 1 2833)) (.sy (.out ⟨2870, 16,
    14624, 25363, 16, 39887, ⟨[[(0, 10643698141528064), (0, 18706973697650123), (0, 219025608622)],
    [(35731110688237481, 0), (0, 105734996367120), (0, 1051696651)], [(0, 1744346084013810), (283624527995, 0),
    (56802036, 0)]], 2, 2⟩, ⟨[[(0, 34950961184899072), (0, 28059784229058074), (430820718691, 0)]], 2, 2⟩,
    72057594037927936, 4999335169774316, 392611536364, ⟨[], 0, 0⟩, 0, 0, 0, lc0⟩ 3 1 3231) (.out ⟨3007, 16, 15434,
    25393, 16, 39982, ⟨[[(30091196424192000, 0), (0, 19780346154643833), (0, 246124915777)], [(28999120593781486, 0),
    (0, 111771970526070), (0, 1204307105)], [(0, 1817246416421086), (308818217969, 0), (61651534, 0)]], 2, 2⟩, ⟨[[(0,
    35174714133446656), (0, 28059367735910236), (430299003756, 0)]], 2, 2⟩, 72057594037927936, 5332252355672333,
    391666680939, ⟨[], 0, 0⟩, 0, 0, 0, lc0⟩ 3 1 3563))
theorem c164 : checkR job con2 true ⟨7, 9, 7, 9, 13, 17⟩ 1 28336 t164 187 7 320 16273 39 16000 = true := by decide +kernel

def t165 : CTree :=
  .sy (.sx (.sy (.sy (.out ⟨5583, 16, 27162, 50360, 16, 78607, ⟨[[(0, 8653506384101376), (0, 18210190886100828), (0,
    64159656627)], [(48345635977642185, 0), (0, 46250682146861), (131736865, 0)], [(0, 683764116159173),
    (64141596203, 0), (6688220, 0)]], 2, 2⟩, ⟨[[(0, 5620937096953856), (0, 28067901759751204), (217097633635, 0)]],
    2, 2⟩, 72057594037927936, 956515033413636, 99638141317, ⟨[], 0, 0⟩, 0, 0, 0, lc0⟩ 3 1 1137) (.out ⟨5694, 16,
    27799, 50390, 16, 78702, ⟨[[(0, 26726450075402240), (0, 18647731652147558), (0, 68669450639)],
    [(45788084575162624, 0), (0, 47314726119511), (129542151, 0)], [(0, 694637452084664), (66721301938, 0), (6943162,
    0)]], 2, 2⟩, ⟨[[(27612195986079744, 0), (0, 28067945547614690), (216967074152, 0)]], 2, 2⟩, 72057594037927936,
    983062609320125, 99518391391, ⟨[], 0, 0⟩, 0, 0, 0, lc0⟩ 3 1 1377)) (.sy (.out ⟨5810, 16, 28466, 50421, 16, 78797,
    ⟨[[(0, 31400227696803840), (0, 19106371228060711), (0, 73434192106)], [(43108406249849582, 0), (0,
    48429712670046), (127176554, 0)], [(0, 705931760638598), (69439237285, 0), (7211589, 0)]], 2, 2⟩, ⟨[[(0,
    13857552151347200), (0, 28067968846783626), (216836513730, 0)]], 2, 2⟩, 72057594037927936, 1010941249150678,
    99398336031, ⟨[], 0, 0⟩, 0, 0, 0, lc0⟩ 3 1 1572) (.out ⟨5931, 16, 29165, 50451, 16, 78892, ⟨[[(1823142393085952,
    0), (0, 19587528656590382), (0, 78472388317)], [(40297463902045129, 0), (0, 49599048767888), (124626159, 0)],
    [(0, 717671919216712), (72305225118, 0), (7494453, 0)]], 2, 2⟩, ⟨[[(14089785692389376, 0), (0,
    28067971731172513), (216705952943, 0)]], 2, 2⟩, 72057594037927936, 1040242470464383, 99278893457, ⟨[], 0, 0⟩, 0,
    0, 0, lc0⟩ 3 1 1773))) (.sy (.sy (.out ⟨6179, 16, 30019, 50360, 16, 78607, ⟨[[(0, 32671135618039808), (0,
    20826909654482215), (0, 67371377005)], [(34005297953091365, 0), (0, 49042018701286), (363101565, 0)], [(0,
    633736939107970), (77028162820, 0), (8127205, 0)]], 2, 2⟩, ⟨[[(0, 5620937096953856), (0, 28067901759751204),
    (217097633635, 0)]], 2, 2⟩, 72057594037927936, 964497993322477, 99638141317, ⟨[], 0, 0⟩, 0, 0, 0, lc0⟩ 3 1 1429)
    (.out ⟨6309, 16, 30767, 50390, 16, 78702, ⟨[[(28010587680079872, 0), (0, 21356900607298048), (0, 72435911472)],
    [(30934291533660512, 0), (0, 50206176522979), (369503853, 0)], [(0, 643319285684801), (80256287496, 0), (8449681,
    0)]], 2, 2⟩, ⟨[[(27612195986079744, 0), (0, 28067945547614690), (216967074152, 0)]], 2, 2⟩, 72057594037927936,
    992344837569238, 99518391391, ⟨[], 0, 0⟩, 0, 0, 0, lc0⟩ 3 1 1607)) (.sy (.out ⟨6447, 16, 31553, 50421, 16, 78797,
    ⟨[[(0, 10186828287639552), (0, 21914364623303004), (0, 77803584226)], [(27710739928914418, 0), (0,
    51429884276903), (376206476, 0)], [(0, 653281181629526), (83668114650, 0), (8790276, 0)]], 2, 2⟩, ⟨[[(0,
    13857552151347200), (0, 28067968846783626), (216836513730, 0)]], 2, 2⟩, 72057594037927936, 1021682024682203,
    99398336031, ⟨[], 0, 0⟩, 0, 0, 0, lc0⟩ 3 1 1791) (.out ⟨6591, 16, 32378, 50451, 16, 78892, ⟨[[(5234802804916224,
    0), (0, 22500087443784868), (0, 83493560746)], [(24321202887342039, 0), (0, 52714592902325), (383209334, 0)],
    [(0, 663610298931356), (87272977352, 0), (9149874, 0)]], 2, 2⟩, ⟨[[(14089785692389376, 0), (0,
    28067971731172513), (216705952943, 0)]], 2, 2⟩, 72057594037927936, 1052563197788124, 99278893457, ⟨[], 0, 0⟩, 0,
    0, 0, lc0⟩ 3 1 1977)))) (.sy (.out ⟨3095, 16, 15296, 25241, 16, 39505, ⟨[[(31318448115351552, 0), (0,
    20925889023575099), (0, 172464218948)], [(26227525202458505, 0), (0, 101766514112896), (948126513, 0)], [(0,
    1358055475272614), (325029685370, 0), (67564242, 0)]], 2, 2⟩, ⟨[[(0, 34039767746740224), (0, 28059237127132357),
    (432885992180, 0)]], 2, 2⟩, 72057594037927936, 4259883084082265, 396393523745, ⟨[], 0, 0⟩, 0, 0, 0, lc0⟩ 3 1
    2106) (.out ⟨3237, 16, 16116, 25271, 16, 39600, ⟨[[(35700574480334848, 0), (0, 22077213767694306), (0,
    196728805158)], [(19276228885898119, 0), (0, 107069202919989), (961044815, 0)], [(0, 1403710523232121),
    (353718731708, 0), (73241017, 0)]], 2, 2⟩, ⟨[[(0, 13306954736205824), (0, 28059142209620480), (432364241947,
    0)]], 2, 2⟩, 72057594037927936, 4528064738327202, 395439623519, ⟨[], 0, 0⟩, 0, 0, 0, lc0⟩ 3 1 2473))
theorem c165 : checkR job con2 true ⟨7, 9, 7, 9, 13, 17⟩ 1 28336 t165 201 7 320 16195 39 16000 = true := by decide +kernel

def t166 : CTree :=
  .sx (.sy (.sy (.out ⟨3683, 16, 18475, 25302, 16, 39696, ⟨[[(6255945663315968, 0), (0, 24911285414181826), (0,
    245846997550)], [(12061455592656066, 0), (0, 62720452025000), (233687135, 0)], [(0, 434073541261250),
    (100078811210, 0), (20531449, 0)]], 2, 2⟩, ⟨[[(0, 23943167593152512), (0, 28059673738823542), (431853385746,
    0)]], 2, 2⟩, 72057594037927936, 681485255437351, 394498024903, ⟨[], 0, 0⟩, 0, 0, 0, lc0⟩ 3 1 2771) (.out ⟨3770,
    16, 19051, 25332, 16, 39791, ⟨[[(6276621009846272, 0), (0, 25728934955340426), (0, 271999269799)],
    [(7394179549495766, 0), (0, 64640809803441), (208832844, 0)], [(0, 439427213237363), (106548986591, 0),
    (21779803, 0)]], 2, 2⟩, ⟨[[(0, 13726417272963072), (0, 28059416871651079), (431331635307, 0)]], 2, 2⟩,
    72057594037927936, 709528151534837, 393548656501, ⟨[], 0, 0⟩, 0, 0, 0, lc0⟩ 3 1 3112)) (.out ⟨1970, 16, 10069,
    12681, 16, 19955, ⟨[[(35384385874804736, 0), (0, 27267757689040138), (0, 635556082922)], [(0, 87820827058659),
    (0, 68283490896062), (336594484, 0)], [(0, 225501296034472), (118131600208, 0), (48040451, 0)]], 2, 2⟩, ⟨[[(0,
    1687808441712640), (0, 28042371096716971), (860591410057, 0)]], 2, 2⟩, 72057594037927936, 401663149173368,
    1568531376260, ⟨[], 0, 0⟩, 0, 0, 0, lc0⟩ 3 1 3534)) (.sy (.sy (.out ⟨3855, 16, 19331, 25302, 16, 39696,
    ⟨[[(1943295843434496, 0), (0, 26963112344883161), (0, 249458511469)], [(1060462539056172, 0), (0,
    62561112289609), (876853480, 0)], [(0, 372817191578800), (113962900851, 0), (23633716, 0)]], 2, 2⟩, ⟨[[(0,
    23943167593152512), (0, 28059673738823542), (431853385746, 0)]], 2, 2⟩, 72057594037927936, 648980231118206,
    394498024903, ⟨[], 0, 0⟩, 0, 0, 0, lc0⟩ 3 1 2841) (.out ⟨3756, 16, 18978, 25332, 16, 39791, ⟨[[(0,
    3164977140760576), (0, 26510404258375394), (0, 263644970047)], [(0, 3744351766055518), (0, 61285503247350),
    (846700482, 0)], [(0, 357139948019968), (115553362890, 0), (23871638, 0)]], 2, 2⟩, ⟨[[(0, 13726417272963072), (0,
    28059416871651079), (431331635307, 0)]], 2, 2⟩, 72057594037927936, 642852498113544, 393548656501, ⟨[], 0, 0⟩, 0,
    0, 0, lc0⟩ 3 1 3135)) (.sy (.out ⟨3613, 16, 18396, 25363, 16, 39887, ⟨[[(0, 4818117922881536), (0,
    25738721916371203), (0, 274192671426)], [(0, 8258230537495239), (0, 59279105879992), (806780698, 0)], [(0,
    337308626622081), (115671226071, 0), (23806375, 0)]], 2, 2⟩, ⟨[[(0, 34950961184899072), (0, 28059784229058074),
    (430820718691, 0)]], 2, 2⟩, 72057594037927936, 628890034722071, 392611536364, ⟨[], 0, 0⟩, 0, 0, 0, lc0⟩ 3 1 3380)
    (.out ⟨3478, 16, 17848, 25393, 16, 39982, ⟨[[(18217573085216768, 0), (0, 25014928861699686), (0, 284564843378)],
    [(0, 12493523374789349), (0, 57392198784234), (768965350, 0)], [(0, 318365061208108), (115880262439, 0),
    (23761896, 0)]], 2, 2⟩, ⟨[[(0, 35174714133446656), (0, 28059367735910236), (430299003756, 0)]], 2, 2⟩,
    72057594037927936, 615940702936790, 391666680939, ⟨[], 0, 0⟩, 0, 0, 0, lc0⟩ 3 1 3601)))
theorem c166 : checkR job con2 true ⟨7, 9, 7, 9, 13, 17⟩ 1 28336 t166 201 7 320 16273 39 16000 = true := by decide +kernel

def t167 : CTree :=
  .sy (.sx (.sy (.sx (.sy (.sy (.sy (.out ⟨6243, 16, 32695, 101692, 16, 160240, ⟨[[(0, 1579027252903936), (0,
    8377764883465616), (0, 21432946201)], [(105781421637951543, 0), (0, 16578433163433), (0, 126737909)], [(0,
    473853542224024), (2647801157, 0), (113390, 0)]], 2, 2⟩, ⟨[[(12501264207183872, 0), (0, 28072119227866329),
    (107543239032, 0)]], 2, 2⟩, 72057594037927936, 230123119421984, 24443340598, ⟨[], 0, 0⟩, 0, 0, 0, lc0⟩ 3 1 797)
    (.out ⟨6285, 16, 32963, 101723, 16, 160336, ⟨[[(488216098045952, 0), (0, 8449836167993859), (0, 21968415535)],
    [(105344011333362615, 0), (0, 16734368059181), (0, 129172709)], [(0, 477528788166860), (2687391444, 0), (114994,
    0)]], 2, 2⟩, ⟨[[(0, 21535802673594368), (0, 28072157997301780), (107511261570, 0)]], 2, 2⟩, 72057594037927936,
    232555869943303, 24429549337, ⟨[], 0, 0⟩, 0, 0, 0, lc0⟩ 3 1 945)) (.out ⟨4850, 16, 25492, 50877, 16, 80228,
    ⟨[[(0, 6590864005267456), (0, 13077443665901507), (0, 69639882422)], [(79952458578736997, 0), (0,
    25930244685194), (0, 406113416)], [(0, 369053432768490), (4198402702, 0), (358880, 0)]], 2, 2⟩, ⟨[[(0,
    27425135848325120), (0, 28068008442741616), (214894447281, 0)]], 2, 2⟩, 72057594037927936, 181271735751491,
    97625388881, ⟨[], 0, 0⟩, 0, 0, 0, lc0⟩ 3 1 1173)) (.sy (.out ⟨4897, 16, 25816, 50907, 16, 80324,
    ⟨[[(15016322939682816, 0), (0, 13254836971267766), (0, 72822110436)], [(78917858144520567, 0), (0,
    26324667620559), (0, 420191485)], [(0, 373410196351176), (4308796683, 0), (367759, 0)]], 2, 2⟩,
    ⟨[[(6984781532233728, 0), (0, 28068060726984487), (214766592397, 0)]], 2, 2⟩, 72057594037927936, 184462299643065,
    97509048413, ⟨[], 0, 0⟩, 0, 0, 0, lc0⟩ 3 1 1478) (.out ⟨4946, 16, 26149, 50938, 16, 80420, ⟨[[(0,
    11667819183996928), (0, 13437500990724505), (0, 76117545273)], [(77853400042932398, 0), (0, 26731336335692), (0,
    434759607)], [(0, 377884109451303), (4422831228, 0), (376937, 0)]], 2, 2⟩, ⟨[[(0, 33282762885562368), (0,
    28068092914536993), (214638736356, 0)]], 2, 2⟩, 72057594037927936, 187753904975343, 97392807772, ⟨[], 0, 0⟩, 0,
    0, 0, lc0⟩ 3 1 1775))) (.sy (.sy (.out ⟨5081, 16, 26548, 50846, 16, 80132, ⟨[[(8028087958568960, 0), (0,
    13984254155815964), (0, 75904800110)], [(74914004859285541, 0), (0, 26798993591366), (0, 401584539)], [(0,
    362138884252801), (5697232067, 0), (509563, 0)]], 2, 2⟩, ⟨[[(7597976613552128, 0), (0, 28067935989804249),
    (215022300454, 0)]], 2, 2⟩, 72057594037927936, 183683882027197, 97741826809, ⟨[], 0, 0⟩, 0, 0, 0, lc0⟩ 3 1 1457)
    (.out ⟨5132, 16, 26896, 50877, 16, 80228, ⟨[[(26936411268448256, 0), (0, 14179754638725701), (0, 79390510901)],
    [(73775786887852873, 0), (0, 27214453944920), (0, 415866113)], [(0, 366432557761683), (5852954979, 0), (522769,
    0)]], 2, 2⟩, ⟨[[(0, 27425135848325120), (0, 28068008442741616), (214894447281, 0)]], 2, 2⟩, 72057594037927936,
    187009902346307, 97625388881, ⟨[], 0, 0⟩, 0, 0, 0, lc0⟩ 3 1 1726)) (.out ⟨3422, 16, 18012, 25454, 16, 40174,
    ⟨[[(0, 23504881161502720), (0, 19017573573839038), (0, 222835030126)], [(47270745148540855, 0), (0,
    36583017071482), (0, 1150826017)], [(0, 244933037555069), (8004737828, 0), (1427056, 0)]], 2, 2⟩, ⟨[[(0,
    31846826266853376), (0, 28059697878301092), (429277103623, 0)]], 2, 2⟩, 72057594037927936, 129697876103233,
    389803326388, ⟨[], 0, 0⟩, 0, 0, 0, lc0⟩ 3 1 2174))) (.sy (.out ⟨2524, 16, 13386, 25484, 16, 40270,
    ⟨[[(17683793484906496, 0), (0, 13968393738341863), (0, 169603517955)], [(71173030538642459, 0), (0,
    54808278045862), (0, 1813473657)], [(0, 749335463340413), (21464752729, 0), (3744263, 0)]], 2, 2⟩, ⟨[[(0,
    2018401002192896), (0, 28059742188798700), (428766135244, 0)]], 2, 2⟩, 72057594037927936, 770917225667551,
    388875024753, ⟨[], 0, 0⟩, 0, 0, 0, lc0⟩ 3 1 2467) (.out ⟨2577, 16, 13749, 25514, 16, 40366,
    ⟨[[(10970063350366208, 0), (0, 14375183557937744), (0, 184771042944)], [(68700624368585947, 0), (0,
    56591300460789), (0, 1942018405)], [(0, 767912611672860), (22654232278, 0), (3941833, 0)]], 2, 2⟩,
    ⟨[[(22592112838311936, 0), (0, 28059706756559445), (428255166383, 0)]], 2, 2⟩, 72057594037927936,
    799975307637837, 387948962700, ⟨[], 0, 0⟩, 0, 0, 0, lc0⟩ 3 1 3044))) (.sy (.sy (.out ⟨2707, 16, 14110, 25423, 16,
    40078, ⟨[[(0, 11708074431447040), (0, 15467238401107328), (0, 181554859689)], [(63101613342903360, 0), (0,
    56434424445173), (0, 1615638933)], [(0, 699472455570824), (33337142061, 0), (6188892, 0)]], 2, 2⟩,
    ⟨[[(5145729176436736, 0), (0, 28059573252797929), (429788062751, 0)]], 2, 2⟩, 72057594037927936, 760060768114987,
    390734164234, ⟨[], 0, 0⟩, 0, 0, 0, lc0⟩ 3 1 2351) (.out ⟨2765, 16, 14504, 25454, 16, 40174,
    ⟨[[(14080077767639040, 0), (0, 15929158941930663), (0, 198318781959)], [(60328570842270016, 0), (0,
    58275235723071), (0, 1736582396)], [(0, 716292192594794), (35273644250, 0), (6531552, 0)]], 2, 2⟩, ⟨[[(0,
    31846826266853376), (0, 28059697878301092), (429277103623, 0)]], 2, 2⟩, 72057594037927936, 789441546064842,
    389803326388, ⟨[], 0, 0⟩, 0, 0, 0, lc0⟩ 3 1 2826)) (.out ⟨1776, 16, 9402, 12742, 16, 20147, ⟨[[(0,
    21248132180623360), (0, 20714569006689047), (0, 561164137221)], [(34671538008111438, 0), (0, 76096625291426), (0,
    4807360714)], [(0, 461591640649048), (47752436914, 0), (17619454, 0)]], 2, 2⟩, ⟨[[(0, 973685364752384), (0,
    28043031353529613), (856511143628, 0)]], 2, 2⟩, 72057594037927936, 538364556946453, 1553647728358, ⟨[], 0, 0⟩, 0,
    0, 0, lc0⟩ 3 1 3651))) (.sy (.out ⟨1345, 16, 7225, 12772, 16, 20243, ⟨[[(0, 7897933867335680), (0,
    15574004454179308), (0, 452674121820)], [(54314744143262985, 0), (0, 119146027001290), (0, 8400631687)], [(0,
    1506598471654828), (127268680800, 0), (45690786, 0)]], 2, 2⟩, ⟨[[(19739587158736896, 0), (0, 28042881581997450),
    (854470933971, 0)]], 2, 2⟩, 72057594037927936, 3386358002043313, 1546258888554, ⟨[], 0, 0⟩, 0, 0, 0, lc0⟩ 3 1
    4274) (.out ⟨1408, 16, 7662, 12802, 16, 20339, ⟨[[(22718633406119936, 0), (0, 16595009125934339), (0,
    533461908465)], [(47688745583553271, 0), (0, 127800152876941), (0, 9657154588)], [(0, 1586896897819538),
    (142724017961, 0), (51024683, 0)]], 2, 2⟩, ⟨[[(30103563071389696, 0), (0, 28042417923720245), (852430857638,
    0)]], 2, 2⟩, 72057594037927936, 3673081272184164, 1538905233303, ⟨[], 0, 0⟩, 0, 0, 0, lc0⟩ 3 1 5156))
theorem c167 : checkR job con2 true ⟨7, 9, 7, 9, 13, 17⟩ 1 28336 t167 159 7 320 8195 39 8000 = true := by decide +kernel

def t168 : CTree :=
  .sy (.sy (.sy (.out ⟨2288, 16, 11866, 25423, 16, 40078, ⟨[[(32332874705207296, 0), (0, 13989469014622475), (0,
    178463838040)], [(61443977820073929, 0), (0, 91936172128207), (0, 2150417291)], [(0, 1909271528078722),
    (171569190920, 0), (33150123, 0)]], 2, 2⟩, ⟨[[(5145729176436736, 0), (0, 28059573252797929), (429788062751, 0)]],
    2, 2⟩, 72057594037927936, 4731301077722377, 390734164234, ⟨[], 0, 0⟩, 0, 0, 0, lc0⟩ 3 1 3321) (.out ⟨2381, 16,
    12430, 25454, 16, 40174, ⟨[[(24600812102090752, 0), (0, 14684441100654914), (0, 198254843766)],
    [(56838657107564919, 0), (0, 96666211182642), (0, 2366350887)], [(0, 1985788968542358), (185216110759, 0),
    (35690188, 0)]], 2, 2⟩, ⟨[[(0, 31846826266853376), (0, 28059697878301092), (429277103623, 0)]], 2, 2⟩,
    72057594037927936, 5010390868729991, 389803326388, ⟨[], 0, 0⟩, 0, 0, 0, lc0⟩ 3 1 3742)) (.out ⟨1594, 16, 8406,
    12742, 16, 20147, ⟨[[(19620491421614080, 0), (0, 19926707652059550), (0, 583644883802)], [(30767124267370903, 0),
    (0, 131520976110863), (0, 6877430511)], [(0, 1327933867943197), (262042013053, 0), (100592116, 0)]], 2, 2⟩,
    ⟨[[(0, 973685364752384), (0, 28043031353529613), (856511143628, 0)]], 2, 2⟩, 72057594037927936, 3484917215053924,
    1553647728358, ⟨[], 0, 0⟩, 0, 0, 0, lc0⟩ 3 1 4382)) (.sy (.out ⟨1678, 16, 8971, 12772, 16, 20243,
    ⟨[[(25593029671600128, 0), (0, 21368673064011461), (0, 693273005754)], [(21840870313115973, 0), (0,
    141560793811791), (0, 8048063287)], [(0, 1394711177293146), (296868705096, 0), (113390756, 0)]], 2, 2⟩,
    ⟨[[(19739587158736896, 0), (0, 28042881581997450), (854470933971, 0)]], 2, 2⟩, 72057594037927936,
    3807702376834730, 1546258888554, ⟨[], 0, 0⟩, 0, 0, 0, lc0⟩ 3 1 5162) (.out ⟨1775, 16, 9620, 12802, 16, 20339,
    ⟨[[(0, 6829847122493440), (0, 23036685344884089), (0, 822770808811)], [(11526276530886969, 0), (0,
    153210010496058), (0, 9429100051)], [(0, 1470026081593077), (337842084603, 0), (128423743, 0)]], 2, 2⟩,
    ⟨[[(30103563071389696, 0), (0, 28042417923720245), (852430857638, 0)]], 2, 2⟩, 72057594037927936,
    4184377913257017, 1538905233303, ⟨[], 0, 0⟩, 0, 0, 0, lc0⟩ 3 1 5903))
theorem c168 : checkR job con2 true ⟨7, 9, 7, 9, 13, 17⟩ 1 28336 t168 173 7 320 8195 39 8000 = true := by decide +kernel

def t169 : CTree :=
  .sy (.sy (.out ⟨1207, 16, 6638, 12833, 16, 20436, ⟨[[(0, 15823629907607552), (0, 15230182958643607), (0,
    571448599036)], [(29707471270917006, 0), (0, 219673652445439), (0, 16464172714)], [(0, 4702401756721390),
    (757690000070, 0), (280451508, 0)]], 2, 2⟩, ⟨[[(3383575500947456, 0), (0, 28043017069423202), (850432663212,
    0)]], 2, 2⟩, 72057594037927936, 25161603462149879, 1531661980688, ⟨[], 0, 0⟩, 0, 0, 0, lc0⟩ 3 1 6381) (.out
    ⟨1336, 16, 7449, 12864, 16, 20533, ⟨[[(0, 24286587659599872), (0, 17195828386086794), (0, 704020811276)],
    [(13993597536090297, 0), (0, 249511382021061), (0, 19985938087)], [(0, 5208649573116266), (900696890648, 0),
    (332050276, 0)]], 2, 2⟩, ⟨[[(0, 33753082468368384), (0, 28043298236814713), (848434279394, 0)]], 2, 2⟩,
    72057594037927936, 28958808752842999, 1524452654351, ⟨[], 0, 0⟩, 0, 0, 0, lc0⟩ 3 1 6984)) (.out ⟨769, 16, 4380,
    6447, 16, 10327, ⟨[[(0, 9516625848557568), (0, 20429573155403835), (0, 1891179761727)], [(0, 9104344191664808),
    (0, 299252069884978), (0, 52679077151)], [(0, 2997967619973448), (1154362613682, 0), (846302910, 0)]], 2, 2⟩,
    ⟨[[(0, 10986678061891584), (0, 28009907873648446), (1688869935101, 0)]], 2, 2⟩, 72057594037927936,
    18090273646195233, 6054761018651, ⟨[], 0, 0⟩, 0, 0, 0, lc0⟩ 3 1 7810)
theorem c169 : checkR job con2 true ⟨7, 9, 7, 9, 13, 17⟩ 1 28336 t169 83 7 160 8273 39 8000 = true := by decide +kernel

def t170 : CTree :=
  .sy (.sx (.sy (.sy (.out ⟨1800, 16, 9335, 12712, 16, 20051, ⟨[[(0, 33719716054302720), (0, 24000559082243065), (0,
    651522824314)], [(9619667498953235, 0), (0, 135568287754171), (0, 3266795995)], [(0, 1076760133018873),
    (391389935526, 0), (155549670, 0)]], 2, 2⟩, ⟨[[(0, 32110397578674176), (0, 28042862719669396), (858551349223,
    0)]], 2, 2⟩, 72057594037927936, 3318196622806772, 1561071853446, ⟨[], 0, 0⟩, 0, 0, 0, lc0⟩ 3 1 4130) (.out ⟨1872,
    16, 9853, 12742, 16, 20147, ⟨[[(0, 6741605873729536), (0, 25446007603323192), (0, 770133588980)], [(0,
    1029650631606827), (0, 143669029887223), (0, 3967026007)], [(0, 1103269459767688), (439449638861, 0), (173614075,
    0)]], 2, 2⟩, ⟨[[(0, 973685364752384), (0, 28043031353529613), (856511143628, 0)]], 2, 2⟩, 72057594037927936,
    3583783121084554, 1553647728358, ⟨[], 0, 0⟩, 0, 0, 0, lc0⟩ 3 1 4748)) (.sy (.out ⟨1716, 16, 9165, 12772, 16,
    20243, ⟨[[(0, 35020350325604352), (0, 23787192499888391), (0, 796995506048)], [(0, 11404915827868235), (0,
    134252000486928), (0, 4197056516)], [(0, 993347410041955), (434672686228, 0), (170748318, 0)]], 2, 2⟩,
    ⟨[[(19739587158736896, 0), (0, 28042881581997450), (854470933971, 0)]], 2, 2⟩, 72057594037927936,
    3414468754592831, 1546258888554, ⟨[], 0, 0⟩, 0, 0, 0, lc0⟩ 3 1 5349) (.out ⟨406, 16, 694, 12817, 16, 12468,
    ⟨[[(0, 31975557354332160)], [(156274907069756197, 0)]], 2, 2⟩, ⟨[[(35569429856911360, 0), (28075440077027673,
    0)]], 2, 2⟩, 72057594037927936, 1738, 60854, ⟨[], 0, 0⟩, 0, 0, 0, lc0⟩ 2 1 16902))) (.sy (.sy (.out ⟨1662, 16,
    8626, 12712, 16, 20051, ⟨[[(13800523676909568, 0), (0, 23854380244248333), (0, 613412715091)], [(0,
    14180182649969621), (0, 113834414984362), (1578600446, 0)], [(0, 662502035201825), (451455739673, 0), (183260425,
    0)]], 2, 2⟩, ⟨[[(0, 32110397578674176), (0, 28042862719669396), (858551349223, 0)]], 2, 2⟩, 72057594037927936,
    2588952531807072, 1561071853446, ⟨[], 0, 0⟩, 0, 0, 0, lc0⟩ 3 1 3981) (.out ⟨436, 16, 694, 12757, 16, 12468,
    ⟨[[(0, 5854679515578368)], [(156274907069756197, 0)]], 2, 2⟩, ⟨[[(0, 20743579883667456), (28075440077027673,
    0)]], 2, 2⟩, 72057594037927936, 3377, 1086, ⟨[], 0, 0⟩, 0, 0, 0, lc0⟩ 2 1 16687)) (.out ⟨436, 16, 694, 6401, 16,
    6234, ⟨[[(0, 5854679515578368)], [(156274907069756197, 0)]], 2, 2⟩, ⟨[[(10745588710834176, 0),
    (28075440077027673, 0)]], 2, 2⟩, 72057594037927936, 3377, 71864, ⟨[], 0, 0⟩, 0, 0, 0, lc0⟩ 2 1 30442))) (.out
    ⟨210, 16, 347, 3223, 16, 3117, ⟨[[(26571237801484288, 0)], [(156274907069756197, 0)]], 2, 2⟩,
    ⟨[[(26490173008183296, 0), (28075440077027673, 0)]], 2, 2⟩, 72057594037927936, 1738, 9998, ⟨[], 0, 0⟩, 0, 0, 0,
    lc0⟩ 2 1 48477)
theorem c170 : checkR job con2 true ⟨7, 9, 7, 9, 13, 17⟩ 1 28336 t170 97 7 160 4117 39 4000 = true := by decide +kernel

def t171 : CTree :=
  .sx (.sy (.leaf ⟨1197, 16, 4245, 160, 16, 1541, ⟨[[(0, 8602103389356032), (0, 24605883191356587), (0,
    163909986526), (0, 864638166), (0, 288143)], [(15854980569529303, 0), (0, 106417600110757), (12580924557, 0),
    (1269300, 0), (651, 0)], [(0, 308799672793595), (307026165361, 0), (272528177, 0), (134957, 0), (49, 0)],
    [(2587271084828, 0), (586931675, 0), (710757, 0), (377, 0)]], 3, 4⟩, ⟨[[(0, 26350961270024192), (0,
    8556013107824761), (0, 1576374802690), (0, 1004868774), (0, 361321)], [(0, 109051798659920896), (0,
    14701228783048), (0, 10933672188), (0, 5799569), (0, 1822)], [(253049023707478, 0), (113358870318, 0), (80957827,
    0), (41590, 0), (14, 0)], [(0, 227720365103), (335996594, 0), (323988, 0), (158, 0)]], 3, 4⟩, 72057594037927936,
    24658817133387, 1595220624029, ⟨[[(9249378888033, 0), (27060672572, 0), (23853332, 0), (0, 3730), (0, 94)], [(0,
    9393709604), (0, 30239503), (0, 32257), (0, 43), (1, 0)], [(12385055, 0), (18856, 0), (166, 0)], [(0, 11905), (0,
    11), (0, 1)]], 3, 4⟩, 17592186044416, 1737245,
    7404181407004433501224302908403138030755998136779139330842594202212334328486425556500454198212226778688736464751732111964623227,
    lc0⟩) (.sx (.sy (.leaf ⟨2498, 16, 9013, 312, 16, 3041, ⟨[[(0, 23028400317333504), (0, 25757403931008712), (0,
    192662071241), (0, 248861981), (0, 41232)], [(12527149651673925, 0), (0, 56948578213663), (2857481021, 0),
    (55260, 0), (23, 0)], [(0, 168898050051485), (88260852297, 0), (38286254, 0), (9433, 0), (2, 0)], [(735033600064,
    0), (107083528, 0), (58384, 0), (15, 0)]], 3, 4⟩, ⟨[[(0, 15359458045485056), (0, 8577772251871040), (0,
    847220888778), (0, 263937446), (0, 46839)], [(0, 110290688799559753), (0, 8332720853305), (0, 3107152800), (0,
    807552), (0, 126)], [(129301590504258, 0), (29387795602, 0), (10444233, 0), (2655, 0)], [(0, 48774495839),
    (50762480, 0), (23657, 0), (6, 0)]], 3, 4⟩, 72057594037927936, 3381707942593, 205523502341, ⟨[[(9394591393392,
    0), (13983304762, 0), (6317887, 0), (0, 255), (0, 8)], [(0, 4642542792), (0, 7369517), (0, 4809), (0, 3)],
    [(2899461, 0), (2133, 0), (12, 0)], [(0, 1201), (0, 1)]], 3, 4⟩, 17592186044416, 187025,
    5559097188834692133270328298572491303744950756277252225916377757700692949319639813220926821376938048058483820944667986993421013,
    lc0⟩) (.sy (.leaf ⟨4742, 16, 17255, 357, 16, 3564, ⟨[[(0, 25283461004853248), (0, 24679774716896374), (0,
    113524334783), (0, 61903659), (0, 5107)], [(17623433734369280, 0), (0, 54192212635455), (1372501129, 0), (14535,
    0), (3, 0)], [(0, 313208702783142), (88867698755, 0), (19133399, 0), (2353, 0)], [(1419571474287, 0), (109194380,
    0), (29254, 0), (4, 0)]], 3, 4⟩, ⟨[[(14360273599311872, 0), (0, 5086197586452117), (0, 262088945598), (0,
    40299273), (0, 3548)], [(0, 129842754456009106), (0, 5100850606897), (0, 952672367), (0, 122686), (0, 10)],
    [(153596628721398, 0), (17953246584, 0), (3199320, 0), (404, 0)], [(0, 53586301601), (31403412, 0), (7233, 0),
    (1, 0)]], 3, 4⟩, 72057594037927936, 6579395298726, 258168419887, ⟨[[(9389535550635, 0), (11983528999, 0),
    (4678413, 0), (55, 0), (0, 5)], [(0, 2460962262), (0, 3290069), (0, 2007), (0, 1)], [(807246, 0), (463, 0), (3,
    0)], [(0, 164)]], 3, 4⟩, 17592186044416, 96299,
    7759903693994054781169546586216534810524439391463293822957773414369969386363015639422843163118404616918512245967211885898671278,
    lc0⟩) (.sy (.out ⟨6478, 16, 31212, 50299, 16, 78417, ⟨[[(0, 25483183913893888), (0, 22333806492074654), (0,
    56298221212)], [(26152398738556265, 0), (0, 48867879048413), (621848353, 0)], [(0, 557029719047443),
    (82421598219, 0), (8841154, 0)]], 2, 2⟩, ⟨[[(0, 7984645016125440), (0, 28067752420942461), (217358747481, 0)]],
    2, 2⟩, 72057594037927936, 899544184340822, 99878545541, ⟨[], 0, 0⟩, 0, 0, 0, lc0⟩ 3 1 1239) (.out ⟨6614, 16,
    31990, 50329, 16, 78512, ⟨[[(23561197069729792, 0), (0, 22899775407440043), (0, 61145870352)],
    [(22901454814700421, 0), (0, 49986483574347), (638186130, 0)], [(0, 564269886204117), (85899872378, 0), (9192717,
    0)]], 2, 2⟩, ⟨[[(30553446007439360, 0), (0, 28067837409010846), (217228191604, 0)]], 2, 2⟩, 72057594037927936,
    924943721328376, 99758525565, ⟨[], 0, 0⟩, 0, 0, 0, lc0⟩ 3 1 1412)))) (.leaf ⟨1290, 16, 4678, 220, 16, 2344,
    ⟨[[(0, 3687779619454976), (0, 27559932159298773), (0, 361618516157), (0, 1048863406), (0, 344775)],
    [(3165393392304549, 0), (0, 56169978394100), (8304912788, 0), (1407627, 0), (609, 0)], [(0, 70585702575834),
    (98838606404, 0), (86458577, 0), (42709, 0), (15, 0)], [(342987577407, 0), (77579332, 0), (95998, 0), (51, 0)]],
    3, 4⟩, ⟨[[(31590989020327936, 0), (0, 13503033853562363), (0, 2840235722676), (0, 1741148041), (0, 611836)], [(0,
    82472345482027081), (0, 11875906447298), (0, 8904250917), (0, 4611298), (0, 1423)], [(98967456759206, 0),
    (49688764263, 0), (36071276, 0), (18209, 0), (6, 0)], [(0, 39955456639), (66868846, 0), (62974, 0), (31, 0)]], 3,
    4⟩, 72057594037927936, 1827262561130, 220958321558, ⟨[[(9083811301667, 0), (17822298607, 0), (10702578, 0),
    (1681, 0), (0, 27)], [(0, 8713016145), (0, 17900028), (0, 15121), (0, 37)], [(10750703, 0), (7060, 0), (81, 0)],
    [(0, 8368), (4, 0)]], 3, 4⟩, 17592186044416, 1759487,
    8576257724914697273554870527129156952608024809466683438398292350661891137896607705490566635564187241142786709756300878650189430,
    lc0⟩))) (.sy (.leaf ⟨1202, 16, 4254, 145, 16, 1603, ⟨[[(0, 17514473442508800), (0, 26089486974691144),
    (67467108840, 0), (0, 821251893), (0, 269764)], [(8641052025360927, 0), (0, 97782806690637), (20597171018, 0),
    (5242681, 0), (2080, 0)], [(0, 212027743467269), (321528359451, 0), (294771359, 0), (146960, 0), (53, 0)],
    [(2050145211249, 0), (62891851, 0), (311851, 0), (176, 0)]], 3, 4⟩, ⟨[[(0, 19916099436912640), (0,
    9090374015513907), (0, 1781678602436), (0, 1120867086), (0, 399425)], [(0, 106214882140564535), (0,
    11812630805975), (0, 8840686175), (0, 4736058), (0, 1462)], [(252548012745776, 0), (129676832194, 0), (95868661,
    0), (48959, 0), (16, 0)], [(0, 273209499566), (209572306, 0), (217599, 0), (106, 0)]], 3, 4⟩, 72057594037927936,
    23957763738475, 2005165763140, ⟨[[(8680343328903, 0), (24999168791, 0), (21967670, 0), (3548, 0), (0, 79)], [(0,
    8706073218), (0, 27773166), (0, 23423), (0, 137), (1, 0)], [(11927698, 0), (11736, 0), (137, 0)], [(0, 11918),
    (17, 0), (0, 1)]], 3, 4⟩, 17592186044416, 2041310,
    3425769306606456508407298896814401507225569232663122753580457611169512472986337038845428141261297329525784471743961841602330684,
    lc0⟩) (.sx (.leaf ⟨1272, 16, 4613, 207, 16, 2373, ⟨[[(32774172611706880, 0), (0, 27933158798210626), (0,
    224991092406), (0, 1006474988), (0, 328599)], [(1363524963189314, 0), (0, 52623273180763), (10626471721, 0),
    (2593779, 0), (1029, 0)], [(0, 56236777835941), (99841463824, 0), (88596664, 0), (43899, 0), (16, 0)],
    [(298452182583, 0), (36319824, 0), (64067, 0), (35, 0)]], 3, 4⟩, ⟨[[(15485931502012416, 0), (0,
    13828378126584402), (0, 2994253070306), (0, 1824352467), (0, 638355)], [(0, 80711960439500891), (0,
    10577421753546), (0, 7956862874), (0, 4135156), (0, 1265)], [(98400718423507, 0), (52836649996, 0), (38934975,
    0), (19609, 0), (6, 0)], [(0, 44912213672), (52891408, 0), (51346, 0), (25, 0)]], 3, 4⟩, 72057594037927936,
    1781904174291, 241375468549, ⟨[[(8810257139248, 0), (17279059022, 0), (10329921, 0), (3187, 0), (0, 24)], [(0,
    8559084813), (0, 17492693), (0, 12782), (0, 56)], [(10964815, 0), (4688, 0), (75, 0)], [(0, 8862), (14, 0)]], 3,
    4⟩, 17592186044416, 1905220,
    5058339166927058245251695153442917573404545993081985524962276798297990063935468144228402300234379006781150023950176758890769303,
    lc0⟩) (.sy (.leaf ⟨2489, 16, 8967, 266, 16, 3225, ⟨[[(0, 16099889165139968), (0, 27844782791759160), (0,
    1535516072), (0, 227790679), (0, 36948)], [(1813700648483855, 0), (0, 48909860214547), (6277338287, 0), (905564,
    0), (174, 0)], [(0, 90291652407646), (94286664184, 0), (42775014, 0), (10640, 0), (2, 0)], [(504550116060, 0),
    (0, 6534557), (15040, 0), (4, 0)]], 3, 4⟩, ⟨[[(0, 16048483379912704), (0, 9409496070318897), (0, 1015707040952),
    (0, 310511442), (0, 54391)], [(0, 105746551147221193), (0, 5984626775888), (0, 2253414351), (0, 592766), (0,
    90)], [(129601421240315, 0), (36133942852, 0), (13469753, 0), (3399, 0), (1, 0)], [(0, 68533231048), (24789984,
    0), (12857, 0), (3, 0)]], 3, 4⟩, 72057594037927936, 3227335235493, 287901749611, ⟨[[(8546907975733, 0),
    (12436896371, 0), (5478781, 0), (1451, 0), (0, 6)], [(0, 4208597541), (0, 6500018), (0, 2660), (0, 14)],
    [(2828717, 0), (698, 0), (9, 0)], [(0, 1266), (2, 0)]], 3, 4⟩, 17592186044416, 240002,
    4931970217259354131437101758053903000863147556304412935201729533774762645157267208543959424538730931621907072710562849635896454,
    lc0⟩) (.sx (.leaf ⟨2514, 16, 9169, 387, 16, 4791, ⟨[[(7378539555651584, 0), (0, 28303869235617467), (0,
    80154163983), (0, 248281004), (0, 40163)], [(0, 697964595660299), (0, 24858580720597), (3159102486, 0), (451359,
    0), (87, 0)], [(0, 22512452443101), (25855852587, 0), (11540455, 0), (2861, 0), (1, 0)], [(66888499965, 0),
    (827900, 0), (2577, 0), (1, 0)]], 3, 4⟩, ⟨[[(19501334951669760, 0), (0, 14188840238715305), (0, 1607136942134),
    (0, 483774002), (0, 83976)], [(0, 79595440916357577), (0, 4912981261119), (0, 1853212077), (0, 480045), (0, 72)],
    [(49467138777240, 0), (14114007814, 0), (5250561, 0), (1316, 0)], [(0, 12026257860), (5472258, 0), (2728, 0), (1,
    0)]], 3, 4⟩, 72057594037927936, 216858033735, 30542633158, ⟨[[(8608161198581, 0), (8463998258, 0), (2508395, 0),
    (621, 0), (0, 1)], [(0, 4252330002), (0, 4280573), (0, 1326), (0, 5)], [(2810711, 0), (252, 0), (4, 0)], [(0,
    1130), (2, 0)]], 3, 4⟩, 17592186044416, 193356,
    6450168113249112897013761253933813459992682415645123856638116212869143902798569644398245113328983295859231517697426587495638874,
    lc0⟩) (.sy (.leaf ⟨4952, 16, 18007, 507, 16, 6468, ⟨[[(20806389360820224, 0), (0, 28128727777024699), (0,
    9635326719), (0, 58520803), (0, 4715)], [(0, 1606465346515187), (0, 23831844135969), (1695171428, 0), (128642,
    0), (12, 0)], [(0, 39877703513369), (24925414779, 0), (5626177, 0), (699, 0)], [(121838338095, 0), (0, 1909231),
    (741, 0)]], 3, 4⟩, ⟨[[(23580236760260608, 0), (0, 9579652215307111), (0, 541214031331), (0, 81617080), (0,
    7089)], [(0, 105478172222526190), (0, 3002997980306), (0, 566647322), (0, 73861), (0, 6)], [(65707416003576, 0),
    (9528566748, 0), (1781613, 0), (223, 0)], [(0, 17237821465), (2978161, 0), (774, 0)]], 3, 4⟩, 72057594037927936,
    409650487454, 38360804404, ⟨[[(8480126374827, 0), (6203452274, 0), (1359374, 0), (261, 0)], [(0, 2118980522), (0,
    1602807), (0, 305), (0, 1)], [(721377, 0), (37, 0), (1, 0)], [(0, 154)]], 3, 4⟩, 17592186044416, 79809,
    7147135231760364428448658108010795546710126428360251217712212183284513707541189260254497838079544337834011438528555265367098775,
    lc0⟩) (.sy (.out ⟨7125, 16, 34312, 50299, 16, 78417, ⟨[[(0, 3275538143117312), (0, 26801031097187476), (0,
    9528879738)], [(0, 5706537065331307), (0, 22515335940307), (818404645, 0)], [(0, 73170805750436), (24381491551,
    0), (2739180, 0)]], 2, 2⟩, ⟨[[(0, 7984645016125440), (0, 28067752420942461), (217358747481, 0)]], 2, 2⟩,
    72057594037927936, 81231366354290, 99878545541, ⟨[], 0, 0⟩, 0, 0, 0, lc0⟩ 3 1 1344) (.out ⟨7018, 16, 33933,
    50329, 16, 78512, ⟨[[(0, 31506337493483520), (0, 26506722539009060), (0, 12731302450)], [(0, 7375363235510127),
    (0, 22139809124025), (816668683, 0)], [(0, 70465271868138), (24537854773, 0), (2748525, 0)]], 2, 2⟩,
    ⟨[[(30553446007439360, 0), (0, 28067837409010846), (217228191604, 0)]], 2, 2⟩, 72057594037927936, 80309004436047,
    99758525565, ⟨[], 0, 0⟩, 0, 0, 0, lc0⟩ 3 1 1480)))))))
theorem c171 : checkR job con2 true ⟨7, 9, 7, 9, 13, 17⟩ 1 28336 t171 111 7 160 8039 39 8000 = true := by decide +kernel

def t172 : CTree :=
  .sy (.sy (.sy (.sy (.out ⟨6758, 16, 32806, 50360, 16, 78607, ⟨[[(0, 27447809611923456), (0, 23493962761485447), (0,
    66283365525)], [(19491208096890882, 0), (0, 51159372170411), (655349482, 0)], [(0, 571734537156644),
    (89572262431, 0), (9563603, 0)]], 2, 2⟩, ⟨[[(0, 5620937096953856), (0, 28067901759751204), (217097633635, 0)]],
    2, 2⟩, 72057594037927936, 951652936442856, 99638141317, ⟨[], 0, 0⟩, 0, 0, 0, lc0⟩ 3 1 1591) (.out ⟨6908, 16,
    33663, 50390, 16, 78702, ⟨[[(3497991330004992, 0), (0, 24118601651788232), (0, 71733470305)],
    [(15909801239172071, 0), (0, 52390844514174), (673403808, 0)], [(0, 579440970922767), (93454121788, 0), (9955337,
    0)]], 2, 2⟩, ⟨[[(27612195986079744, 0), (0, 28067945547614690), (216967074152, 0)]], 2, 2⟩, 72057594037927936,
    979775610301791, 99518391391, ⟨[], 0, 0⟩, 0, 0, 0, lc0⟩ 3 1 1760)) (.out ⟨3745, 16, 18353, 25210, 16, 39410,
    ⟨[[(0, 7504649581723648), (0, 26317850121658476), (0, 168795962156)], [(5337105183093706, 0), (0,
    56954761635831), (1471721993, 0)], [(0, 309873952049842), (104469660652, 0), (22182752, 0)]], 2, 2⟩,
    ⟨[[(12026153224110080, 0), (0, 28059251044151115), (433407748477, 0)]], 2, 2⟩, 72057594037927936,
    541880101196653, 397349629041, ⟨[], 0, 0⟩, 0, 0, 0, lc0⟩ 3 1 2005)) (.sy (.out ⟨3823, 16, 18877, 25241, 16,
    39505, ⟨[[(0, 36003214967832576), (0, 27097686343690276), (0, 190948956790)], [(929395365370346, 0), (0,
    58344391516925), (1518305581, 0)], [(0, 310199786371220), (111063210308, 0), (23479451, 0)]], 2, 2⟩, ⟨[[(0,
    34039767746740224), (0, 28059237127132357), (432885992180, 0)]], 2, 2⟩, 72057594037927936, 561376217786751,
    396393523745, ⟨[], 0, 0⟩, 0, 0, 0, lc0⟩ 3 1 2287) (.out ⟨3727, 16, 18546, 25271, 16, 39600, ⟨[[(0,
    25932845012385792), (0, 26653162679376693), (0, 205069412661)], [(0, 3548881443961155), (0, 57088279291344),
    (1496419592, 0)], [(0, 296107844842281), (112766340122, 0), (23737543, 0)]], 2, 2⟩, ⟨[[(0, 13306954736205824),
    (0, 28059142209620480), (432364241947, 0)]], 2, 2⟩, 72057594037927936, 555644268571813, 395439623519, ⟨[], 0, 0⟩,
    0, 0, 0, lc0⟩ 3 1 2576))) (.sy (.sy (.out ⟨3593, 16, 18020, 25302, 16, 39696, ⟨[[(0, 7547460416798720), (0,
    25929663761874987), (0, 216662684356)], [(0, 7765966098742947), (0, 55241950605123), (1458833656, 0)], [(0,
    279021680673258), (113218031294, 0), (23733095, 0)]], 2, 2⟩, ⟨[[(0, 23943167593152512), (0, 28059673738823542),
    (431853385746, 0)]], 2, 2⟩, 72057594037927936, 544037551572536, 394498024903, ⟨[], 0, 0⟩, 0, 0, 0, lc0⟩ 3 1 2810)
    (.out ⟨3467, 16, 17524, 25332, 16, 39791, ⟨[[(0, 22540003577462784), (0, 25250168233589012), (0, 228063140025)],
    [(0, 11733837454212910), (0, 53499718764962), (1423654348, 0)], [(0, 262611919509580), (113754056317, 0),
    (23748161, 0)]], 2, 2⟩, ⟨[[(0, 13726417272963072), (0, 28059416871651079), (431331635307, 0)]], 2, 2⟩,
    72057594037927936, 533258834821071, 393548656501, ⟨[], 0, 0⟩, 0, 0, 0, lc0⟩ 3 1 3065)) (.out ⟨918, 16, 1389,
    12696, 16, 12468, ⟨[[(3039929748471808, 0)], [(156387497060440466, 0)]], 2, 2⟩, ⟨[[(0, 4998995586318336),
    (28075440077027673, 0)]], 2, 2⟩, 72057594037927936, 3330, 62952, ⟨[], 0, 0⟩, 0, 0, 0, lc0⟩ 2 1 10300))
theorem c172 : checkR job con2 true ⟨7, 9, 7, 9, 13, 17⟩ 1 28336 t172 423 7 640 8117 39 8000 = true := by decide +kernel

def t173 : CTree :=
  .sy (.sx (.sy (.sy (.sy (.out ⟨7561, 16, 36694, 50360, 16, 78607, ⟨[[(0, 18442682368393216), (0,
    26868002293945134), (0, 65244704859)], [(4676814151445311, 0), (0, 27540268580477), (481387770, 0)], [(0,
    136825599510216), (25913381725, 0), (2792459, 0)]], 2, 2⟩, ⟨[[(0, 5620937096953856), (0, 28067901759751204),
    (217097633635, 0)]], 2, 2⟩, 72057594037927936, 122275079893169, 99638141317, ⟨[], 0, 0⟩, 0, 0, 0, lc0⟩ 3 1 1648)
    (.out ⟨7634, 16, 37194, 50390, 16, 78702, ⟨[[(20361643980226560, 0), (0, 27244745669639506), (0, 70213950568)],
    [(2566102541813027, 0), (0, 27839246901112), (490149481, 0)], [(0, 136623923896220), (26711235560, 0), (2871543,
    0)]], 2, 2⟩, ⟨[[(27612195986079744, 0), (0, 28067945547614690), (216967074152, 0)]], 2, 2⟩, 72057594037927936,
    124292505913039, 99518391391, ⟨[], 0, 0⟩, 0, 0, 0, lc0⟩ 3 1 1797)) (.out ⟨3859, 16, 18912, 25210, 16, 39410,
    ⟨[[(21369057520975872, 0), (0, 27723668957712407), (0, 155454348727)], [(0, 347978149153851), (0,
    28193756480572), (1003768704, 0)], [(0, 67859837924936), (27854423584, 0), (5967720, 0)]], 2, 2⟩,
    ⟨[[(12026153224110080, 0), (0, 28059251044151115), (433407748477, 0)]], 2, 2⟩, 72057594037927936, 67412919636164,
    397349629041, ⟨[], 0, 0⟩, 0, 0, 0, lc0⟩ 3 1 2002)) (.sy (.out ⟨3773, 16, 18635, 25241, 16, 39505,
    ⟨[[(13434416098738176, 0), (0, 27342821688393078), (0, 170168211221)], [(0, 2503748287260014), (0,
    27625793323761), (998361457, 0)], [(0, 64688965670879), (28377081743, 0), (6051700, 0)]], 2, 2⟩, ⟨[[(0,
    34039767746740224), (0, 28059237127132357), (432885992180, 0)]], 2, 2⟩, 72057594037927936, 66901600970171,
    396393523745, ⟨[], 0, 0⟩, 0, 0, 0, lc0⟩ 3 1 2234) (.out ⟨3690, 16, 18367, 25271, 16, 39600, ⟨[[(0,
    19058321229840384), (0, 26977088377913620), (0, 184897408575)], [(0, 4585557159746767), (0, 27074252174226),
    (993482138, 0)], [(0, 61540419912029), (28912943370, 0), (6138274, 0)]], 2, 2⟩, ⟨[[(0, 13306954736205824), (0,
    28059142209620480), (432364241947, 0)]], 2, 2⟩, 72057594037927936, 66426873949936, 395439623519, ⟨[], 0, 0⟩, 0,
    0, 0, lc0⟩ 3 1 2520))) (.sx (.sy (.leaf ⟨2606, 16, 9619, 555, 16, 6270, ⟨[[(25994878191697920, 0), (0,
    28488449377520883), (0, 276387058722), (0, 290312897), (0, 47287)], [(0, 161622467854932), (0, 14085016640243),
    (1143220298, 0), (110442, 0), (23, 0)], [(0, 8056124706756), (7059257942, 0), (3046271, 0), (750, 0)],
    [(11003666226, 0), (1347894, 0), (813, 0)]], 3, 4⟩, ⟨[[(0, 31486115327500288), (0, 18558879536630295), (0,
    2123604315427), (0, 634558825), (0, 109759)], [(0, 55398703211114002), (0, 4271896227379), (0, 1605761341), (0,
    408393), (0, 62)], [(17021095982906, 0), (4554638222, 0), (1661318, 0), (415, 0)], [(0, 1523906778), (1516330,
    0), (699, 0)]], 3, 4⟩, 72057594037927936, 15660821221, 3605317573, ⟨[[(9060092746407, 0), (6712267436, 0),
    (1531926, 0), (225, 0), (0, 1)], [(0, 4370570812), (0, 3227872), (0, 1184), (0, 2)], [(2652999, 0), (382, 0), (3,
    0)], [(0, 850)]], 3, 4⟩, 17592186044416, 202719,
    7606280485995310788368891829396004919761183196717748816211774741765211553252948910275859649411782034511410925638096376888850246,
    lc0⟩) (.leaf ⟨2554, 16, 9537, 527, 16, 6180, ⟨[[(0, 32997257388785664), (0, 28293683648922279), (0,
    343122539245), (0, 302801146), (0, 49047)], [(0, 1242561484894792), (0, 13786080255141), (1159945094, 0),
    (116807, 0), (24, 0)], [(0, 7422786493618), (7484067702, 0), (3199132, 0), (785, 0)], [(11019104973, 0),
    (1466015, 0), (857, 0)]], 3, 4⟩, ⟨[[(0, 27318033682235392), (0, 18630634508087381), (0, 2243484827218), (0,
    659954022), (0, 113022)], [(0, 54941754065153499), (0, 4464944972350), (0, 1679176422), (0, 422083), (0, 64)],
    [(17137095117619, 0), (4752291610, 0), (1735553, 0), (430, 0)], [(0, 1381183913), (1605160, 0), (729, 0)]], 3,
    4⟩, 72057594037927936, 16167498228, 3881213525, ⟨[[(9056043501012, 0), (6844327163, 0), (1597627, 0), (351, 0),
    (0, 1)], [(0, 4505078545), (0, 3269279), (0, 1338), (0, 2)], [(2765631, 0), (192, 0), (4, 0)], [(0, 749), (1,
    0)]], 3, 4⟩, 17592186044416, 170314,
    8514741826096280582133667261099298435072889199801254108179743671090430571951514620755435739058542845424460657916892974147361501,
    lc0⟩)) (.leaf ⟨1283, 16, 4763, 319, 16, 3748, ⟨[[(0, 9775838153277440), (0, 28428305074994530), (0,
    582280878058), (0, 1172651438), (0, 380369)], [(0, 455796009852052), (0, 13656804158367), (2465171453, 0),
    (537885, 0), (217, 0)], [(0, 3624174656374), (7284703596, 0), (6276651, 0), (3088, 0), (1, 0)], [(5301040559, 0),
    (1218389, 0), (1523, 0), (1, 0)]], 3, 4⟩, ⟨[[(3054271006281728, 0), (0, 22461824915994069), (0, 5312182432087),
    (0, 3144932298), (0, 1081421)], [(0, 32929204702198267), (0, 5101231488258), (0, 3839595839), (0, 1942523), (0,
    589)], [(10244889572037, 0), (5679168924, 0), (4160205, 0), (2067, 0), (1, 0)], [(0, 909437836), (1775325, 0),
    (1634, 0), (1, 0)]], 3, 4⟩, 72057594037927936, 15893117914, 23924206259, ⟨[[(8982405804438, 0), (11199641734, 0),
    (4288918, 0), (1445, 0), (0, 5)], [(0, 8849303003), (0, 10765058), (0, 6628), (0, 19)], [(10945562, 0), (1434,
    0), (40, 0)], [(0, 6613), (10, 0)]], 3, 4⟩, 17592186044416, 1979475,
    6999622535056821683949181394504360153614508063691751527758851088645063508785085022883576238668057518771684513251517492201577926,
    lc0⟩))) (.sy (.sy (.out ⟨3364, 16, 16880, 25302, 16, 39696, ⟨[[(0, 34089663192858624), (0, 24992602363967560),
    (0, 179378062196)], [(0, 13775708183150971), (0, 48705602930171), (2007689463, 0)], [(0, 204154503662882),
    (110906260876, 0), (23509226, 0)]], 2, 2⟩, ⟨[[(0, 23943167593152512), (0, 28059673738823542), (431853385746,
    0)]], 2, 2⟩, 72057594037927936, 451950206586787, 394498024903, ⟨[], 0, 0⟩, 0, 0, 0, lc0⟩ 3 1 2710) (.out ⟨948,
    16, 1389, 25347, 16, 24937, ⟨[[(30737067456806912, 0)], [(156387497060440466, 0)]], 2, 2⟩, ⟨[[(21010418161418240,
    0), (28076565976934515, 0)]], 2, 2⟩, 72057594037927936, 3330, 171979, ⟨[], 0, 0⟩, 0, 0, 0, lc0⟩ 2 1 10718)) (.out
    ⟨948, 16, 1389, 12696, 16, 12468, ⟨[[(30737067456806912, 0)], [(156387497060440466, 0)]], 2, 2⟩, ⟨[[(0,
    4998995586318336), (28075440077027673, 0)]], 2, 2⟩, 72057594037927936, 3330, 62952, ⟨[], 0, 0⟩, 0, 0, 0, lc0⟩ 2 1
    17786))
theorem c173 : checkR job con2 true ⟨7, 9, 7, 9, 13, 17⟩ 1 28336 t173 437 7 640 8117 39 8000 = true := by decide +kernel

def t174 : CTree :=
  .sy (.sx (.sx (.leaf ⟨1260, 16, 4678, 256, 16, 3104, ⟨[[(0, 13050859230216192), (0, 28199485642185459), (0,
    518312825728), (0, 1139285790), (0, 368627)], [(0, 1180771457051774), (0, 26222248167128), (5363963750, 0),
    (1313340, 0), (517, 0)], [(0, 12958247867861), (28886464851, 0), (25009709, 0), (12318, 0), (4, 0)],
    [(39603376175, 0), (7414422, 0), (10324, 0), (5, 0)]], 3, 4⟩, ⟨[[(23565625280139264, 0), (0, 18688953919362773),
    (0, 4464662134838), (0, 2637577079), (0, 905606)], [(0, 53831618142886619), (0, 8050567588201), (0, 6066816242),
    (0, 3071984), (0, 929)], [(33742939652282, 0), (19167607666, 0), (14109108, 0), (7007, 0), (2, 0)], [(0,
    6376658840), (10727318, 0), (9973, 0), (5, 0)]], 3, 4⟩, 72057594037927936, 130426095531, 41588222081,
    ⟨[[(8873020663466, 0), (13422771344, 0), (6187116, 0), (2915, 0), (0, 11)], [(0, 8904724880), (0, 13080821), (0,
    8971), (0, 38)], [(11338413, 0), (830, 0), (57, 0)], [(0, 7091), (17, 0)]], 3, 4⟩, 17592186044416, 2399188,
    7455626966227533877581520348196040272252291640780099639073480548600153266143176182921754900084451247116909033515480220048340472,
    lc0⟩) (.sy (.leaf ⟨2491, 16, 9197, 380, 16, 4705, ⟨[[(35425551195570176, 0), (0, 28059981168657602), (0,
    183662075844), (0, 268031713), (0, 43317)], [(0, 2011357366539253), (0, 25208674743952), (2936303559, 0),
    (396152, 0), (77, 0)], [(0, 23416389704827), (27681571500, 0), (12127247, 0), (2995, 0), (1, 0)], [(72355048961,
    0), (4098159, 0), (3851, 0), (1, 0)]], 3, 4⟩, ⟨[[(35823056050892800, 0), (0, 14114681929131556), (0,
    1664390743272), (0, 494214420), (0, 85101)], [(0, 79952243200829221), (0, 5525124820220), (0, 2084207146), (0,
    531733), (0, 80)], [(50155129093671, 0), (14423881675, 0), (5338718, 0), (1329, 0)], [(0, 10666886442), (6822459,
    0), (3254, 0), (1, 0)]], 3, 4⟩, 72057594037927936, 229359686409, 32793389563, ⟨[[(8740408387968, 0), (8751928933,
    0), (2647482, 0), (822, 0), (0, 2)], [(0, 4413624426), (0, 4356575), (0, 1683), (0, 6)], [(2892091, 0), (108, 0),
    (6, 0)], [(0, 1012), (2, 0)]], 3, 4⟩, 17592186044416, 219532,
    7187903787483645382529676379033376412000941079929505119415135540016645523869839365850260354508514628778851239828047173314858422,
    lc0⟩) (.out ⟨1973, 16, 2778, 12635, 16, 12468, ⟨[[(0, 13398208891420672)], [(156387497060440466, 0)]], 2, 2⟩,
    ⟨[[(10745588710899712, 0), (28075440077027673, 0)]], 2, 2⟩, 72057594037927936, 6607, 6328, ⟨[], 0, 0⟩, 0, 0, 0,
    lc0⟩ 2 1 7889))) (.sy (.sx (.sy (.sy (.out ⟨7080, 16, 34370, 50360, 16, 78607, ⟨[[(33596367453487104, 0), (0,
    26533266253313897), (0, 27421073327)], [(0, 7130621643841013), (0, 23003899935746), (755876404, 0)], [(0,
    79558991645389), (25303955700, 0), (2803463, 0)]], 2, 2⟩, ⟨[[(0, 5620937096953856), (0, 28067901759751204),
    (217097633635, 0)]], 2, 2⟩, 72057594037927936, 87849043945847, 99638141317, ⟨[], 0, 0⟩, 0, 0, 0, lc0⟩ 3 1 1586)
    (.out ⟨6972, 16, 33979, 50390, 16, 78702, ⟨[[(0, 34558939833303040), (0, 26235919461324633), (0, 30602758588)],
    [(0, 8818834737653007), (0, 22625130049630), (753673273, 0)], [(0, 76685713486598), (25451602510, 0), (2811979,
    0)]], 2, 2⟩, ⟨[[(27612195986079744, 0), (0, 28067945547614690), (216967074152, 0)]], 2, 2⟩, 72057594037927936,
    86899270871140, 99518391391, ⟨[], 0, 0⟩, 0, 0, 0, lc0⟩ 3 1 1735)) (.out ⟨2003, 16, 2778, 25226, 16, 24937,
    ⟨[[(14298928816898048, 0)], [(156387497060440485, 0)]], 2, 2⟩, ⟨[[(0, 19909288052654080), (28076565976934515,
    0)]], 2, 2⟩, 72057594037927936, 3357, 44053, ⟨[], 0, 0⟩, 0, 0, 0, lc0⟩ 2 1 4180)) (.sy (.sy (.out ⟨6913, 16,
    33565, 50360, 16, 78607, ⟨[[(5428973877657600, 0), (0, 26221482200451125), (0, 15906285594)], [(0,
    8998625612063600), (0, 21773115933416), (815144090, 0)], [(0, 67791266035254), (24698954821, 0), (2758434, 0)]],
    2, 2⟩, ⟨[[(0, 5620937096953856), (0, 28067901759751204), (217097633635, 0)]], 2, 2⟩, 72057594037927936,
    79415001979031, 99638141317, ⟨[], 0, 0⟩, 0, 0, 0, lc0⟩ 3 1 1551) (.out ⟨2034, 16, 2778, 50406, 16, 49874, ⟨[[(0,
    30061527512694784)], [(156387497060440485, 0)]], 2, 2⟩, ⟨[[(0, 10127469661650944), (28076565976934515, 0)]], 2,
    2⟩, 72057594037927936, 3357, 398472, ⟨[], 0, 0⟩, 0, 0, 0, lc0⟩ 2 1 3834)) (.out ⟨2034, 16, 2778, 25226, 16,
    24937, ⟨[[(0, 30061527512694784)], [(156387497060440485, 0)]], 2, 2⟩, ⟨[[(0, 19909288052654080),
    (28076565976934515, 0)]], 2, 2⟩, 72057594037927936, 3357, 44053, ⟨[], 0, 0⟩, 0, 0, 0, lc0⟩ 2 1 7380))) (.out
    ⟨1009, 16, 1389, 12635, 16, 12468, ⟨[[(14073748835532800, 0)], [(156387497060440466, 0)]], 2, 2⟩,
    ⟨[[(10745588710899712, 0), (28075440077027673, 0)]], 2, 2⟩, 72057594037927936, 54, 6328, ⟨[], 0, 0⟩, 0, 0, 0,
    lc0⟩ 2 1 12683))) (.out ⟨497, 16, 694, 6340, 16, 6234, ⟨[[(0, 25670517876015104)], [(156274907069756197, 0)]], 2,
    2⟩, ⟨[[(26490173008183296, 0), (28075440077027673, 0)]], 2, 2⟩, 72057594037927936, 3377, 9998, ⟨[], 0, 0⟩, 0, 0,
    0, lc0⟩ 2 1 23534)
theorem c174 : checkR job con2 true ⟨7, 9, 7, 9, 13, 17⟩ 1 28336 t174 229 7 320 8117 39 8000 = true := by decide +kernel

def t175 : CTree :=
  .leaf ⟨1191, 16, 4211, 130, 16, 1669, ⟨[[(0, 16374282495574016), (0, 27118714832915315), (409980040392, 0), (0,
    711450326), (0, 227810)], [(3769010395356253, 0), (0, 87953513051487), (28657903122, 0), (9323494, 0), (3550,
    0)], [(0, 135427844126306), (309343492897, 0), (295860079, 0), (148286, 0), (54, 0)], [(1522848326626, 0), (0,
    490057647), (0, 117377), (0, 42)]], 3, 4⟩, ⟨[[(0, 7189290876571648), (0, 9609875023408389), (0, 1963800454097),
    (0, 1225797899), (0, 433752)], [(0, 103401199437231451), (0, 8419031539938), (0, 6300924660), (0, 3450545), (0,
    1026)], [(250095210022028, 0), (141101483643, 0), (106734654, 0), (54355, 0), (18, 0)], [(0, 327917293871),
    (72276962, 0), (103694, 0), (51, 0)]], 3, 4⟩, 72057594037927936, 22085315221009, 2169833098136,
    ⟨[[(8176251972920, 0), (23137005558, 0), (19891939, 0), (7722, 0), (0, 43)], [(0, 8210651403), (0, 26214870), (0,
    11263), (0, 204), (1, 0)], [(11938624, 0), (6984, 0), (87, 0), (1, 0)], [(0, 12908), (41, 0), (0, 1)]], 3, 4⟩,
    17592186044416, 2003360,
    6992307439147744248942660953416377175535946072860513786781647436526530251260769219752611053509824753668262740015273990992196404,
    lc0⟩
theorem c175 : checkR job con2 true ⟨7, 9, 7, 9, 13, 17⟩ 1 28336 t175 243 7 320 16039 39 16000 = true := by decide +kernel

def t176 : CTree :=
  .leaf ⟨2288, 16, 8037, 144, 16, 2127, ⟨[[(6781152115326976, 0), (0, 27030788482621752), (429658730198, 0), (0,
    128633955), (0, 19569)], [(4481179411596449, 0), (0, 77400387104894), (17184719155, 0), (3106411, 0), (585, 0)],
    [(0, 165207763926572), (254161850034, 0), (130618831, 0), (32922, 0), (6, 0)], [(2073713712937, 0), (0,
    970834175), (0, 251937), (0, 60)]], 3, 4⟩, ⟨[[(9120412577779712, 0), (0, 6131346762050711), (0, 623823529001),
    (0, 195792807), (0, 34619)], [(0, 122999431944961353), (0, 2757680268179), (0, 1008032150), (0, 297998), (0,
    40)], [(296543714852880, 0), (87312748957, 0), (33593274, 0), (8578, 0), (1, 0)], [(0, 471589914597), (0,
    41636546), (0, 3632), (0, 1)]], 3, 4⟩, 72057594037927936, 35433513953940, 2316628742850, ⟨[[(7728591783870, 0),
    (17470806053, 0), (11974732, 0), (3664, 0), (0, 1)], [(0, 3974046035), (0, 10664526), (349, 0), (0, 61)],
    [(3162393, 0), (1325, 0), (4, 0)], [(0, 1965), (6, 0)]], 3, 4⟩, 17592186044416, 632514,
    4165913609564219068359032403364049803694390205365238075585478838817710781553142799770139234669301972476080762098189597127932956,
    lc0⟩
theorem c176 : checkR job con2 true ⟨7, 9, 7, 9, 13, 17⟩ 1 28336 t176 257 7 320 32039 39 32000 = true := by decide +kernel

def t177 : CTree :=
  .leaf ⟨4644, 16, 16469, 156, 16, 2378, ⟨[[(0, 20509921554202624), (0, 27644902809661552), (208335418295, 0), (0,
    34141138), (0, 2590)], [(26015947610236, 0), (0, 77209230550030), (9089026239, 0), (831429, 0), (78, 0)], [(0,
    307137779475455), (276416816536, 0), (69938191, 0), (8800, 0), (1, 0)], [(4131175177571, 0), (0, 1025531483), (0,
    134562), (0, 16)]], 3, 4⟩, ⟨[[(0, 33465435243974656), (0, 3469382501430916), (0, 184164772830), (0, 28513599),
    (0, 2502)], [(0, 137698460181725513), (0, 1609209310717), (0, 296595300), (0, 42967), (0, 3)], [(337378844706030,
    0), (51055113513, 0), (9818565, 0), (1247, 0)], [(0, 529977897227), (0, 23517683), (0, 1060)]], 3, 4⟩,
    72057594037927936, 74309744134482, 2748111196721, ⟨[[(7737483655481, 0), (15738812764, 0), (9521465, 0), (3660,
    0), (0, 1)], [(0, 1984322796), (0, 4678661), (409, 0), (0, 25)], [(782751, 0), (187, 0), (1, 0)], [(0, 233), (1,
    0)]], 3, 4⟩, 17592186044416, 257619,
    7391483873235884673148731623165089289846137833513368382334558812898357602807744028045226603507610043952134549516046804153388290,
    lc0⟩
theorem c177 : checkR job con2 true ⟨7, 9, 7, 9, 13, 17⟩ 1 28336 t177 257 7 320 64195 39 64000 = true := by decide +kernel

def t178 : CTree :=
  .sy (.leaf ⟨9366, 16, 33378, 316, 16, 4716, ⟨[[(26171785722331136, 0), (0, 27716233958617364), (86562964841, 0),
    (0, 9529545), (0, 367)], [(0, 2299787657784972), (0, 39605418913512), (2211992255, 0), (99605, 0), (5, 0)], [(0,
    170115858587627), (74712263162, 0), (9221878, 0), (579, 0)], [(1141896594079, 0), (0, 114592650), (0, 7019)]], 3,
    4⟩, ⟨[[(17311077585592320, 0), (0, 3455519851516331), (0, 93225723437), (0, 7173072), (0, 314)], [(0,
    139016641587601134), (0, 996839946334), (0, 92832642), (0, 6512)], [(171492271729942, 0), (12989881914, 0),
    (1244133, 0), (79, 0)], [(0, 127691305712), (0, 1394422), (92, 0)]], 3, 4⟩, 72057594037927936, 9800707103765,
    356748246676, ⟨[[(7836031613328, 0), (8021941981, 0), (2429417, 0), (539, 0)], [(0, 1004541813), (0, 1165468),
    (14, 0), (0, 2)], [(194553, 0), (18, 0)], [(0, 28)]], 3, 4⟩, 17592186044416, 58411,
    7200564710361150757635963752020742732240526254410429303244780344110329526538075292799940082810921044900499386172843690006097219,
    lc0⟩) (.sx (.leaf ⟨9502, 16, 33968, 567, 16, 8377, ⟨[[(0, 26105158376620032), (0, 28051801948349131),
    (77964570240, 0), (0, 10167919), (0, 394)], [(0, 2128747419902171), (0, 20249618841063), (1104032041, 0), (49329,
    0), (2, 0)], [(0, 44886845436042), (19674138256, 0), (2398790, 0), (150, 0)], [(151438044997, 0), (0, 13586133),
    (0, 795)]], 3, 4⟩, ⟨[[(9392539362377728, 0), (0, 6157508821217163), (0, 167984046657), (0, 12873772), (0, 562)],
    [(0, 124613404119921426), (0, 980318607849), (0, 91655956), (0, 6342)], [(77199454777102, 0), (5859874290, 0),
    (560099, 0), (35, 0)], [(0, 27907454923), (0, 129880), (39, 0)]], 3, 4⟩, 72057594037927936, 639538309735,
    41094469893, ⟨[[(7891207128416, 0), (4543949667, 0), (771642, 0), (104, 0)], [(0, 1001939280), (0, 645229), (0,
    2)], [(190230, 0), (8, 0)], [(0, 26)]], 3, 4⟩, 17592186044416, 27829,
    7687162984459652599278509044556349167329300354572890916388063360511341434000460966437240584733098294654324370651593901181564932,
    lc0⟩) (.sy (.sy (.out ⟨26646, 16, 124546, 200343, 16, 310948, ⟨[[(10313557838921728, 0), (0, 25974884502151831),
    (21705182476, 0)], [(0, 9980281920808949), (0, 18127077805852), (267202256, 0)], [(0, 144420146495952),
    (17341340618, 0), (538025, 0)]], 2, 2⟩, ⟨[[(25713558838837248, 0), (0, 28073929551769246), (54594853890, 0)]], 2,
    2⟩, 72057594037927936, 175254711655989, 6300081309, ⟨[], 0, 0⟩, 0, 0, 0, lc0⟩ 3 1 441) (.out ⟨26385, 16, 123455,
    200374, 16, 311043, ⟨[[(0, 10162045530669056), (0, 25744002713559529), (21389873526, 0)], [(0,
    11292770097216610), (0, 17926914305177), (265570108, 0)], [(0, 141811028162003), (17272783371, 0), (535275, 0)]],
    2, 2⟩, ⟨[[(12352401191206912, 0), (0, 28073989162293990), (54586689822, 0)]], 2, 2⟩, 72057594037927936,
    173342755415226, 6298395569, ⟨[], 0, 0⟩, 0, 0, 0, lc0⟩ 3 1 465)) (.sy (.out ⟨26129, 16, 122386, 200404, 16,
    311137, ⟨[[(0, 16728276954513408), (0, 25517786512702205), (21080196178, 0)], [(0, 12579573952429575), (0,
    17730559543033), (263975449, 0)], [(0, 139244239479708), (17206149922, 0), (532592, 0)]], 2, 2⟩,
    ⟨[[(23962905248530432, 0), (0, 28073957215364857), (54578350235, 0)]], 2, 2⟩, 72057594037927936, 171467400969344,
    6294598829, ⟨[], 0, 0⟩, 0, 0, 0, lc0⟩ 3 1 490) (.out ⟨25877, 16, 121337, 200434, 16, 311231,
    ⟨[[(30855443726991360, 0), (0, 25295816718829621), (20775749566, 0)], [(0, 13841287457285127), (0,
    17537704747091), (262414274, 0)], [(0, 136716950573677), (17141195552, 0), (529970, 0)]], 2, 2⟩,
    ⟨[[(34914382836137984, 0), (0, 28073923997109350), (54570010705, 0)]], 2, 2⟩, 72057594037927936, 169625573995474,
    6294065517, ⟨[], 0, 0⟩, 0, 0, 0, lc0⟩ 3 1 509))))
theorem c178 : checkR job con2 true ⟨7, 9, 7, 9, 13, 17⟩ 1 28336 t178 507 7 640 64273 39 64000 = true := by decide +kernel

def t179 : CTree :=
  .sy (.sx (.sy (.leaf ⟨18379, 16, 65448, 610, 16, 9688, ⟨[[(34148145074012160, 0), (0, 27577185496140167),
    (54554024887, 0), (0, 2057823), (0, 39)], [(0, 4676048162586834), (0, 18711458209415), (587394233, 0), (13628,
    0)], [(0, 67713982528515), (17241535852, 0), (1094148, 0), (34, 0)], [(240278344279, 0), (0, 17168987), (0,
    582)]], 3, 4⟩, ⟨[[(35529654598008832, 0), (0, 3554831023411206), (0, 48091216954), (0, 1850949), (0, 40)], [(0,
    139120274433653705), (0, 370886793410), (0, 17055160), (0, 622)], [(85829760058823, 0), (3302586845, 0), (159037,
    0), (5, 0)], [(0, 34313163203), (0, 472198), (0, 9)]], 3, 4⟩, 72057594037927936, 1121758244581, 43327023558,
    ⟨[[(7676997823809, 0), (3856124126, 0), (568503, 0), (61, 0)], [(0, 499556684), (0, 289856), (13, 0)], [(50360,
    0), (2, 0)], [(0, 4)]], 3, 4⟩, 17592186044416, 11487,
    7047094222389211825518751827134786403424821694795886028848997312127039936631547113064401160643955869695198740018932463251861635,
    lc0⟩) (.sy (.out ⟨26314, 16, 122741, 200283, 16, 310760, ⟨[[(0, 25051220701609984), (0, 25853123763313526),
    (25407921492, 0)], [(0, 10818520778164631), (0, 17481133849803), (276523832, 0)], [(0, 125092000508734),
    (16287736259, 0), (515830, 0)]], 2, 2⟩, ⟨[[(0, 819370284548096), (0, 28073987023730439), (54611533173, 0)]], 2,
    2⟩, 72057594037927936, 156270905172015, 6303609403, ⟨[], 0, 0⟩, 0, 0, 0, lc0⟩ 3 1 380) (.out ⟨26064, 16, 121707,
    200313, 16, 310854, ⟨[[(16750362670661632, 0), (0, 25631409301004180), (25081291019, 0)], [(0,
    12077754965315102), (0, 17291036009160), (274941030, 0)], [(0, 122775338515363), (16230462906, 0), (513369, 0)]],
    2, 2⟩, ⟨[[(12777058690138112, 0), (0, 28073958925163425), (54603193506, 0)]], 2, 2⟩, 72057594037927936,
    154532245702976, 6300964282, ⟨[], 0, 0⟩, 0, 0, 0, lc0⟩ 3 1 398))) (.sy (.sy (.out ⟨26058, 16, 121299, 200222, 16,
    310571, ⟨[[(0, 3337627197767680), (0, 25797234285905201), (29236400145, 0)], [(0, 11268253210916178), (0,
    16924246277882), (285796328, 0)], [(0, 108385697285106), (15230517155, 0), (493751, 0)]], 2, 2⟩, ⟨[[(0,
    4390414626848768), (0, 28073948997097515), (54628036756, 0)]], 2, 2⟩, 72057594037927936, 139086865457679,
    6308336606, ⟨[], 0, 0⟩, 0, 0, 0, lc0⟩ 3 1 317) (.out ⟨25818, 16, 120312, 200252, 16, 310665,
    ⟨[[(16375249402331136, 0), (0, 25582808341079408), (28898476305, 0)], [(0, 12484187870903563), (0,
    16742252510397), (284254848, 0)], [(0, 106322474728134), (15183127014, 0), (491541, 0)]], 2, 2⟩,
    ⟨[[(10533823221596160, 0), (0, 28073923479114079), (54619697074, 0)]], 2, 2⟩, 72057594037927936, 137489436234156,
    6307171072, ⟨[], 0, 0⟩, 0, 0, 0, lc0⟩ 3 1 336)) (.sy (.out ⟨25583, 16, 119344, 200283, 16, 310760,
    ⟨[[(2376222148395008, 0), (0, 25372511386290524), (28566458637, 0)], [(0, 13677414959624955), (0,
    16563500747237), (282748348, 0)], [(0, 104289305341157), (15137171122, 0), (489386, 0)]], 2, 2⟩, ⟨[[(0,
    819370284548096), (0, 28073987023730439), (54611533173, 0)]], 2, 2⟩, 72057594037927936, 135919955973633,
    6303609403, ⟨[], 0, 0⟩, 0, 0, 0, lc0⟩ 3 1 357) (.out ⟨25352, 16, 118394, 200313, 16, 310854,
    ⟨[[(10337936236347392, 0), (0, 25166128393550904), (28240067239, 0)], [(0, 14848500996978073), (0,
    16387834052006), (281274764, 0)], [(0, 102284885339284), (15092552565, 0), (487281, 0)]], 2, 2⟩,
    ⟨[[(12777058690138112, 0), (0, 28073958925163425), (54603193506, 0)]], 2, 2⟩, 72057594037927936, 134377208403937,
    6300964282, ⟨[], 0, 0⟩, 0, 0, 0, lc0⟩ 3 1 377)))) (.sx (.sy (.sy (.out ⟨25820, 16, 120693, 200343, 16, 310948,
    ⟨[[(0, 31215717189419008), (0, 25413990255310539), (24760349984, 0)], [(0, 13312933153705856), (0,
    17104384619222), (273393538, 0)], [(0, 120493907905297), (16174803676, 0), (510968, 0)]], 2, 2⟩,
    ⟨[[(25713558838837248, 0), (0, 28073929551769246), (54594853890, 0)]], 2, 2⟩, 72057594037927936, 152825032324100,
    6300081309, ⟨[], 0, 0⟩, 0, 0, 0, lc0⟩ 3 1 427) (.out ⟨25579, 16, 119698, 200374, 16, 311043,
    ⟨[[(30830126109294592, 0), (0, 25200653777349960), (24444845864, 0)], [(0, 14524672715385705), (0,
    16921019641447), (271879397, 0)], [(0, 118246228648901), (16120657108, 0), (508623, 0)]], 2, 2⟩,
    ⟨[[(12352401191206912, 0), (0, 28073989162293990), (54586689822, 0)]], 2, 2⟩, 72057594037927936, 151147740787647,
    6298395569, ⟨[], 0, 0⟩, 0, 0, 0, lc0⟩ 3 1 440)) (.sy (.out ⟨25344, 16, 118721, 200404, 16, 311137, ⟨[[(0,
    29612062451695616), (0, 24991187161214133), (24134529572, 0)], [(0, 15713543934349170), (0, 16740782353799),
    (270396621, 0)], [(0, 116030857337989), (16067919344, 0), (506330, 0)]], 2, 2⟩, ⟨[[(23962905248530432, 0), (0,
    28073957215364857), (54578350235, 0)]], 2, 2⟩, 72057594037927936, 149498945862015, 6294598829, ⟨[], 0, 0⟩, 0, 0,
    0, lc0⟩ 3 1 469) (.out ⟨25112, 16, 117763, 200434, 16, 311231, ⟨[[(18101019262320640, 0), (0, 24785798786325763),
    (23829560185, 0)], [(0, 16880356951014670), (0, 16563796667099), (268947772, 0)], [(0, 113848321185810),
    (16016756125, 0), (504094, 0)]], 2, 2⟩, ⟨[[(34914382836137984, 0), (0, 28073923997109350), (54570010705, 0)]], 2,
    2⟩, 72057594037927936, 147879773275248, 6294065517, ⟨[], 0, 0⟩, 0, 0, 0, lc0⟩ 3 1 485))) (.sy (.sy (.out ⟨25125,
    16, 117461, 200343, 16, 310948, ⟨[[(23942124319277056, 0), (0, 24963444496993024), (27919025313, 0)], [(0,
    15997966359051209), (0, 16215096869130), (279832009, 0)], [(0, 100307945749252), (15049172096, 0), (485225, 0)]],
    2, 2⟩, ⟨[[(25713558838837248, 0), (0, 28073929551769246), (54594853890, 0)]], 2, 2⟩, 72057594037927936,
    132859782912993, 6300081309, ⟨[], 0, 0⟩, 0, 0, 0, lc0⟩ 3 1 397) (.out ⟨24903, 16, 116546, 200374, 16, 311043,
    ⟨[[(0, 14326816305315840), (0, 24764669968374252), (27603532886, 0)], [(0, 17126579456975534), (0,
    16045410382472), (278422750, 0)], [(0, 98358940779488), (15007185647, 0), (483221, 0)]], 2, 2⟩,
    ⟨[[(12352401191206912, 0), (0, 28073989162293990), (54586689822, 0)]], 2, 2⟩, 72057594037927936, 131368690830733,
    6298395569, ⟨[], 0, 0⟩, 0, 0, 0, lc0⟩ 3 1 419)) (.sy (.out ⟨24684, 16, 115647, 200404, 16, 311137,
    ⟨[[(7981638094422016, 0), (0, 24569377589549345), (27293078376, 0)], [(0, 18234675877324322), (0,
    15878482286665), (277042496, 0)], [(0, 96435778200924), (14966363710, 0), (481262, 0)]], 2, 2⟩,
    ⟨[[(23962905248530432, 0), (0, 28073957215364857), (54578350235, 0)]], 2, 2⟩, 72057594037927936, 129901477094639,
    6294598829, ⟨[], 0, 0⟩, 0, 0, 0, lc0⟩ 3 1 436) (.out ⟨2277, 16, 2778, 200451, 16, 199494, ⟨[[(0,
    24657207959846912)], [(156387497060440448, 0)]], 2, 2⟩, ⟨[[(24313527013474304, 0), (28076284501957803, 0)]], 2,
    2⟩, 72057594037927936, 6733, 184590, ⟨[], 0, 0⟩, 0, 0, 0, lc0⟩ 2 1 1683))))
theorem c179 : checkR job con2 true ⟨7, 9, 7, 9, 13, 17⟩ 1 28336 t179 521 7 640 64273 39 64000 = true := by decide +kernel

def t180 : CTree :=
  .sy (.leaf ⟨4896, 16, 17583, 306, 16, 3976, ⟨[[(0, 35342611008913408), (0, 27956934523000189), (52524367819, 0),
    (0, 51563298), (0, 4136)], [(928062087622592, 0), (0, 45660439349906), (3632908184, 0), (291102, 0), (28, 0)],
    [(0, 142009989168756), (89708822225, 0), (20813270, 0), (2597, 0)], [(849937074244, 0), (0, 45905078), (0,
    251)]], 3, 4⟩, ⟨[[(0, 5182907973763072), (0, 5822688544294346), (0, 316260766156), (0, 48363624), (0, 4232)],
    [(0, 125830512945662409), (0, 3013048418100), (0, 567320495), (0, 75550), (0, 6)], [(155186550294830, 0),
    (22457390074, 0), (4228895, 0), (534, 0)], [(0, 92685143549), (9070512, 0), (2677, 0)]], 3, 4⟩,
    72057594037927936, 5971898608069, 339567687553, ⟨[[(8295243747538, 0), (9889857247, 0), (3537655, 0), (899, 0),
    (0, 2)], [(0, 2065197251), (0, 2652400), (0, 587), (0, 4)], [(725073, 0), (101, 0), (1, 0)], [(0, 175)]], 3, 4⟩,
    17592186044416, 92628,
    6518566138781913529775886034404474959680965130383671425954271481780193796888653063095330393983359742465540159858651381778952734,
    lc0⟩) (.sx (.leaf ⟨4950, 16, 17890, 505, 16, 6563, ⟨[[(21894993268899840, 0), (0, 28275967012418622),
    (28093887364, 0), (0, 54825921), (0, 4402)], [(0, 832019276768258), (0, 23269784106641), (1807034843, 0),
    (143021, 0), (14, 0)], [(0, 36617379018967), (23766093351, 0), (5448912, 0), (679, 0)], [(112118072030, 0), (0,
    4561933), (219, 0)]], 3, 4⟩, ⟨[[(0, 22715916121722880), (0, 9675758374893228), (0, 537505797535), (0, 81577737),
    (0, 7109)], [(0, 104957756163966976), (0, 2694247770018), (0, 508062092), (0, 66970), (0, 5)], [(65167459277870,
    0), (9499219604, 0), (1784721, 0), (225, 0)], [(0, 18555360004), (2271633, 0), (633, 0)]], 3, 4⟩,
    72057594037927936, 391360731735, 37066732323, ⟨[[(8359244153076, 0), (6040993672, 0), (1305401, 0), (231, 0)],
    [(0, 2074194010), (0, 1582472), (0, 239), (0, 1)], [(715957, 0), (43, 0)], [(0, 163)]], 3, 4⟩, 17592186044416,
    70612,
    7070148758128761037909380212052953755312886506684825105694922132306833587684437914070143418063718968457885141409132755655375008,
    lc0⟩) (.sy (.leaf ⟨9682, 16, 34936, 595, 16, 8016, ⟨[[(0, 23242746684112896), (0, 27924667071920971),
    (28088160542, 0), (0, 12782157), (0, 510)], [(0, 2639327247255389), (0, 22148681435658), (952094746, 0), (39264,
    0), (2, 0)], [(0, 63569644607921), (22759161691, 0), (2640278, 0), (165, 0)], [(201825078397, 0), (0, 6947038),
    (0, 134)]], 3, 4⟩, ⟨[[(0, 4788552171880448), (0, 5917939108861963), (0, 164722812881), (0, 12505996), (0, 545)],
    [(0, 125921904175594642), (0, 1471334502985), (0, 138690890), (0, 9205)], [(78394320073875, 0), (5808473627, 0),
    (548201, 0), (35, 0)], [(0, 23727125689), (994427, 0), (153, 0)]], 3, 4⟩, 72057594037927936, 739889799365,
    44022919585, ⟨[[(8235597021667, 0), (4897764860, 0), (865462, 0), (132, 0)], [(0, 1041913013), (0, 660109), (0,
    60)], [(186534, 0), (7, 0)], [(0, 22)]], 3, 4⟩, 17592186044416, 39361,
    7784862784604970426855375298245284586946621010500597561834491243581755898881528716449048022092826228432027507275529832364182658,
    lc0⟩) (.sy (.out ⟨13922, 16, 66174, 100416, 16, 156243, ⟨[[(0, 35883626138304512), (0, 26443756603362051),
    (12233549998, 0)], [(0, 7447338417028825), (0, 20870572087517), (454133523, 0)], [(0, 117871329243764),
    (21848794987, 0), (1264026, 0)]], 2, 2⟩, ⟨[[(0, 12769121728987136), (0, 28072094018703199), (108909988240, 0)]],
    2, 2⟩, 72057594037927936, 132542738920853, 25068553880, ⟨[], 0, 0⟩, 0, 0, 0, lc0⟩ 3 1 940) (.out ⟨13752, 16,
    65504, 100446, 16, 156338, ⟨[[(15535147152703488, 0), (0, 26174184457748385), (11399903219, 0)], [(0,
    8980618418033735), (0, 20588963475066), (451720705, 0)], [(0, 114983320729617), (21823484807, 0), (1260385, 0)]],
    2, 2⟩, ⟨[[(34727619080486912, 0), (0, 28072170041665687), (108877335491, 0)]], 2, 2⟩, 72057594037927936,
    131035223178070, 25054474355, ⟨[], 0, 0⟩, 0, 0, 0, lc0⟩ 3 1 994))))
theorem c180 : checkR job con2 true ⟨7, 9, 7, 9, 13, 17⟩ 1 28336 t180 479 7 640 32195 39 32000 = true := by decide +kernel

def t181 : CTree :=
  .sy (.sx (.leaf ⟨4871, 16, 17494, 487, 16, 6727, ⟨[[(0, 24396224460947456), (0, 28282653547351266), (92492086124,
    0), (0, 47976406), (0, 3801)], [(0, 887615700920266), (0, 21786648195396), (2024340659, 0), (171925, 0), (16,
    0)], [(0, 29061368330475), (21839009670, 0), (5152800, 0), (644, 0)], [(93145726449, 0), (0, 9359270), (0,
    737)]], 3, 4⟩, ⟨[[(0, 1639448863653888), (0, 9900737000198333), (0, 544366841609), (0, 83068456), (0, 7252)],
    [(0, 103715997529879131), (0, 2147805448227), (0, 404134682), (0, 54347), (0, 4)], [(64366820714458, 0),
    (9590702308, 0), (1818348, 0), (229, 0)], [(0, 20819028211), (998398, 0), (375, 0)]], 3, 4⟩, 72057594037927936,
    357884397740, 35857644783, ⟨[[(8117264691888, 0), (5770365957, 0), (1217607, 0), (210, 0)], [(0, 2027782087), (0,
    1565704), (0, 117), (0, 1)], [(731097, 0), (38, 0)], [(0, 183)]], 3, 4⟩, 17592186044416, 58801,
    8096948194336417071294573353325785888513806920696672516247089599955457106548218373223013015775986250032390550136019414917952604,
    lc0⟩) (.sy (.sy (.out ⟨14131, 16, 66352, 100233, 16, 155676, ⟨[[(0, 10064268704219136), (0, 27109970628423792),
    (29823572073, 0)], [(0, 3894362723006571), (0, 20203985607402), (510023800, 0)], [(0, 98392963156631),
    (20004928934, 0), (1198576, 0)]], 2, 2⟩, ⟨[[(29478275608739840, 0), (0, 28072068551769974), (109107994387, 0)]],
    2, 2⟩, 72057594037927936, 112685520979963, 25159378220, ⟨[], 0, 0⟩, 0, 0, 0, lc0⟩ 3 1 588) (.out ⟨13965, 16,
    65708, 100264, 16, 155770, ⟨[[(0, 25183883057430528), (0, 26842287376016154), (28913841946, 0)], [(0,
    5414102047607865), (0, 19928896355061), (507662597, 0)], [(0, 95885500925659), (19996607728, 0), (1195668, 0)]],
    2, 2⟩, ⟨[[(0, 33462475459395584), (0, 28071995594363438), (109074643383, 0)]], 2, 2⟩, 72057594037927936,
    111306114664181, 25144267372, ⟨[], 0, 0⟩, 0, 0, 0, lc0⟩ 3 1 630)) (.sy (.out ⟨13802, 16, 65079, 100294, 16,
    155865, ⟨[[(14149617659412480, 0), (0, 26580916207004272), (28018958445, 0)], [(0, 6898784101042719), (0,
    19659485426302), (505385914, 0)], [(0, 93415595109773), (19990603694, 0), (1192924, 0)]], 2, 2⟩,
    ⟨[[(20705747954302976, 0), (0, 28072097676720282), (109041992506, 0)]], 2, 2⟩, 72057594037927936,
    109956567500666, 25129715483, ⟨[], 0, 0⟩, 0, 0, 0, lc0⟩ 3 1 685) (.out ⟨13643, 16, 64464, 100324, 16, 155959,
    ⟨[[(19176953199067136, 0), (0, 26325443488280622), (27138161752, 0)], [(0, 8349488072423846), (0,
    19395406302066), (503187304, 0)], [(0, 90981074117146), (19986705193, 0), (1190331, 0)]], 2, 2⟩,
    ⟨[[(27178854904758272, 0), (0, 28072014488589230), (109008641969, 0)]], 2, 2⟩, 72057594037927936,
    108635007833258, 25114624113, ⟨[], 0, 0⟩, 0, 0, 0, lc0⟩ 3 1 735)))) (.sx (.sy (.sy (.out ⟨13849, 16, 65567,
    100355, 16, 156054, ⟨[[(29813803222302720, 0), (0, 26492511816940127), (20009730925, 0)], [(0, 7289367628963392),
    (0, 20227837115589), (480142260, 0)], [(0, 104884696085257), (20938063576, 0), (1229294, 0)]], 2, 2⟩,
    ⟨[[(6620066515779584, 0), (0, 28072106140717834), (108975990360, 0)]], 2, 2⟩, 72057594037927936, 120794978118745,
    25098772754, ⟨[], 0, 0⟩, 0, 0, 0, lc0⟩ 3 1 802) (.out ⟨13686, 16, 64927, 100385, 16, 156148, ⟨[[(0,
    11975576111022080), (0, 26230878829506379), (19151213943, 0)], [(0, 8777689212360575), (0, 19956036183383),
    (477840340, 0)], [(0, 102236264071632), (20924280333, 0), (1226220, 0)]], 2, 2⟩, ⟨[[(10454246849773568, 0), (0,
    28072012759168437), (108942640434, 0)]], 2, 2⟩, 72057594037927936, 119390576753457, 25084252715, ⟨[], 0, 0⟩, 0,
    0, 0, lc0⟩ 3 1 864)) (.sy (.out ⟨13526, 16, 64301, 100416, 16, 156243, ⟨[[(0, 17165615799992320), (0,
    25975063964841406), (18305694655, 0)], [(0, 10231737292395473), (0, 19689618394980), (475612263, 0)], [(0,
    99626778876687), (20912676339, 0), (1223299, 0)]], 2, 2⟩, ⟨[[(0, 12769121728987136), (0, 28072094018703199),
    (108909988240, 0)]], 2, 2⟩, 72057594037927936, 118015671453690, 25068553880, ⟨[], 0, 0⟩, 0, 0, 0, lc0⟩ 3 1 910)
    (.out ⟨13369, 16, 63689, 100446, 16, 156338, ⟨[[(12905530693910528, 0), (0, 25725062951795833), (17472837611,
    0)], [(0, 11652656407043273), (0, 19428543526162), (473459186, 0)], [(0, 97055504192164), (20903344964, 0),
    (1220534, 0)]], 2, 2⟩, ⟨[[(34727619080486912, 0), (0, 28072170041665687), (108877335491, 0)]], 2, 2⟩,
    72057594037927936, 116670128506591, 25054474355, ⟨[], 0, 0⟩, 0, 0, 0, lc0⟩ 3 1 963))) (.sy (.sy (.out ⟨13488, 16,
    63863, 100355, 16, 156054, ⟨[[(0, 11456910430830592), (0, 26075864270293346), (26271137344, 0)], [(0,
    9767344881448934), (0, 19136616532478), (501068028, 0)], [(0, 88581233832083), (19985003533, 0), (1187893, 0)]],
    2, 2⟩, ⟨[[(6620066515779584, 0), (0, 28072106140717834), (108975990360, 0)]], 2, 2⟩, 72057594037927936,
    107341270166956, 25098772754, ⟨[], 0, 0⟩, 0, 0, 0, lc0⟩ 3 1 785) (.out ⟨13336, 16, 63275, 100385, 16, 156148,
    ⟨[[(0, 22235435692589056), (0, 25831765464132185), (25417164786, 0)], [(0, 11153302160792082), (0,
    18882774810326), (499021480, 0)], [(0, 86213991993613), (19985275649, 0), (1185596, 0)]], 2, 2⟩,
    ⟨[[(10454246849773568, 0), (0, 28072012759168437), (108942640434, 0)]], 2, 2⟩, 72057594037927936,
    106073532684575, 25084252715, ⟨[], 0, 0⟩, 0, 0, 0, lc0⟩ 3 1 835)) (.sy (.out ⟨13187, 16, 62701, 100416, 16,
    156243, ⟨[[(738036878934016, 0), (0, 25593550704479731), (24576342230, 0)], [(0, 12508606539328304), (0,
    18634138704172), (497056767, 0)], [(0, 83880025081355), (19987925791, 0), (1183462, 0)]], 2, 2⟩, ⟨[[(0,
    12769121728987136), (0, 28072094018703199), (108909988240, 0)]], 2, 2⟩, 72057594037927936, 104833305844300,
    25068553880, ⟨[], 0, 0⟩, 0, 0, 0, lc0⟩ 3 1 871) (.out ⟨13041, 16, 62138, 100446, 16, 156338,
    ⟨[[(10741378127495168, 0), (0, 25359990989452649), (23747196041, 0)], [(0, 13833700100998094), (0,
    18389776614386), (495151305, 0)], [(0, 81574643819757), (19992084461, 0), (1181440, 0)]], 2, 2⟩,
    ⟨[[(34727619080486912, 0), (0, 28072170041665687), (108877335491, 0)]], 2, 2⟩, 72057594037927936,
    103615424725618, 25054474355, ⟨[], 0, 0⟩, 0, 0, 0, lc0⟩ 3 1 924))))
theorem c181 : checkR job con2 true ⟨7, 9, 7, 9, 13, 17⟩ 1 28336 t181 493 7 640 32195 39 32000 = true := by decide +kernel

def t182 : CTree :=
  .sx (.sy (.sy (.out ⟨6783, 16, 32405, 50238, 16, 78228, ⟨[[(0, 18591917403537408), (0, 25751424058153150),
    (14255705696, 0)], [(0, 9650082218270543), (0, 41146314642124), (1730203698, 0)], [(0, 238425921472778),
    (88037355381, 0), (10091691, 0)]], 2, 2⟩, ⟨[[(25288549913853952, 0), (0, 28067879029481196), (217622632522, 0)]],
    2, 2⟩, 72057594037927936, 546026229889988, 100120981532, ⟨[], 0, 0⟩, 0, 0, 0, lc0⟩ 3 1 1102) (.out ⟨6622, 16,
    31769, 50269, 16, 78323, ⟨[[(21107844810145792, 0), (0, 25244053869794028), (11111313445, 0)], [(0,
    12596753660230546), (0, 40072868360726), (1712563263, 0)], [(0, 226953805468862), (87864178913, 0), (10038730,
    0)]], 2, 2⟩, ⟨[[(0, 2934708878442496), (0, 28068005083056735), (217492077542, 0)]], 2, 2⟩, 72057594037927936,
    534334628417762, 100000163896, ⟨[], 0, 0⟩, 0, 0, 0, lc0⟩ 3 1 1176)) (.sy (.out ⟨6469, 16, 31162, 50299, 16,
    78417, ⟨[[(0, 2882088956133376), (0, 24760245111540536), (8053961457, 0)], [(0, 15411780894031559), (0,
    39043889923370), (1696083784, 0)], [(0, 215834812074446), (87732737461, 0), (9991243, 0)]], 2, 2⟩, ⟨[[(0,
    7984645016125440), (0, 28067752420942461), (217358747481, 0)]], 2, 2⟩, 72057594037927936, 523170558051415,
    99878545541, ⟨[], 0, 0⟩, 0, 0, 0, lc0⟩ 3 1 1283) (.out ⟨6322, 16, 30581, 50329, 16, 78512, ⟨[[(3430007281483776,
    0), (0, 24297589700071007), (5076876915, 0)], [(0, 18102919646159307), (0, 38055021583561), (1680634877, 0)],
    [(0, 205035169356433), (87637753473, 0), (9948566, 0)]], 2, 2⟩, ⟨[[(30553446007439360, 0), (0,
    28067837409010846), (217228191604, 0)]], 2, 2⟩, 72057594037927936, 512481054316828, 99758525565, ⟨[], 0, 0⟩, 0,
    0, 0, lc0⟩ 3 1 1390))) (.sy (.sx (.sy (.out ⟨6887, 16, 32910, 50238, 16, 78228, ⟨[[(0, 23755110866681856), (0,
    26581704596425305), (34057154951, 0)], [(0, 7192515387641530), (0, 19963682165928), (986028397, 0)], [(0,
    48879038321173), (21899542363, 0), (2550511, 0)]], 2, 2⟩, ⟨[[(25288549913853952, 0), (0, 28067879029481196),
    (217622632522, 0)]], 2, 2⟩, 72057594037927936, 60805289126397, 100120981532, ⟨[], 0, 0⟩, 0, 0, 0, lc0⟩ 3 1 1050)
    (.out ⟨2125, 16, 2778, 50284, 16, 49874, ⟨[[(0, 19027708425633792)], [(156387497060440466, 0)]], 2, 2⟩,
    ⟨[[(21010418161418240, 0), (28076565976934515, 0)]], 2, 2⟩, 72057594037927936, 6607, 171979, ⟨[], 0, 0⟩, 0, 0, 0,
    lc0⟩ 2 1 3037)) (.out ⟨2155, 16, 2778, 25135, 16, 24937, ⟨[[(8669429282668544, 0)], [(156387497060440466, 0)]],
    2, 2⟩, ⟨[[(0, 32584669203791872), (28076565976934515, 0)]], 2, 2⟩, 72057594037927936, 19714, 140522, ⟨[], 0, 0⟩,
    0, 0, 0, lc0⟩ 2 1 4548)) (.out ⟨1070, 16, 1389, 25165, 16, 24937, ⟨[[(0, 2589569785741312)],
    [(156387497060440466, 0)]], 2, 2⟩, ⟨[[(0, 4340344141119488), (28076565976934515, 0)]], 2, 2⟩, 72057594037927936,
    3330, 241185, ⟨[], 0, 0⟩, 0, 0, 0, lc0⟩ 2 1 7905))
theorem c182 : checkR job con2 true ⟨7, 9, 7, 9, 13, 17⟩ 1 28336 t182 243 7 320 32273 39 32000 = true := by decide +kernel

def t183 : CTree :=
  .sy (.sx (.sy (.sy (.sy (.out ⟨12823, 16, 60218, 100233, 16, 155676, ⟨[[(0, 1883982758019072), (0,
    24980906973383522), (37263828513, 0)], [(0, 13827620935032955), (0, 35176716663294), (1016309724, 0)], [(0,
    288198333823922), (69695475745, 0), (4267612, 0)]], 2, 2⟩, ⟨[[(29478275608739840, 0), (0, 28072068551769974),
    (109107994387, 0)]], 2, 2⟩, 72057594037927936, 716408649588774, 25159378220, ⟨[], 0, 0⟩, 0, 0, 0, lc0⟩ 3 1 561)
    (.out ⟨12582, 16, 59211, 100264, 16, 155770, ⟨[[(0, 3244518146179072), (0, 24557485412659226), (36134185835, 0)],
    [(0, 16288197680015934), (0, 34432163800502), (1004635532, 0)], [(0, 278007984093918), (69187009784, 0),
    (4227146, 0)]], 2, 2⟩, ⟨[[(0, 33462475459395584), (0, 28071995594363438), (109074643383, 0)]], 2, 2⟩,
    72057594037927936, 701771518706228, 25144267372, ⟨[], 0, 0⟩, 0, 0, 0, lc0⟩ 3 1 593)) (.sy (.out ⟨12350, 16,
    58241, 100294, 16, 155865, ⟨[[(0, 22191724067291136), (0, 24149676913778832), (35041036669, 0)], [(0,
    18657051446764983), (0, 33713526536688), (993449616, 0)], [(0, 268120093959967), (68704598365, 0), (4188504,
    0)]], 2, 2⟩, ⟨[[(20705747954302976, 0), (0, 28072097676720282), (109041992506, 0)]], 2, 2⟩, 72057594037927936,
    687649313580109, 25129715483, ⟨[], 0, 0⟩, 0, 0, 0, lc0⟩ 3 1 654) (.out ⟨12126, 16, 57307, 100324, 16, 155959,
    ⟨[[(0, 5533158340558848), (0, 23757052992783846), (33982966448, 0)], [(0, 20939377797957298), (0,
    33019969161556), (982743205, 0)], [(0, 258522148619728), (68248086572, 0), (4151663, 0)]], 2, 2⟩,
    ⟨[[(27178854904758272, 0), (0, 28072014488589230), (109008641969, 0)]], 2, 2⟩, 72057594037927936,
    674025798987022, 25114624113, ⟨[], 0, 0⟩, 0, 0, 0, lc0⟩ 3 1 694))) (.sy (.sy (.out ⟨11910, 16, 56407, 100355, 16,
    156054, ⟨[[(12782587297529856, 0), (0, 23378771338012833), (32958000671, 0)], [(0, 23139740375211904), (0,
    32350090389715), (972490053, 0)], [(0, 249197416287985), (67816088127, 0), (4116524, 0)]], 2, 2⟩,
    ⟨[[(6620066515779584, 0), (0, 28072106140717834), (108975990360, 0)]], 2, 2⟩, 72057594037927936, 660873143114557,
    25098772754, ⟨[], 0, 0⟩, 0, 0, 0, lc0⟩ 3 1 727) (.out ⟨11702, 16, 55538, 100385, 16, 156148, ⟨[[(0,
    16115002171326464), (0, 23013576251605671), (31963649137, 0)], [(0, 25261849477213746), (0, 31701936952783),
    (962645969, 0)], [(0, 240125425997752), (67405927624, 0), (4082912, 0)]], 2, 2⟩, ⟨[[(10454246849773568, 0), (0,
    28072012759168437), (108942640434, 0)]], 2, 2⟩, 72057594037927936, 648152216414741, 25084252715, ⟨[], 0, 0⟩, 0,
    0, 0, lc0⟩ 3 1 776)) (.out ⟨1100, 16, 1389, 50224, 16, 49874, ⟨[[(25107567922593792, 0)], [(156387497060440466,
    0)]], 2, 2⟩, ⟨[[(0, 35478231964975104), (28076565976934515, 0)]], 2, 2⟩, 72057594037927936, 3330, 457192, ⟨[], 0,
    0⟩, 0, 0, 0, lc0⟩ 2 1 4647))) (.sy (.sy (.sx (.sy (.sy (.out ⟨24885, 16, 116823, 200465, 16, 311326,
    ⟨[[(13560482593767424, 0), (0, 24584276039616381), (23529689932, 0)], [(0, 18025654404305239), (0,
    16389904378952), (267530858, 0)], [(0, 111697187674249), (15967062743, 0), (501912, 0)]], 2, 2⟩,
    ⟨[[(19547993787072512, 0), (0, 28073979684194488), (54561846491, 0)]], 2, 2⟩, 72057594037927936, 146288767433805,
    6293155961, ⟨[], 0, 0⟩, 0, 0, 0, lc0⟩ 3 1 504) (.out ⟨24662, 16, 115899, 200495, 16, 311420, ⟨[[(0,
    2736826220019712), (0, 24386196039558426), (23234474048, 0)], [(0, 19149767075203275), (0, 16218808679919),
    (266141569, 0)], [(0, 109575116306404), (15918594711, 0), (499775, 0)]], 2, 2⟩, ⟨[[(29175284771061760, 0), (0,
    28073943899433416), (54553507003, 0)]], 2, 2⟩, 72057594037927936, 144723323359779, 6289262657, ⟨[], 0, 0⟩, 0, 0,
    0, lc0⟩ 3 1 527)) (.out ⟨13067, 16, 61506, 100264, 16, 155770, ⟨[[(0, 17850633685696512), (0, 25877085304979220),
    (48972170241, 0)], [(0, 11167611548884160), (0, 17147960841500), (567275096, 0)], [(0, 57157974765942),
    (17020024649, 0), (1066760, 0)]], 2, 2⟩, ⟨[[(0, 33462475459395584), (0, 28071995594363438), (109074643383, 0)]],
    2, 2⟩, 72057594037927936, 76697807597386, 25144267372, ⟨[], 0, 0⟩, 0, 0, 0, lc0⟩ 3 1 549)) (.out ⟨2277, 16, 2778,
    50132, 16, 49874, ⟨[[(0, 24657207959846912)], [(156387497060440448, 0)]], 2, 2⟩, ⟨[[(23903980922339328, 0),
    (28076565976934515, 0)]], 2, 2⟩, 72057594037927936, 6733, 163591, ⟨[], 0, 0⟩, 0, 0, 0, lc0⟩ 2 1 3136)) (.out
    ⟨1131, 16, 1389, 50163, 16, 49874, ⟨[[(0, 19252888406999040)], [(156387497060440466, 0)]], 2, 2⟩, ⟨[[(0,
    19909288052391936), (28076565976934515, 0)]], 2, 2⟩, 72057594037927936, 9884, 306197, ⟨[], 0, 0⟩, 0, 0, 0, lc0⟩ 2
    1 4508)) (.out ⟨1131, 16, 1389, 25104, 16, 24937, ⟨[[(0, 19252888406999040)], [(156387497060440466, 0)]], 2, 2⟩,
    ⟨[[(11228599770939392, 0), (28076565976934515, 0)]], 2, 2⟩, 72057594037927936, 9884, 2110, ⟨[], 0, 0⟩, 0, 0, 0,
    lc0⟩ 2 1 7995))) (.out ⟨557, 16, 694, 12574, 16, 12468, ⟨[[(26571237801484288, 0)], [(156274907069756197, 0)]],
    2, 2⟩, ⟨[[(26490173008248832, 0), (28075440077027673, 0)]], 2, 2⟩, 72057594037927936, 1738, 55612, ⟨[], 0, 0⟩, 0,
    0, 0, lc0⟩ 2 1 12635)
theorem c183 : checkR job con2 true ⟨7, 9, 7, 9, 13, 17⟩ 1 28336 t183 257 7 320 16117 39 16000 = true := by decide +kernel

def t184 : CTree :=
  .out ⟨271, 16, 347, 3163, 16, 3117, ⟨[[(6755399441055744, 0)], [(156274907069756197, 0)]], 2, 2⟩, ⟨[[(0,
    29822836732428288), (28075440077027673, 0)]], 2, 2⟩, 72057594037927936, 100, 19174, ⟨[], 0, 0⟩, 0, 0, 0, lc0⟩ 2 1
    32063
theorem c184 : checkR job con2 true ⟨7, 9, 7, 9, 13, 17⟩ 1 28336 t184 125 7 160 8117 39 8000 = true := by decide +kernel

def t185 : CTree :=
  .sy (.leaf ⟨4201, 16, 14702, 72, 16, 1372, ⟨[[(0, 22239817133654016), (0, 26147673834292851), (387831214149, 0),
    (0, 11257832), (0, 540)], [(4166024997783681, 0), (0, 126563548572934), (20085742397, 0), (1973225, 0), (185,
    0)], [(0, 525503867941714), (609702319185, 0), (191203110, 0), (24266, 0), (2, 0)], [(15895830786084, 0), (0,
    11963437205), (0, 1869158), (0, 232)]], 3, 4⟩, ⟨[[(3381131218872320, 0), (0, 1976097268058331), (0, 99788280084),
    (0, 15771429), (0, 1388)], [(0, 143476758330282789), (508513054035, 0), (120408242, 0), (8760, 0), (2, 0)],
    [(678766377350148, 0), (103009520149, 0), (20241021, 0), (2595, 0)], [(0, 2760707046360), (0, 387465040), (0,
    63454), (0, 8)]], 3, 4⟩, 72057594037927936, 748375993950461, 17460254216853, ⟨[[(7144667641003, 0), (25755945687,
    0), (28154752, 0), (6676, 0), (126, 0)], [(0, 1953492534), (0, 9209095), (8848, 0), (0, 142)], [(915383, 0),
    (807, 0), (0, 9)], [(0, 352), (2, 0)]], 3, 4⟩, 17592186044416, 1867504,
    3198409016605534580662980806512450584407007066397020573357671586385456047072565448916951597489137082502379907421181673454037725,
    lc0⟩) (.leaf ⟨4157, 16, 14649, 70, 16, 1372, ⟨[[(27284836628561920, 0), (0, 25993334930548716), (383788547757,
    0), (0, 11386110), (0, 544)], [(0, 5562661178666243), (0, 122948975447449), (20480188411, 0), (2024339, 0), (189,
    0)], [(0, 475053466703697), (637670149242, 0), (196254677, 0), (24891, 0), (2, 0)], [(14897301511278, 0), (0,
    12215104964), (0, 1917248), (0, 237)]], 3, 4⟩, ⟨[[(0, 7253915498392576), (0, 1991954750251587), (0,
    103529858289), (0, 16209499), (0, 1420)], [(0, 143436357533169243), (527459611525, 0), (122515667, 0), (9256, 0),
    (2, 0)], [(686925505814970, 0), (106214898369, 0), (20856272, 0), (2664, 0)], [(0, 2791319088751), (0,
    397507099), (0, 65299), (0, 8)]], 3, 4⟩, 72057594037927936, 766749742031120, 18647566068835, ⟨[[(7150082006789,
    0), (25911840472, 0), (27828131, 0), (9945, 0), (134, 0)], [(0, 1996056314), (0, 9324481), (10340, 0), (0, 156)],
    [(951732, 0), (699, 0), (0, 10)], [(0, 366), (2, 0)]], 3, 4⟩, 17592186044416, 2019290,
    6530791075135047949809230347407838580605160160768926513405042239682162720688801465150099803649545407131564451931135636847395363,
    lc0⟩)
theorem c185 : checkR job con2 true ⟨7, 9, 7, 9, 13, 17⟩ 1 28336 t185 139 7 160 32039 39 32000 = true := by decide +kernel

def t186 : CTree :=
  .sy (.sy (.leaf ⟨8455, 16, 29940, 148, 16, 2700, ⟨[[(0, 3433829514477568), (0, 26077246417316336), (159101721560,
    0), (0, 4709466), (0, 152)], [(0, 9248991430159835), (0, 64174073638257), (4947699598, 0), (240470, 0), (11, 0)],
    [(0, 311247005260934), (200086471618, 0), (28053971, 0), (1774, 0)], [(4779035743253, 0), (0, 1383370142), (0,
    105096), (0, 6)]], 3, 4⟩, ⟨[[(22162477670715392, 0), (0, 1972637453295137), (0, 52432845674), (0, 4069837), (0,
    178)], [(0, 145980737982469650), (0, 114477021935), (0, 6727534), (0, 1187)], [(355307488929391, 0),
    (27665309035, 0), (2697332, 0), (172, 0)], [(0, 665070596370), (0, 38594269), (0, 2930)]], 3, 4⟩,
    72057594037927936, 109708197164331, 2592783110366, ⟨[[(7327316579289, 0), (13409351703, 0), (7188943, 0), (2041,
    0), (6, 0)], [(0, 1019297607), (0, 2300214), (1036, 0), (0, 10)], [(233823, 0), (60, 0)], [(0, 42)]], 3, 4⟩,
    17592186044416, 156524,
    7044211017521457328572409514719021409612423100948784747923142321410622177038976640467476889957636789887754356134186525722870307,
    lc0⟩) (.sx (.sy (.leaf ⟨17117, 16, 60762, 305, 16, 5357, ⟨[[(14365713746100224, 0), (0, 26214069615689679),
    (71618866063, 0), (0, 1413999), (0, 24)], [(0, 10867402122960354), (0, 33012384947140), (1214578097, 0), (29215,
    0), (1, 0)], [(0, 178654433515022), (55167341983, 0), (3732465, 0), (118, 0)], [(1355247433085, 0), (0,
    163038738), (0, 6056)]], 3, 4⟩, ⟨[[(18799334948179968, 0), (0, 1962314895370773), (0, 26335090045), (0, 1018169),
    (0, 22)], [(0, 147327761883293166), (0, 155011956089), (0, 6480508), (0, 298)], [(180482624822476, 0),
    (7033517769, 0), (341683, 0), (11, 0)], [(0, 161715151888), (0, 4076767), (0, 145)]], 3, 4⟩, 72057594037927936,
    14651712023554, 339361063140, ⟨[[(7425814585112, 0), (6824011340, 0), (1830844, 0), (305, 0)], [(0, 513533324),
    (0, 569102), (109, 0), (0, 1)], [(57478, 0), (6, 0)], [(0, 5)]], 3, 4⟩, 17592186044416, 49541,
    7031745294813411829975280874262232583758889394191685688082193013482395826889999709715358288653416397155741958991377118050312987,
    lc0⟩) (.sx (.leaf ⟨17888, 16, 63601, 578, 16, 9986, ⟨[[(0, 5267780103045120), (0, 27306241501442032),
    (70191569346, 0), (0, 1594320), (0, 28)], [(0, 6366318950705560), (0, 17385328902925), (625363992, 0), (14963,
    0)], [(0, 49424633481681), (15029841368, 0), (1000231, 0), (32, 0)], [(186891946166, 0), (0, 20510483), (0,
    752)]], 3, 4⟩, ⟨[[(34027752033337344, 0), (0, 3664469994872246), (0, 49486353896), (0, 1908740), (0, 42)], [(0,
    138515025008351250), (0, 191800726136), (0, 8355954), (0, 350)], [(85154200662973, 0), (3321841776, 0), (161083,
    0), (5, 0)], [(0, 37290623418), (0, 864364), (0, 29)]], 3, 4⟩, 72057594037927936, 985640321881, 40867917300,
    ⟨[[(7474684350037, 0), (3679092953, 0), (527443, 0), (51, 0)], [(0, 496393681), (0, 291283), (27, 0)], [(52859,
    0), (3, 0)], [(0, 4)]], 3, 4⟩, 17592186044416, 14120,
    7353947148917506193619766032303922600491545538096454164235006709242225622066287480055136892866006422913992606844949809114650984,
    lc0⟩) (.sy (.leaf ⟨33707, 16, 119806, 600, 16, 10842, ⟨[[(13314536270462976, 0), (0, 25947985400359624),
    (37307485058, 0), (0, 324215), (0, 3)], [(0, 13776388065488425), (0, 16013788273510), (307038018, 0), (3721, 0)],
    [(0, 79719087194286), (13271811965, 0), (454415, 0), (7, 0)], [(311114520176, 0), (0, 21054150), (0, 396)]], 3,
    4⟩, ⟨[[(12029742404001792, 0), (0, 1989351470139529), (0, 13424943358), (0, 259133), (0, 3)], [(0,
    147821735801195867), (0, 53842228576), (0, 1045683), (0, 28)], [(90662606608926, 0), (1778145377, 0), (43256, 0),
    (1, 0)], [(0, 41463649664), (0, 566138), (0, 10)]], 3, 4⟩, 72057594037927936, 1750332438390, 41994874641,
    ⟨[[(7378786910303, 0), (3362461967, 0), (444418, 0), (37, 0)], [(0, 259253808), (0, 143182), (16, 0)], [(14856,
    0), (1, 0)], [(0, 1)]], 3, 4⟩, 17592186044416, 8944,
    7294381502703882953504920621202231918785349725098462361533487581147848116100819972645917648857470655174146582189098973725528060,
    lc0⟩) (.sy (.out ⟨45879, 16, 213321, 400375, 16, 620918, ⟨[[(30553681978458112, 0), (0, 23097005839150034),
    (16581640727, 0)], [(0, 26195758925640247), (0, 14224688017606), (136965508, 0)], [(0, 140558909531005),
    (11862984563, 0), (202839, 0)]], 2, 2⟩, ⟨[[(30804027495153664, 0), (0, 28074476455915320), (27319714698, 0)]], 2,
    2⟩, 72057594037927936, 192631400127447, 1578465827, ⟨[], 0, 0⟩, 0, 0, 0, lc0⟩ 3 1 251) (.out ⟨45538, 16, 211849,
    400406, 16, 621012, ⟨[[(709345697333248, 0), (0, 22935059709463165), (16450407915, 0)], [(0, 27116039294791840),
    (0, 14105297752338), (136213555, 0)], [(0, 138668842904583), (11812578740, 0), (201811, 0)]], 2, 2⟩, ⟨[[(0,
    25376767036358656), (0, 28074464580384003), (27317629651, 0)]], 2, 2⟩, 72057594037927936, 190808220788793,
    1583952572, ⟨[], 0, 0⟩, 0, 0, 0, lc0⟩ 3 1 258))))) (.sy (.sy (.leaf ⟨30220, 16, 107244, 297, 16, 5734, ⟨[[(0,
    11995602632572928), (0, 23535525621536722), (39444940074, 0), (0, 216503), (0, 2)], [(0, 25629050961797829), (0,
    27904682217936), (579517588, 0), (7134, 0)], [(0, 228497247530189), (42007479102, 0), (1519340, 0), (24, 0)],
    [(1838935657838, 0), (0, 167883776), (0, 3257)]], 3, 4⟩, ⟨[[(13862785992540160, 0), (0, 1050087246561490), (0,
    7037627331), (0, 136272), (0, 1)], [(0, 152391016962287067), (20935595848, 0), (799081, 0)], [(185602778907709,
    0), (3648863118, 0), (89205, 0), (1, 0)], [(0, 180874885546), (0, 2965841), (0, 59)]], 3, 4⟩, 72057594037927936,
    22784427007748, 323234458873, ⟨[[(7236881483577, 0), (6279123627, 0), (1578230, 0), (209, 0)], [(0, 281703740),
    (0, 305187), (81, 0)], [(18368, 0), (2, 0)], [(0, 1)]], 3, 4⟩, 17592186044416, 54250,
    6977136471984580740200654415109038646960023258947022202992803815579360207375140749404208332415636942802366014869616072787309606,
    lc0⟩) (.out ⟨1192, 16, 1389, 200147, 16, 199494, ⟨[[(0, 35916207028289536)], [(156387497060440485, 0)]], 2, 2⟩,
    ⟨[[(30320203017486336, 0), (28076284501957803, 0)]], 2, 2⟩, 72057594037927936, 9911, 1191223, ⟨[], 0, 0⟩, 0, 0,
    0, lc0⟩ 2 1 2246)) (.out ⟨1192, 16, 1389, 100097, 16, 99747, ⟨[[(0, 35916207028289536)], [(156387497060440485,
    0)]], 2, 2⟩, ⟨[[(0, 35730715018526720), (28076284501957803, 0)]], 2, 2⟩, 72057594037927936, 9911, 100704, ⟨[], 0,
    0⟩, 0, 0, 0, lc0⟩ 2 1 3159)))) (.sy (.sx (.sx (.sy (.sy (.out ⟨25408, 16, 118284, 200222, 16, 310571, ⟨[[(0,
    10742615462903808), (0, 25384207885249162), (32504893803, 0)], [(0, 13727456101156384), (0, 16098280570433),
    (291984465, 0)], [(0, 90277464305454), (14085238817, 0), (467633, 0)]], 2, 2⟩, ⟨[[(0, 4390414626848768), (0,
    28073948997097515), (54628036756, 0)]], 2, 2⟩, 72057594037927936, 120571096066153, 6308336606, ⟨[], 0, 0⟩, 0, 0,
    0, lc0⟩ 3 1 297) (.out ⟨25185, 16, 117372, 200252, 16, 310665, ⟨[[(0, 22563714451898368), (0, 25183464207143910),
    (32167738090, 0)], [(0, 14865833884387323), (0, 15928896897303), (290546763, 0)], [(0, 88488397499923),
    (14049160014, 0), (465743, 0)]], 2, 2⟩, ⟨[[(10533823221596160, 0), (0, 28073923479114079), (54619697074, 0)]], 2,
    2⟩, 72057594037927936, 119138961454132, 6307171072, ⟨[], 0, 0⟩, 0, 0, 0, lc0⟩ 3 1 319)) (.sy (.out ⟨24965, 16,
    116476, 200283, 16, 310760, ⟨[[(27476217917079552, 0), (0, 24986244325188562), (31836064102, 0)], [(0,
    15983563788275545), (0, 15762255667153), (289139068, 0)], [(0, 86722606075314), (14014145175, 0), (463895, 0)]],
    2, 2⟩, ⟨[[(0, 819370284548096), (0, 28073987023730439), (54611533173, 0)]], 2, 2⟩, 72057594037927936,
    117729408952152, 6303609403, ⟨[], 0, 0⟩, 0, 0, 0, lc0⟩ 3 1 329) (.out ⟨24750, 16, 115596, 200313, 16, 310854,
    ⟨[[(0, 5551247155265536), (0, 24792545916991048), (31509841210, 0)], [(0, 17081224379344357), (0,
    15598340775066), (287761655, 0)], [(0, 84979749887706), (13980218868, 0), (462091, 0)]], 2, 2⟩,
    ⟨[[(12777058690138112, 0), (0, 28073958925163425), (54603193506, 0)]], 2, 2⟩, 72057594037927936, 116342218779153,
    6300964282, ⟨[], 0, 0⟩, 0, 0, 0, lc0⟩ 3 1 353))) (.out ⟨2337, 16, 2778, 50072, 16, 49874, ⟨[[(30737067456823296,
    0)], [(156387497060440466, 0)]], 2, 2⟩, ⟨[[(0, 32584669204054016), (28076565976934515, 0)]], 2, 2⟩,
    72057594037927936, 19714, 121647, ⟨[], 0, 0⟩, 0, 0, 0, lc0⟩ 2 1 2297)) (.out ⟨1192, 16, 1389, 50072, 16, 49874,
    ⟨[[(0, 35916207028289536)], [(156387497060440485, 0)]], 2, 2⟩, ⟨[[(0, 32584669204054016), (28076565976934515,
    0)]], 2, 2⟩, 72057594037927936, 9911, 121647, ⟨[], 0, 0⟩, 0, 0, 0, lc0⟩ 2 1 4944)) (.out ⟨588, 16, 694, 50102,
    16, 49874, ⟨[[(0, 19365478397689856)], [(156274907069756197, 0)]], 2, 2⟩, ⟨[[(0, 4340344140857344),
    (28076565976934515, 0)]], 2, 2⟩, 72057594037927936, 3377, 20984, ⟨[], 0, 0⟩, 0, 0, 0, lc0⟩ 2 1 5600))
theorem c186 : checkR job con2 true ⟨7, 9, 7, 9, 13, 17⟩ 1 28336 t186 271 7 320 32117 39 32000 = true := by decide +kernel

def t187 : CTree :=
  .out ⟨618, 16, 694, 12514, 16, 12468, ⟨[[(6755399441055744, 0)], [(156274907069756197, 0)]], 2, 2⟩, ⟨[[(0,
    29822836732461056), (28075440077027673, 0)]], 2, 2⟩, 72057594037927936, 100, 13668, ⟨[], 0, 0⟩, 0, 0, 0, lc0⟩ 2 1
    8084
theorem c187 : checkR job con2 true ⟨7, 9, 7, 9, 13, 17⟩ 1 28336 t187 285 7 320 32117 39 32000 = true := by decide +kernel

def t188 : CTree :=
  .sy (.sy (.leaf ⟨4067, 16, 14234, 52, 16, 1550, ⟨[[(0, 12172655712665600), (0, 26950472369355569), (678357934906,
    0), (19743759, 0), (2354, 0)], [(0, 3690794844599766), (0, 113811913243255), (23372303374, 0), (2410785, 0),
    (227, 0)], [(0, 113764647968471), (1880811267, 0), (89328025, 0), (11454, 0), (1, 0)], [(5311491170614, 0), (0,
    15977768788), (0, 2660428), (0, 338)]], 3, 4⟩, ⟨[[(0, 9713445717549568), (0, 2203055225993071), (0,
    106594398755), (0, 17134669), (0, 1498)], [(0, 142521686075313152), (3510034041139, 0), (720332014, 0), (85107,
    0), (8, 0)], [(629088755780181, 0), (91245841499, 0), (18431462, 0), (2387, 0)], [(0, 3388672117701), (0,
    731978574), (0, 134100), (0, 16)]], 3, 4⟩, 72057594037927936, 243835604523134, 6589970606279, ⟨[[(6495169293655,
    0), (21507880335, 0), (22208485, 0), (0, 9752), (161, 0)], [(0, 1762426244), (0, 9107218), (16238, 0), (0, 101)],
    [(943974, 0), (1625, 0), (0, 22)], [(0, 432), (1, 0)]], 3, 4⟩, 17592186044416, 887602,
    3640110734927909518316595379049589245850748466958637251595941872633988250911947901731161537252684938231045228211535050223941930,
    lc0⟩) (.out ⟨332, 16, 347, 24983, 16, 24937, ⟨[[(0, 13060438919372800)], [(156274907069756197, 0)]], 2, 2⟩,
    ⟨[[(0, 29691106443132928), (28076565976934515, 0)]], 2, 2⟩, 72057594037927936, 1738, 213922, ⟨[], 0, 0⟩, 0, 0, 0,
    lc0⟩ 2 1 6191)) (.out ⟨332, 16, 347, 12514, 16, 12468, ⟨[[(0, 13060438919372800)], [(156274907069756197, 0)]], 2,
    2⟩, ⟨[[(0, 29822836732461056), (28075440077027673, 0)]], 2, 2⟩, 72057594037927936, 1738, 13668, ⟨[], 0, 0⟩, 0, 0,
    0, lc0⟩ 2 1 13352)
theorem c188 : checkR job con2 true ⟨7, 9, 7, 9, 13, 17⟩ 1 28336 t188 153 7 160 16039 39 16000 = true := by decide +kernel

def t189 : CTree :=
  .out ⟨158, 16, 173, 6280, 16, 6234, ⟨[[(0, 9907919180216320)], [(155824547107019154, 0)]], 2, 2⟩, ⟨[[(0,
    29822836732395520), (28075440077027673, 0)]], 2, 2⟩, 72057594037927936, 1282, 51942, ⟨[], 0, 0⟩, 0, 0, 0, lc0⟩ 2
    1 24723
theorem c189 : checkR job con2 true ⟨7, 9, 7, 9, 13, 17⟩ 1 28336 t189 73 7 80 16117 39 16000 = true := by decide +kernel

def t190 : CTree :=
  .out ⟨158, 16, 173, 3163, 16, 3117, ⟨[[(0, 9907919180216320)], [(155824547107019154, 0)]], 2, 2⟩, ⟨[[(0,
    29822836732428288), (28075440077027673, 0)]], 2, 2⟩, 72057594037927936, 1282, 19174, ⟨[], 0, 0⟩, 0, 0, 0, lc0⟩ 2
    1 53343
theorem c190 : checkR job con2 true ⟨7, 9, 7, 9, 13, 17⟩ 1 28336 t190 73 7 80 8117 39 8000 = true := by decide +kernel

def t191 : CTree :=
  .out ⟨71, 16, 86, 1604, 16, 1558, ⟨[[(0, 3602879701896192)], [(154923827181545051, 0)]], 2, 2⟩, ⟨[[(0,
    30876679045251072), (28066432877772931, 0)]], 2, 2⟩, 72057594037927936, 285, 1052, ⟨[], 0, 0⟩, 0, 0, 0, lc0⟩ 2 1
    98396
theorem c191 : checkR job con2 true ⟨7, 9, 7, 9, 13, 17⟩ 1 28336 t191 33 7 40 4117 39 4000 = true := by decide +kernel

end PyX.Kron.V3b
