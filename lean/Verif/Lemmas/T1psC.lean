import Verif.Lemmas.T1psJob

/-!
# Temperature from pressure and entropy in region 1, part C of the certificate
-/

namespace PyX.Kron.T1ps

set_option Elab.async false

def t19 : CTree :=
  .sy (.sy (.leaf ⟨150, 51, 8, 682, 16, 149, ⟨[[(43910096366848, 0)], [(0, 1861112546010858)]], 2, 3⟩, ⟨[[(0,
    116197077984256), (343935464991922, 0), (0, 37263344760), (7884426, 0)], [(62001550552404, 0), (27377258194, 0),
    (7681725, 0), (2482, 0)], [(11433083735, 0), (11548143, 0), (6675, 0), (3, 0)]], 2, 3⟩, 4503599627370496, 79,
    39304790886777, ⟨[[(552905258474167, 0), (815336905438, 0), (200389278, 0), (0, 1513613)], [(27222295550, 0),
    (171341891, 0), (726545, 0), (2945, 0)], [(0, 6697310), (0, 83705), (0, 593), (0, 3)]], 2, 3⟩, 1099511627776,
    815096212, 19534983497858988539032911798455474889234286969946429442002878288805430151889683968360764, lc0⟩) (.sx
    (.leaf ⟨175, 26, 8, 802, 16, 169, ⟨[[(51228445761280, 0)], [(0, 930556273005429)]], 2, 3⟩, ⟨[[(0,
    1479180657812480), (361390308238472, 0), (0, 34250771350), (7528550, 0)], [(40106585324095, 0), (18024662049, 0),
    (5483537, 0), (1814, 0)], [(4351623541, 0), (4496046, 0), (2723, 0), (1, 0)]], 2, 3⟩, 4503599627370496, 92,
    10051219708672, ⟨[[(574256267811675, 0), (729555326970, 0), (70409884, 0), (0, 1352042)], [(31575341041, 0),
    (183598972, 0), (741551, 0), (2843, 0)], [(0, 8950189), (0, 102561), (0, 696), (0, 4)]], 2, 3⟩, 1099511627776,
    360057265, 10083540859201622870974009126291625999714963351799314353432202689436817530043785353530464, lc0⟩)
    (.leaf ⟨125, 26, 8, 790, 16, 166, ⟨[[(36591746972416, 0)], [(0, 930556273005429)]], 2, 3⟩, ⟨[[(0,
    1730220986018816), (359537888050370, 0), (0, 32164308159), (7918144, 0)], [(41615351285776, 0), (20092095733, 0),
    (6916931, 0), (2606, 0)], [(4927407797, 0), (5506566, 0), (3725, 0), (2, 0)]], 2, 3⟩, 4503599627370496, 63,
    15296023901287, ⟨[[(574294569508294, 0), (733247505958, 0), (21868847, 0), (0, 1629810)], [(32945525614, 0),
    (201660502, 0), (869347, 0), (3616, 0)], [(0, 9779205), (0, 117567), (0, 856), (0, 6)]], 2, 3⟩, 1099511627776,
    448173093, 16583949874819395276782437604451352539855777923166517006996775286624981173466512474641102, lc0⟩)))
    (.sy (.sx (.leaf ⟨175, 26, 8, 863, 16, 176, ⟨[[(51228445761280, 0)], [(0, 930556273005429)]], 2, 3⟩,
    ⟨[[(1027427289734656, 0), (354164835460442, 0), (0, 27870052775), (7114888, 0)], [(49128688479986, 0),
    (23586088429, 0), (8254530, 0), (3091, 0)], [(6590937817, 0), (7332401, 0), (4986, 0), (3, 0)]], 2, 3⟩,
    4503599627370496, 92, 20973137197083, ⟨[[(593740470568809, 0), (701089259694, 0), (0, 50604701), (0, 1593221)],
    [(37060741811, 0), (221007548, 0), (944198, 0), (3861, 0)], [(0, 12275644), (0, 144977), (0, 1083), (0, 7)]], 2,
    3⟩, 1099511627776, 459064799,
    14620731939277839077617684750778438921101661624806397683870869645343684316281968450046015, lc0⟩) (.leaf ⟨125, 26,
    8, 846, 16, 172, ⟨[[(36591746972416, 0)], [(0, 930556273005429)]], 2, 3⟩, ⟨[[(1252115543085568, 0),
    (352154106234150, 0), (0, 24956424615), (7882312, 0)], [(51417553058868, 0), (27040511794, 0), (10978939, 0),
    (4826, 0)], [(7691522720, 0), (9477500, 0), (7381, 0), (5, 0)]], 2, 3⟩, 4503599627370496, 63, 61155096633682,
    ⟨[[(593699690296174, 0), (705110842471, 0), (0, 120815298), (0, 1993709)], [(38972933143, 0), (247713515, 0),
    (1152177, 0), (5283, 0)], [(0, 13620343), (0, 172017), (0, 1413), (0, 11)]], 2, 3⟩, 1099511627776, 604513856,
    13474646236852490931663021735680405422605391677909278800985660109958975568587551827588174, lc0⟩)) (.sx (.leaf
    ⟨175, 26, 8, 915, 16, 181, ⟨[[(51228445761280, 0)], [(0, 930556273005429)]], 2, 3⟩, ⟨[[(1563152117962752, 0),
    (346821209884565, 0), (0, 21077576870), (7262265, 0)], [(60211396983633, 0), (31617868180, 0), (12973791, 0),
    (5654, 0)], [(10199193522, 0), (12539562, 0), (9733, 0), (6, 0)]], 2, 3⟩, 4503599627370496, 92, 93463741003795,
    ⟨[[(612407459002709, 0), (675447477520, 0), (0, 186832138), (0, 1929149)], [(43724116446, 0), (273405086, 0),
    (1265498, 0), (5717, 0)], [(0, 17094592), (0, 217173), (0, 1846), (0, 14)]], 2, 3⟩, 1099511627776, 644860112,
    17863907033767939492094624127986493936633997051266536048986895041475625702011514125311464, lc0⟩) (.sy (.leaf
    ⟨125, 26, 8, 1602, 16, 318, ⟨[[(36591746972416, 0)], [(0, 930556273005429)]], 2, 3⟩, ⟨[[(0, 304676215402496),
    (314948775160905, 0), (0, 8608261758), (1922783, 0)], [(109767715186512, 0), (31417867731, 0), (7346246, 0),
    (1845, 0)], [(19955112777, 0), (13525694, 0), (5951, 0), (2, 0)]], 2, 3⟩, 4503599627370496, 63, 96252166350232,
    ⟨[[(608078871705693, 0), (377230814337, 0), (0, 75809065), (0, 400690)], [(44582867738, 0), (163657479, 0),
    (454289, 0), (1264, 0)], [(0, 17845068), (0, 133268), (0, 674), (0, 3)]], 2, 3⟩, 1099511627776, 259101800,
    9455926915203644846004573628042469017900907532073533635763334205173137802589571700610884, lc0⟩) (.sx (.leaf ⟨155,
    16, 9, 1834, 16, 359, ⟨[[(0, 1362092596674944)], [(0, 523437903565554)]], 2, 3⟩, ⟨[[(163037717705728, 0),
    (347096399477765, 0), (0, 7969654878), (2205173, 0)], [(67036491596982, 0), (19860736559, 0), (4899779, 0),
    (1285, 0)], [(6750801101, 0), (4747078, 0), (2178, 0), (1, 0)]], 2, 3⟩, 4503599627370496, 50, 7740906614200,
    ⟨[[(617157127690127, 0), (332635818041, 0), (0, 76982095), (0, 309076)], [(42651326317, 0), (143310656, 0),
    (369107, 0), (953, 0)], [(0, 16392174), (0, 114019), (0, 542), (0, 2)]], 2, 3⟩, 1099511627776, 76577090,
    3621738604743904280014414910803248371403624488749011171966672538878131127481678319270983, lc0⟩) (.leaf ⟨127, 16,
    9, 1802, 16, 352, ⟨[[(0, 1933275693165056)], [(0, 523437903565554)]], 2, 3⟩, ⟨[[(0, 464144551217152),
    (345333692259385, 0), (0, 6512590964), (2523761, 0)], [(69152718447728, 0), (21981262338, 0), (6017272, 0),
    (1764, 0)], [(7562333257, 0), (5766826, 0), (2930, 0), (1, 0)]], 2, 3⟩, 4503599627370496, 45, 12625664036775,
    ⟨[[(617208527844813, 0), (334363067770, 0), (0, 95370301), (0, 366777)], [(44171149521, 0), (156092718, 0),
    (430408, 0), (1202, 0)], [(0, 17620391), (0, 129482), (0, 653), (0, 3)]], 2, 3⟩, 1099511627776, 90547211,
    4668415939406852041766094054075702128778274727346546186396930664745072103682784634115526, lc0⟩)))))
theorem c19 : checkC job ⟨6, 8, 5, 6, 9, 13⟩ 1 40 B1.zlims t19 1909 121 320 1367 175 1896 = true := by decide +kernel

def t20 : CTree :=
  .sy (.sy (.sx (.leaf ⟨75, 26, 8, 712, 16, 155, ⟨[[(21955048183424, 0)], [(0, 930556273005429)]], 2, 3⟩,
    ⟨[[(576756427722240, 0), (363389105357852, 0), (0, 37049956038), (8802065, 0)], [(34616727299630, 0),
    (16754638582, 0), (5557491, 0), (2096, 0)], [(3579324232, 0), (3990673, 0), (2650, 0), (1, 0)]], 2, 3⟩,
    4503599627370496, 40, 12039323087036, ⟨[[(552781537376997, 0), (771589992649, 0), (119521614, 0), (0, 1610742)],
    [(28723581821, 0), (181372700, 0), (784175, 0), (3257, 0)], [(0, 7484003), (0, 92838), (0, 663), (0, 4)]], 2, 3⟩,
    1099511627776, 441532144,
    21785306333574792449085805446750606784413779213356997535953662332499391383032675246631148, lc0⟩) (.leaf ⟨25, 26,
    8, 705, 16, 153, ⟨[[(7318349394480, 0)], [(0, 930556273005429)]], 2, 3⟩, ⟨[[(0, 794881957672960),
    (362949867009723, 0), (0, 35074256934), (9288465, 0)], [(36000608288691, 0), (18656765951, 0), (6968664, 0),
    (2955, 0)], [(4049944049, 0), (4859705, 0), (3577, 0), (2, 0)]], 2, 3⟩, 4503599627370496, 35, 22918265106704,
    ⟨[[(553015671558997, 0), (772574296349, 0), (68316788, 0), (0, 1910467)], [(29918880312, 0), (197368671, 0),
    (901893, 0), (3991, 0)], [(0, 8098661), (0, 104052), (0, 781), (0, 5)]], 2, 3⟩, 1099511627776, 543215271,
    23688479630876235327398132509419503776094678395774922149642526089985349005088307920871097, lc0⟩)) (.sx (.leaf
    ⟨75, 26, 8, 778, 16, 163, ⟨[[(21955048183424, 0)], [(0, 930556273005429)]], 2, 3⟩, ⟨[[(0, 1766910240523776),
    (358157946249574, 0), (0, 29697318354), (8539948, 0)], [(43394551648628, 0), (22686492890, 0), (8921875, 0),
    (3873, 0)], [(5656066317, 0), (6900907, 0), (5270, 0), (3, 0)]], 2, 3⟩, 4503599627370496, 40, 37580479338378,
    ⟨[[(574298523928443, 0), (736023417625, 0), (0, 38075885), (0, 1983596)], [(34454858018, 0), (222474938, 0),
    (1027391, 0), (4668, 0)], [(0, 10684799), (0, 134951), (0, 1055), (0, 8)]], 2, 3⟩, 1099511627776, 572887121,
    22400590194077063401837406737666215654128649034012927032030294487769146904814240178907169, lc0⟩) (.sx (.leaf ⟨42,
    16, 9, 803, 16, 168, ⟨[[(856774644735136, 0)], [(0, 523437903565554)]], 2, 3⟩, ⟨[[(1385482891177472, 0),
    (373638801843989, 0), (0, 28741287139), (9662478, 0)], [(23490646113958, 0), (13119443639, 0), (5746759, 0),
    (2802, 0)], [(1656435042, 0), (2175801, 0), (1840, 0), (1, 0)]], 2, 3⟩, 4503599627370496, 53, 46928769179752,
    ⟨[[(573786298797530, 0), (705622691299, 0), (0, 80525702), (0, 2011336)], [(31587360224, 0), (203045157, 0),
    (944137, 0), (4381, 0)], [(0, 8949188), (0, 112106), (0, 882), (0, 6)]], 2, 3⟩, 1099511627776, 485338365,
    23360458610148578375139238929272808725520693457734714786497354106974642428651627926890117, lc0⟩) (.skip)))) (.sx
    (.sy (.sy (.leaf ⟨75, 26, 8, 1513, 16, 309, ⟨[[(21955048183424, 0)], [(0, 930556273005429)]], 2, 3⟩, ⟨[[(0,
    481216026414080), (326374425271900, 0), (0, 10881678907), (2058639, 0)], [(94868572990096, 0), (26841919654, 0),
    (6097135, 0), (1521, 0)], [(14986736821, 0), (10026787, 0), (4356, 0), (2, 0)]], 2, 3⟩, 4503599627370496, 40,
    44238424300515, ⟨[[(589074482262852, 0), (386065051586, 0), (0, 48524313), (0, 376079)], [(39388967860, 0),
    (142593748, 0), (382337, 0), (1031, 0)], [(0, 13899089), (0, 99553), (0, 467), (0, 2)]], 2, 3⟩, 1099511627776,
    179741211, 16835723095054968403007178984678139748838152667179035443463925767537037338499601946337598, lc0⟩)
    (.leaf ⟨75, 26, 8, 1533, 16, 308, ⟨[[(21955048183424, 0)], [(0, 930556273005429)]], 2, 3⟩, ⟨[[(18505495531520,
    0), (318493066936385, 0), (0, 8630211848), (2188091, 0)], [(104741774933197, 0), (31642232884, 0), (8008435, 0),
    (2219, 0)], [(19048467494, 0), (13753962, 0), (6593, 0), (3, 0)]], 2, 3⟩, 4503599627370496, 40, 117283259798636,
    ⟨[[(598680938315688, 0), (384137708565, 0), (0, 79829243), (0, 452772)], [(43206393792, 0), (164355539, 0),
    (475101, 0), (1398, 0)], [(0, 16712128), (0, 127658), (0, 658), (0, 3)]], 2, 3⟩, 1099511627776, 238734241,
    16404071698880076953333126761989061915098065920411399181529004890856052353465958527511299, lc0⟩)) (.sx (.sy
    (.leaf ⟨98, 16, 9, 1748, 16, 346, ⟨[[(1999140837715328, 0)], [(0, 523437903565554)]], 2, 3⟩, ⟨[[(0,
    158030828897280), (349418840416247, 0), (0, 7668607300), (2554844, 0)], [(64032565631783, 0), (20187825711, 0),
    (5463393, 0), (1604, 0)], [(6518237214, 0), (4940018, 0), (2505, 0), (1, 0)]], 2, 3⟩, 4503599627370496, 59,
    9660192955452, ⟨[[(608046363945178, 0), (340011538703, 0), (0, 84734616), (0, 363441)], [(41582073142, 0),
    (146211073, 0), (398145, 0), (1105, 0)], [(0, 15527568), (0, 111597), (0, 549), (0, 2)]], 2, 3⟩, 1099511627776,
    81426957, 8597777159235266633015810210249528512104352222390183350251805257453201936035234503473575, lc0⟩) (.leaf
    ⟨98, 16, 9, 1770, 16, 345, ⟨[[(1999140837715328, 0)], [(0, 523437903565554)]], 2, 3⟩, ⟨[[(0, 869535875317760),
    (344037998945222, 0), (0, 4767254533), (2976531, 0)], [(71636734456320, 0), (24624662434, 0), (7549025, 0),
    (2479, 0)], [(8583315217, 0), (7159418, 0), (4023, 0), (2, 0)]], 2, 3⟩, 4503599627370496, 59, 21778640690647,
    ⟨[[(617201056241236, 0), (335530055575, 0), (0, 117869852), (0, 440894)], [(45865805276, 0), (171024917, 0),
    (506738, 0), (1530, 0)], [(0, 19012018), (0, 147836), (0, 791), (0, 4)]], 2, 3⟩, 1099511627776, 109475344,
    9450183918777981300595182090746981287262038517462250487507516240149055667938264187027612, lc0⟩)) (.sy (.leaf ⟨70,
    16, 9, 1716, 16, 339, ⟨[[(1427957741225280, 0)], [(0, 523437903565554)]], 2, 3⟩, ⟨[[(267877089951744, 0),
    (347441229252183, 0), (0, 6058187139), (2955259, 0)], [(66044952488672, 0), (22395389316, 0), (6747021, 0),
    (2205, 0)], [(7317719503, 0), (6029574, 0), (3358, 0), (2, 0)]], 2, 3⟩, 4503599627370496, 74, 16224453682781,
    ⟨[[(608021684852176, 0), (342073233430, 0), (0, 104649762), (0, 431681)], [(42998646680, 0), (158871233, 0),
    (461878, 0), (1379, 0)], [(0, 16578315), (0, 125428), (0, 653), (0, 3)]], 2, 3⟩, 1099511627776, 97195210,
    14208118599715293857528993421414827572423309201037489584422801858880238436733209972937901, lc0⟩) (.leaf ⟨70, 16,
    9, 1733, 16, 337, ⟨[[(1427957741225280, 0)], [(0, 523437903565554)]], 2, 3⟩, ⟨[[(0, 1607529953897472),
    (342327411625863, 0), (0, 2613580380), (3616977, 0)], [(74374992771576, 0), (27904134862, 0), (9639080, 0),
    (3510, 0)], [(9858344826, 0), (9023128, 0), (5515, 0), (3, 0)]], 2, 3⟩, 4503599627370496, 74, 39115809451690,
    ⟨[[(617267975347621, 0), (337320795678, 0), (0, 145506902), (0, 538710)], [(47707772912, 0), (188640237, 0),
    (602990, 0), (1966, 0)], [(0, 20553363), (0, 169655), (0, 963), (0, 5)]], 2, 3⟩, 1099511627776, 134819959,
    32966216913568805179922853653353066178403411669361932391980386164417536948388875977971744, lc0⟩)))) (.sx (.sy
    (.sy (.leaf ⟨42, 16, 9, 1630, 16, 332, ⟨[[(856774644735136, 0)], [(0, 523437903565554)]], 2, 3⟩, ⟨[[(0,
    1192305929327616), (356288007344772, 0), (0, 10327572561), (2577978, 0)], [(54125949991162, 0), (16639866128, 0),
    (4305069, 0), (1236, 0)], [(4712335155, 0), (3470156, 0), (1709, 0), (1, 0)]], 2, 3⟩, 4503599627370496, 53,
    5418878814347, ⟨[[(589121690665193, 0), (353683341169, 0), (0, 59601751), (0, 347275)], [(36518186388, 0),
    (127289970, 0), (334576, 0), (900, 0)], [(0, 11894036), (0, 82014), (0, 377), (0, 2)]], 2, 3⟩, 1099511627776,
    66595576, 16746134445470273569958896370527893089815099496921423965597091995746118562862347442956577, lc0⟩) (.leaf
    ⟨42, 16, 9, 1667, 16, 334, ⟨[[(856774644735136, 0)], [(0, 523437903565554)]], 2, 3⟩, ⟨[[(682790887990272, 0),
    (352149097711773, 0), (0, 7509673973), (2928386, 0)], [(60901072296907, 0), (20301238047, 0), (5961935, 0),
    (1922, 0)], [(6209831293, 0), (5023743, 0), (2752, 0), (1, 0)]], 2, 3⟩, 4503599627370496, 53, 11932795149412,
    ⟨[[(598626801412252, 0), (347558022805, 0), (0, 89530030), (0, 413492)], [(40220742812, 0), (146677161, 0),
    (415190, 0), (1213, 0)], [(0, 14419578), (0, 105732), (0, 529), (0, 2)]], 2, 3⟩, 1099511627776, 86408888,
    16553794710634393485764827548669640837777122630522028479979370439407201690237040785288540, lc0⟩)) (.sy (.leaf
    ⟨42, 16, 9, 1684, 16, 332, ⟨[[(856774644735136, 0)], [(0, 523437903565554)]], 2, 3⟩, ⟨[[(892372985459712, 0),
    (345948906815155, 0), (0, 4119531472), (3518239, 0)], [(68417501438889, 0), (25151684386, 0), (8477788, 0),
    (3049, 0)], [(8318015670, 0), (7469997, 0), (4497, 0), (2, 0)]], 2, 3⟩, 4503599627370496, 53, 28448320963130,
    ⟨[[(607986445881850, 0), (343777330335, 0), (0, 128396022), (0, 516946)], [(44534548012, 0), (173257028, 0),
    (538756, 0), (1726, 0)], [(0, 17732373), (0, 141354), (0, 778), (0, 4)]], 2, 3⟩, 1099511627776, 118560315,
    40526990268603196672148918196586385887001627801389890919247484190193812021373106778622321, lc0⟩) (.skip)))
    (.skip)))
theorem c20 : checkC job ⟨6, 8, 5, 6, 9, 13⟩ 1 40 B1.zlims t20 2151 121 320 1367 175 1896 = true := by decide +kernel

def t21 : CTree :=
  .sy (.sx (.leaf ⟨211, 16, 9, 1034, 16, 199, ⟨[[(0, 219726403694720)], [(0, 523437903565554)]], 2, 3⟩,
    ⟨[[(1760023109665792, 0), (365318570351738, 0), (0, 15699295525), (8372361, 0)], [(39177426839238, 0),
    (22382430806, 0), (10460843, 0), (5066, 0)], [(4140577115, 0), (5554378, 0), (4747, 0), (3, 0)]], 2, 3⟩,
    4503599627370496, 77, 73662365140061, ⟨[[(630101720753948, 0), (605922709798, 0), (0, 275340276), (0, 1801990)],
    [(45350640719, 0), (276962893, 0), (1286109, 0), (5896, 0)], [(0, 18545059), (0, 238327), (0, 2081), (0, 15)]],
    2, 3⟩, 1099511627776, 399759912,
    16809245688173112803190727161267815920394477535105846898315636368236762432204788280509226, lc0⟩) (.sy (.leaf
    ⟨183, 16, 9, 1893, 16, 366, ⟨[[(0, 790909500184832)], [(0, 523437903565554)]], 2, 3⟩, ⟨[[(539883365422080, 0),
    (343521715556226, 0), (0, 7065001033), (2137179, 0)], [(72095993069004, 0), (21363950560, 0), (5268245, 0),
    (1360, 0)], [(7718785687, 0), (5405277, 0), (2449, 0), (1, 0)]], 2, 3⟩, 4503599627370496, 64, 9620864459643,
    ⟨[[(625972330321598, 0), (326672811651, 0), (0, 84408589), (0, 303442)], [(45067441771, 0), (151123884, 0),
    (389373, 0), (1000, 0)], [(0, 18363731), (0, 129347), (0, 622), (0, 3)]], 2, 3⟩, 1099511627776, 85528413,
    7769851539269184005839532484591242374346059800090138073963438532027202288965806321169013, lc0⟩) (.leaf ⟨183, 16,
    9, 1909, 16, 364, ⟨[[(0, 790909500184832)], [(0, 523437903565554)]], 2, 3⟩, ⟨[[(701448121963520, 0),
    (337536972552659, 0), (0, 4661111498), (2403137, 0)], [(79844080340328, 0), (25478762630, 0), (6958385, 0),
    (1971, 0)], [(9902094271, 0), (7489705, 0), (3715, 0), (2, 0)]], 2, 3⟩, 4503599627370496, 64, 20123362200275,
    ⟨[[(634560493621399, 0), (323296951679, 0), (0, 111576949), (0, 357017)], [(49363733263, 0), (175024557, 0),
    (486454, 0), (1351, 0)], [(0, 22277871), (0, 169232), (0, 873), (0, 4)]], 2, 3⟩, 1099511627776, 113515956,
    8455763067044706376596863368078483123205273783008500448349777766500167797499597745104722, lc0⟩))) (.sx (.sy
    (.leaf ⟨211, 16, 9, 1962, 16, 370, ⟨[[(0, 219726403694720)], [(0, 523437903565554)]], 2, 3⟩,
    ⟨[[(2016620539358208, 0), (333645992889549, 0), (0, 3983685938), (2305142, 0)], [(85301127160192, 0),
    (27076171376, 0), (7289935, 0), (1995, 0)], [(11153399678, 0), (8309133, 0), (4006, 0), (2, 0)]], 2, 3⟩,
    4503599627370496, 77, 24360791555358, ⟨[[(642827875231464, 0), (318196258709, 0), (0, 116358813), (0, 341856)],
    [(51875554394, 0), (183282765, 0), (506469, 0), (1392, 0)], [(0, 24712990), (0, 189052), (0, 971), (0, 4)]], 2,
    3⟩, 1099511627776, 126547949,
    10559289558618315344775036843834459137807762336343768759199969484577817730045950887932344, lc0⟩) (.leaf ⟨211, 16,
    9, 1961, 16, 365, ⟨[[(0, 219726403694720)], [(0, 523437903565554)]], 2, 3⟩, ⟨[[(1904730646693888, 0),
    (327267456971697, 0), (0, 1339737656), (2690954, 0)], [(94471185887792, 0), (32571395247, 0), (9723349, 0),
    (2937, 0)], [(14435446805, 0), (11680880, 0), (6210, 0), (3, 0)]], 2, 3⟩, 4503599627370496, 77, 54792710425057,
    ⟨[[(650973441103093, 0), (315726481110, 0), (0, 148732844), (0, 407383)], [(56980477115, 0), (215472496, 0),
    (649045, 0), (1938, 0)], [(0, 30326885), (0, 251629), (0, 1374), (0, 6)]], 2, 3⟩, 1099511627776, 172601851,
    18542519582784906604135691422345514603370563238121493368638687453456877632548429667074952, lc0⟩)) (.sy (.leaf
    ⟨183, 16, 9, 1914, 16, 360, ⟨[[(0, 790909500184832)], [(0, 523437903565554)]], 2, 3⟩, ⟨[[(80172480845824, 0),
    (331522721444030, 0), (0, 1897852756), (2824847, 0)], [(88722025994902, 0), (30840233439, 0), (9412238, 0),
    (2958, 0)], [(12912590129, 0), (10669363, 0), (5847, 0), (3, 0)]], 2, 3⟩, 4503599627370496, 64, 45621064964488,
    ⟨[[(642968725463816, 0), (320176406975, 0), (0, 145117728), (0, 429731)], [(54323049113, 0), (205933447, 0),
    (623892, 0), (1879, 0)], [(0, 27397865), (0, 226127), (0, 1246), (0, 5)]], 2, 3⟩, 1099511627776, 154831198,
    15227816166403004102086242306794993468895425695158177959902669705317716372926421477999445, lc0⟩) (.leaf ⟨183, 16,
    9, 1891, 16, 351, ⟨[[(0, 790909500184832)], [(0, 523437903565554)]], 2, 3⟩, ⟨[[(1193780324914176, 0),
    (323028021529206, 0), (1383673455, 0), (3463875, 0)], [(98291255670173, 0), (37732097791, 0), (13011412, 0),
    (4577, 0)], [(17060248583, 0), (15576708, 0), (9441, 0), (5, 0)]], 2, 3⟩, 4503599627370496, 64, 107736356339643,
    ⟨[[(651027452612177, 0), (319894024622, 0), (0, 190055091), (0, 542463)], [(60010591023, 0), (247995255, 0),
    (832758, 0), (2747, 0)], [(0, 34068346), (0, 309215), (0, 1829), (0, 8)]], 2, 3⟩, 1099511627776, 217354158,
    22315217148554185657948572235337512513018217425069739276219132483182601164580912145802188, lc0⟩)))
theorem c21 : checkC job ⟨6, 8, 5, 6, 9, 13⟩ 1 40 B1.zlims t21 3697 121 640 3259 175 3792 = true := by decide +kernel

def t22 : CTree :=
  .sy (.sx (.sy (.leaf ⟨155, 16, 9, 1861, 16, 359, ⟨[[(0, 1362092596674944)], [(0, 523437903565554)]], 2, 3⟩, ⟨[[(0,
    829654168619008), (342357405303316, 0), (0, 5522076838), (2481927, 0)], [(74648694678271, 0), (23828758112, 0),
    (6543730, 0), (1895, 0)], [(8720929937, 0), (6647239, 0), (3354, 0), (1, 0)]], 2, 3⟩, 4503599627370496, 50,
    16205381209616, ⟨[[(626075844592407, 0), (327765905133, 0), (0, 104105129), (0, 362468)], [(46809996127, 0),
    (165544237, 0), (458735, 0), (1278, 0)], [(0, 19914136), (0, 148834), (0, 761), (0, 3)]], 2, 3⟩, 1099511627776,
    101018737, 6051728762224203302259074905368399919837129881599205494655497507787068061968072567206261, lc0⟩) (.leaf
    ⟨155, 16, 9, 1866, 16, 355, ⟨[[(0, 1362092596674944)], [(0, 523437903565554)]], 2, 3⟩, ⟨[[(1208274803803136, 0),
    (335671845745398, 0), (0, 2661974668), (2915036, 0)], [(82946250555010, 0), (28888761947, 0), (8919488, 0),
    (2877, 0)], [(11401335891, 0), (9531053, 0), (5319, 0), (2, 0)]], 2, 3⟩, 4503599627370496, 50, 36726034620429,
    ⟨[[(634528903558633, 0), (325193198413, 0), (0, 137852773), (0, 440607)], [(51453338690, 0), (194459988, 0),
    (587838, 0), (1779, 0)], [(0, 24365851), (0, 198119), (0, 1090), (0, 5)]], 2, 3⟩, 1099511627776, 137116248,
    9623322092438396540424109059752828067879372985019952952001277381039714974761891281541250, lc0⟩)) (.sy (.leaf
    ⟨127, 16, 9, 1818, 16, 350, ⟨[[(0, 1933275693165056)], [(0, 523437903565554)]], 2, 3⟩, ⟨[[(868675806386176, 0),
    (339809254349476, 0), (0, 3623332376), (2963444, 0)], [(77226342437742, 0), (26791115830, 0), (8282701, 0),
    (2710, 0)], [(9945989957, 0), (8338565, 0), (4690, 0), (2, 0)]], 2, 3⟩, 4503599627370496, 45, 28634284049622,
    ⟨[[(625958443853294, 0), (330395308627, 0), (0, 128494779), (0, 443455)], [(48613786200, 0), (182629930, 0),
    (547751, 0), (1659, 0)], [(0, 21549219), (0, 171639), (0, 935), (0, 4)]], 2, 3⟩, 1099511627776, 121968133,
    6539319324303356720654785750769350284691487282767261064562259570094569695077339237080099, lc0⟩) (.leaf ⟨127, 16,
    9, 1813, 16, 344, ⟨[[(0, 1933275693165056)], [(0, 523437903565554)]], 2, 3⟩, ⟨[[(0, 396251036355584),
    (332641983275544, 0), (0, 141872611), (3665237, 0)], [(86244532921537, 0), (33179671521, 0), (11704355, 0),
    (4272, 0)], [(13316101379, 0), (12390440, 0), (7662, 0), (4, 0)]], 2, 3⟩, 4503599627370496, 45, 68813009427261,
    ⟨[[(634654425465415, 0), (328176284095, 0), (0, 173280497), (0, 562836)], [(53897951785, 0), (219492272, 0),
    (728731, 0), (2413, 0)], [(0, 26868304), (0, 235602), (0, 1389), (0, 6)]], 2, 3⟩, 1099511627776, 172405124,
    10872830712315944372077210927865945303177093040472723908285373113127679370968582057124622, lc0⟩))) (.sx (.sy
    (.leaf ⟨155, 16, 9, 1855, 16, 348, ⟨[[(0, 1362092596674944)], [(0, 523437903565554)]], 2, 3⟩, ⟨[[(0,
    4815290359808), (328356754296545, 0), (750620725, 0), (3605516, 0)], [(92429586942874, 0), (35654848321, 0),
    (12509237, 0), (4508, 0)], [(15206552155, 0), (14085750, 0), (8664, 0), (4, 0)]], 2, 3⟩, 4503599627370496, 50,
    87724992405784, ⟨[[(642981951415543, 0), (323344138779, 0), (0, 182974881), (0, 557216)], [(57012328550, 0),
    (234125635, 0), (783430, 0), (2590, 0)], [(0, 30430222), (0, 272203), (0, 1612), (0, 7)]], 2, 3⟩, 1099511627776,
    193796260, 16283094405404578213555462699562634938012024302953649453065091018479561399180449122824423, lc0⟩) (.sx
    (.leaf ⟨341, 16, 19, 2036, 16, 377, ⟨[[(1929528557537536, 0)], [(0, 552517787096973)]], 2, 3⟩, ⟨[[(0,
    1101512460587008), (354914568959792, 0), (4399262233, 0), (4804474, 0)], [(56413915567303, 0), (23739953781, 0),
    (9191161, 0), (3594, 0)], [(5452556450, 0), (5463836, 0), (3602, 0), (2, 0)]], 2, 3⟩, 4503599627370496, 94,
    19122608274673, ⟨[[(651160363629964, 0), (290918736488, 0), (0, 188341376), (0, 504866)], [(29716125263, 0),
    (119258411, 0), (394020, 0), (1264, 0)], [(0, 8418904), (0, 73936), (0, 419), (0, 2)]], 2, 3⟩, 1099511627776,
    79180310, 19343632378802978893375815840492347426274315554968323717051940359210565527974855359404199, lc0⟩) (.leaf
    ⟨312, 16, 19, 1996, 16, 369, ⟨[[(0, 1175386726185472)], [(0, 552517787096973)]], 2, 3⟩, ⟨[[(0, 1820469067612160),
    (353339828001643, 0), (6707174408, 0), (5677377, 0)], [(57967162283168, 0), (26080535265, 0), (10928406, 0),
    (4600, 0)], [(6050226509, 0), (6447677, 0), (4513, 0), (3, 0)]], 2, 3⟩, 4503599627370496, 132, 28051292000810,
    ⟨[[(651230124589699, 0), (292271127301, 0), (0, 214531438), (0, 592740)], [(30622315989, 0), (129186444, 0),
    (451781, 0), (1520, 0)], [(0, 8973877), (0, 82472), (0, 485), (0, 2)]], 2, 3⟩, 1099511627776, 97224117,
    16613849734872504255132131292026052986448056087469152019046333336728222771591863478883377, lc0⟩))) (.sy (.leaf
    ⟨127, 16, 9, 1780, 16, 333, ⟨[[(0, 1933275693165056)], [(0, 523437903565554)]], 2, 3⟩, ⟨[[(0, 7457156548608),
    (323344359174285, 0), (4178740148, 0), (4784703, 0)], [(96318157547151, 0), (41860948573, 0), (16994186, 0),
    (6959, 0)], [(18183140934, 0), (18878255, 0), (12855, 0), (7, 0)]], 2, 3⟩, 4503599627370496, 45, 169547959355173,
    ⟨[[(642995498951344, 0), (328541170751, 0), (0, 236234194), (0, 755360)], [(60090665614, 0), (271152900, 0),
    (1013528, 0), (3698, 0)], [(0, 33993326), (0, 332593), (0, 2130), (0, 10)]], 2, 3⟩, 1099511627776, 253630765,
    16873341630346259136028904623178449054305626502160603451943274060503088266728855234241547, lc0⟩) (.sx (.leaf
    ⟨282, 16, 19, 1950, 16, 360, ⟨[[(223297617461760, 0)], [(0, 552517787096973)]], 2, 3⟩, ⟨[[(188315616047104, 0),
    (351272798579281, 0), (9406361667, 0), (6799762, 0)], [(59607083499850, 0), (28806987004, 0), (13111866, 0),
    (6048, 0)], [(6743380138, 0), (7667037, 0), (5830, 0), (4, 0)]], 2, 3⟩, 4503599627370496, 51, 41417547826936,
    ⟨[[(651094419531883, 0), (294224679050, 0), (0, 245708880), (0, 704209)], [(31543422547, 0), (140376149, 0),
    (520782, 0), (1840, 0)], [(0, 9543530), (0, 91950), (0, 563), (0, 3)]], 2, 3⟩, 1099511627776, 121443564,
    11562650548320519865206217954838023836428770558165608444787222456400647597430338848519030, lc0⟩) (.leaf ⟨252, 16,
    19, 1899, 16, 350, ⟨[[(1621981961109120, 0)], [(0, 552517787096973)]], 2, 3⟩, ⟨[[(348403513492480, 0),
    (348762068570392, 0), (12601461128, 0), (8310659, 0)], [(61358678495978, 0), (32031957525, 0), (16007209, 0),
    (8407, 0)], [(7560909334, 0), (9289284, 0), (8038, 0), (7, 0)]], 2, 3⟩, 4503599627370496, 47, 61804855623254,
    ⟨[[(651080960464799, 0), (296433250738, 0), (0, 285007740), (0, 851567)], [(32608042607, 0), (153997140, 0),
    (608900, 0), (2266, 0)], [(0, 10212589), (0, 103583), (0, 662), (0, 3)]], 2, 3⟩, 1099511627776, 154094477,
    27691651717282203624809924757530507639735270604906067191589433325806115859673347178617308, lc0⟩))))
theorem c22 : checkC job ⟨6, 8, 5, 6, 9, 13⟩ 1 40 B1.zlims t22 3939 121 640 3259 175 3792 = true := by decide +kernel

def t23 : CTree :=
  .sx (.sy (.leaf ⟨211, 16, 9, 1932, 16, 355, ⟨[[(0, 219726403694720)], [(0, 523437903565554)]], 2, 3⟩,
    ⟨[[(1860391724943360, 0), (318420653414544, 0), (1756410207, 0), (3260839, 0)], [(104266111470094, 0),
    (39520057138, 0), (13227651, 0), (4476, 0)], [(18892323870, 0), (16817695, 0), (9927, 0), (5, 0)]], 2, 3⟩,
    4503599627370496, 77, 127755366587659, ⟨[[(658896952190771, 0), (315994167800, 0), (0, 192447665), (0, 508674)],
    [(62912177885, 0), (259750739, 0), (868282, 0), (2846, 0)], [(0, 37715789), (0, 343497), (0, 2006), (0, 9)]], 2,
    3⟩, 1099511627776, 241999340,
    25714472228043959998157841799655041267437344255415131240157973794428254857617602495220970, lc0⟩) (.sx (.leaf
    ⟨460, 16, 19, 2148, 16, 390, ⟨[[(838390810318848, 0)], [(0, 552517787096973)]], 2, 3⟩, ⟨[[(2074024865228800, 0),
    (349334880013747, 0), (5029755436, 0), (4284385, 0)], [(64194203079447, 0), (26224134305, 0), (9545792, 0),
    (3502, 0)], [(6737258027, 0), (6435748, 0), (4077, 0), (2, 0)]], 2, 3⟩, 4503599627370496, 153, 17785480201364,
    ⟨[[(666603934866997, 0), (280608385434, 0), (0, 184725478), (0, 419823)], [(32595909250, 0), (128937002, 0),
    (416681, 0), (1304, 0)], [(0, 10299392), (0, 89572), (0, 486), (0, 2)]], 2, 3⟩, 1099511627776, 67236918,
    23751450841262065785501641010030589189653780808357221034346573252215102154851759184504183, lc0⟩) (.leaf ⟨430, 16,
    19, 2097, 16, 380, ⟨[[(2237075153966080, 0)], [(0, 552517787096973)]], 2, 3⟩, ⟨[[(0, 801001427095552),
    (346955128771332, 0), (7407222490, 0), (5136862, 0)], [(65951087485420, 0), (28926403191, 0), (11515821, 0),
    (4610, 0)], [(7531487551, 0), (7737574, 0), (5246, 0), (3, 0)]], 2, 3⟩, 4503599627370496, 46, 26072022057346,
    ⟨[[(666770750232707, 0), (282215575777, 0), (0, 214381633), (0, 510116)], [(33798369089, 0), (141944378, 0),
    (490217, 0), (1617, 0)], [(0, 11171997), (0, 102631), (0, 583), (0, 2)]], 2, 3⟩, 1099511627776, 85903573,
    27663430909801022638097288379763814989851101305428619626361735857098937463708738259152222, lc0⟩))) (.sy (.sx
    (.leaf ⟨401, 16, 19, 2090, 16, 383, ⟨[[(0, 867840129757184)], [(0, 552517787096973)]], 2, 3⟩, ⟨[[(0,
    2159412274468864), (351931126423912, 0), (4886705377, 0), (4597519, 0)], [(60294956969355, 0), (25116802520, 0),
    (9496541, 0), (3623, 0)], [(6110740234, 0), (6015011, 0), (3909, 0), (2, 0)]], 2, 3⟩, 4503599627370496, 137,
    18628936294146, ⟨[[(659165482734594, 0), (285592450264, 0), (0, 189650689), (0, 471718)], [(31265550501, 0),
    (125175318, 0), (410978, 0), (1304, 0)], [(0, 9422951), (0, 82913), (0, 462), (0, 2)]], 2, 3⟩, 1099511627776,
    74716438, 25587514414986613886360102282337649706280379545810499211137770608824177346563802450609079, lc0⟩) (.leaf
    ⟨371, 16, 19, 2044, 16, 374, ⟨[[(530844213890304, 0)], [(0, 552517787096973)]], 2, 3⟩, ⟨[[(0, 1511479546205184),
    (349964361937077, 0), (7260097511, 0), (5478305, 0)], [(61963563395016, 0), (27669853155, 0), (11382276, 0),
    (4700, 0)], [(6810686452, 0), (7167427, 0), (4959, 0), (3, 0)]], 2, 3⟩, 4503599627370496, 89, 27323824699613,
    ⟨[[(659114868307441, 0), (287204092160, 0), (0, 217459004), (0, 562102)], [(32262133087, 0), (136347732, 0),
    (475708, 0), (1587, 0)], [(0, 10090262), (0, 93249), (0, 542), (0, 2)]], 2, 3⟩, 1099511627776, 93327437,
    25731476877620004685347290948327378691668588991472268271804764303914345813153320915703640, lc0⟩)) (.sx (.leaf
    ⟨401, 16, 19, 2040, 16, 369, ⟨[[(0, 867840129757184)], [(0, 552517787096973)]], 2, 3⟩, ⟨[[(0, 1504991049048064),
    (344183113696780, 0), (10228372129, 0), (6262367, 0)], [(67853632491649, 0), (32155263116, 0), (14046439, 0),
    (6170, 0)], [(8479999503, 0), (9375657, 0), (6857, 0), (4, 0)]], 2, 3⟩, 4503599627370496, 137, 38568489872063,
    ⟨[[(666837762696575, 0), (284474152547, 0), (0, 249830247), (0, 625784)], [(35032786722, 0), (156702861, 0),
    (579026, 0), (2015, 0)], [(0, 12084533), (0, 117364), (0, 699), (0, 3)]], 2, 3⟩, 1099511627776, 109695030,
    30224747927847613730317604174237701263500625034874024592331689873204422985960263195080797, lc0⟩) (.leaf ⟨371, 16,
    19, 1977, 16, 357, ⟨[[(530844213890304, 0)], [(0, 552517787096973)]], 2, 3⟩, ⟨[[(0, 111560418721792),
    (341093756164218, 0), (13619328057, 0), (7792526, 0)], [(69947366717579, 0), (36059234804, 0), (17402485, 0),
    (8588, 0)], [(9621907591, 0), (11520844, 0), (9365, 0), (7, 0)]], 2, 3⟩, 4503599627370496, 89, 57527421485036,
    ⟨[[(666738419322845, 0), (287127674741, 0), (0, 293878096), (0, 780048)], [(36347990893, 0), (174006831, 0),
    (690049, 0), (2539, 0)], [(0, 13071039), (0, 134532), (0, 841), (0, 4)]], 2, 3⟩, 1099511627776, 143746117,
    31214792862786798981059933838211926558898322901654046882152214023911944929462694487668932, lc0⟩)))
theorem c23 : checkC job ⟨6, 8, 5, 6, 9, 13⟩ 1 40 B1.zlims t23 3697 121 640 7043 175 7584 = true := by decide +kernel

def t24 : CTree :=
  .sx (.sy (.sx (.leaf ⟨460, 16, 19, 2098, 16, 376, ⟨[[(838390810318848, 0)], [(0, 552517787096973)]], 2, 3⟩, ⟨[[(0,
    1418918057797632), (341877093991827, 0), (9951657691, 0), (5739123, 0)], [(72032226417687, 0), (33218576700, 0),
    (13901325, 0), (5864, 0)], [(9253732543, 0), (9915933, 0), (7041, 0), (4, 0)]], 2, 3⟩, 4503599627370496, 153,
    36191191835492, ⟨[[(674338088794244, 0), (279197304472, 0), (0, 239750497), (0, 542399)], [(36582161967, 0),
    (161629886, 0), (588314, 0), (2022, 0)], [(0, 13249153), (0, 126598), (0, 731), (0, 3)]], 2, 3⟩, 1099511627776,
    96514043, 26574463779608238769810135909378974136322802357498731372821695579981801485919999360757148, lc0⟩) (.leaf
    ⟨430, 16, 19, 2029, 16, 363, ⟨[[(2237075153966080, 0)], [(0, 552517787096973)]], 2, 3⟩, ⟨[[(81664548826112, 0),
    (338426845923487, 0), (13301182025, 0), (7189533, 0)], [(74239247522205, 0), (37320029338, 0), (17327175, 0),
    (8170, 0)], [(10543444459, 0), (12268028, 0), (9570, 0), (7, 0)]], 2, 3⟩, 4503599627370496, 46, 53922392956055,
    ⟨[[(674229768159334, 0), (282068436312, 0), (0, 284119512), (0, 688852)], [(38026619356, 0), (180470317, 0),
    (706970, 0), (2570, 0)], [(0, 14422935), (0, 146618), (0, 892), (0, 4)]], 2, 3⟩, 1099511627776, 128114986,
    30477180543949856684883827394416691076407775410666184566272699262858441262832901864694246, lc0⟩)) (.sx (.leaf
    ⟨460, 16, 19, 2012, 16, 356, ⟨[[(838390810318848, 0)], [(0, 552517787096973)]], 2, 3⟩, ⟨[[(0, 1912386778779648),
    (332575839295523, 0), (16453164075, 0), (8284015, 0)], [(81101792996093, 0), (43216630147, 0), (21371053, 0),
    (10899, 0)], [(13079042841, 0), (16060268, 0), (13459, 0), (10, 0)]], 2, 3⟩, 4503599627370496, 153,
    74806688934443, ⟨[[(681699482409666, 0), (279870313330, 0), (0, 320404751), (0, 743618)], [(41425076998, 0),
    (209554586, 0), (873433, 0), (3329, 0)], [(0, 17270340), (0, 183236), (0, 1137), (0, 5)]], 2, 3⟩, 1099511627776,
    146756045, 25657563664939121456572148151945806754637561408011165523993463752157996797797457229948346, lc0⟩)
    (.leaf ⟨430, 16, 19, 1920, 16, 339, ⟨[[(2237075153966080, 0)], [(0, 552517787096973)]], 2, 3⟩, ⟨[[(0,
    719689949950976), (327648539558942, 0), (21472244953, 0), (11120049, 0)], [(83909331420049, 0), (49841372668, 0),
    (28260550, 0), (17095, 0)], [(15305014746, 0), (21084359, 0), (20803, 0), (19, 0)]], 2, 3⟩, 4503599627370496, 46,
    113795690648833, ⟨[[(681605541005148, 0), (283948630593, 0), (0, 395602728), (0, 1011793)], [(43454051980, 0),
    (240757726, 0), (1094928, 0), (4459, 0)], [(0, 19100266), (0, 218524), (0, 1447), (0, 7)]], 2, 3⟩, 1099511627776,
    209536283, 34341422389236570025839989751817101434994319741218600848026457961630422376544652640556620, lc0⟩)))
    (.sy (.sx (.leaf ⟨401, 16, 19, 1955, 16, 349, ⟨[[(0, 867840129757184)], [(0, 552517787096973)]], 2, 3⟩, ⟨[[(0,
    1174113091845120), (334814260687149, 0), (17436063431, 0), (9269778, 0)], [(76745791739535, 0), (42434383327, 0),
    (22128292, 0), (12057, 0)], [(12144977423, 0), (15545209, 0), (13891, 0), (12, 0)]], 2, 3⟩, 4503599627370496,
    137, 81324807829639, ⟨[[(674332806597744, 0), (284950954928, 0), (0, 341569496), (0, 890466)], [(39735729682, 0),
    (204025800, 0), (864477, 0), (3337, 0)], [(0, 15832895), (0, 171861), (0, 1105), (0, 5)]], 2, 3⟩, 1099511627776,
    173733365, 34893951394613224771884079644357197267227260221958979837361323435419422659671864003982432, lc0⟩) (.sy
    (.leaf ⟨371, 16, 19, 3373, 16, 603, ⟨[[(530844213890304, 0)], [(0, 552517787096973)]], 2, 3⟩,
    ⟨[[(1132752489932800, 0), (295646559473833, 0), (8888929911, 0), (2421462, 0)], [(136466083543987, 0),
    (40018859601, 0), (11287747, 0), (3424, 0)], [(22721551289, 0), (15567322, 0), (7741, 0), (4, 0)]], 2, 3⟩,
    4503599627370496, 89, 42861938021618, ⟨[[(672343285922714, 0), (162468507375, 0), (0, 120679545), (0, 188642)],
    [(40115641355, 0), (121278674, 0), (302611, 0), (682, 0)], [(0, 16121814), (0, 102432), (0, 385), (0, 1)]], 2,
    3⟩, 1099511627776, 56772360,
    34671309901646214810752457142010558543346500843118169718672327193575068953155101576901696, lc0⟩) (.leaf ⟨371, 16,
    19, 3228, 16, 573, ⟨[[(530844213890304, 0)], [(0, 552517787096973)]], 2, 3⟩, ⟨[[(0, 2185399156668416),
    (287789611053059, 0), (11281681688, 0), (3172535, 0)], [(144458928158312, 0), (46956627959, 0), (15163051, 0),
    (5432, 0)], [(27850236379, 0), (21585483, 0), (12643, 0), (7, 0)]], 2, 3⟩, 4503599627370496, 89, 65469849140624,
    ⟨[[(676171154480738, 0), (164521047151, 0), (0, 149573946), (0, 246273)], [(43211228602, 0), (144238044, 0),
    (394862, 0), (956, 0)], [(0, 18817429), (0, 129226), (0, 516), (0, 1)]], 2, 3⟩, 1099511627776, 73820052,
    41211871871294189957803595408115410900674804284370194162390922817281075037953876226744433, lc0⟩))) (.sx (.sy
    (.leaf ⟨401, 16, 19, 3259, 16, 576, ⟨[[(0, 867840129757184)], [(0, 552517787096973)]], 2, 3⟩, ⟨[[(0,
    553563995557888), (285673136339802, 0), (10948690987, 0), (2980440, 0)], [(147992916028302, 0), (47211633702, 0),
    (14759257, 0), (5052, 0)], [(28808881835, 0), (21653853, 0), (12087, 0), (6, 0)]], 2, 3⟩, 4503599627370496, 137,
    68677091599813, ⟨[[(679789716442939, 0), (163868207387, 0), (0, 146164232), (0, 230164)], [(44102587937, 0),
    (146748667, 0), (399877, 0), (965, 0)], [(0, 19674433), (0, 134262), (0, 529), (0, 1)]], 2, 3⟩, 1099511627776,
    76204397, 37199070194079630109209308810182989879435690405239190300246213323351661649121080078952041, lc0⟩) (.leaf
    ⟨401, 16, 19, 3082, 16, 541, ⟨[[(0, 867840129757184)], [(0, 552517787096973)]], 2, 3⟩, ⟨[[(72667831070720, 0),
    (276674343380679, 0), (13819147744, 0), (4048653, 0)], [(156452337351485, 0), (56150808421, 0), (20482479, 0),
    (8245, 0)], [(35871820823, 0), (31057353, 0), (20274, 0), (12, 0)]], 2, 3⟩, 4503599627370496, 137,
    105088946772271, ⟨[[(683382800738401, 0), (167118942333, 0), (0, 184186864), (0, 309374)], [(47600099661, 0),
    (176950931, 0), (533885, 0), (1398, 0)], [(0, 22962825), (0, 170636), (0, 720), (0, 2)]], 2, 3⟩, 1099511627776,
    98905144, 41436203176677163592154444506039225967014603849271999777730945981116213741812863597421145, lc0⟩)) (.sy
    (.sx (.leaf ⟨777, 16, 39, 3645, 16, 643, ⟨[[(16334344742400, 0)], [(0, 567057728862683)]], 2, 3⟩, ⟨[[(0,
    646923681251328), (329354072819859, 0), (15735757634, 0), (4636648, 0)], [(89024147061618, 0), (31512935398, 0),
    (11372124, 0), (4566, 0)], [(9745584453, 0), (8369120, 0), (5468, 0), (3, 0)]], 2, 3⟩, 4503599627370496, 177,
    8906690903653, ⟨[[(679777242510480, 0), (142027668409, 0), (0, 128543241), (0, 187348)], [(22394678656, 0),
    (69092418, 0), (173600, 0), (380, 0)], [(0, 5070464), (0, 31579), (0, 113)]], 2, 3⟩, 1099511627776, 22200554,
    41833827013582429533701353717191497364230491776115812083173861630790800493235772808106629, lc0⟩) (.leaf ⟨747, 16,
    39, 3531, 16, 622, ⟨[[(0, 2103647218911744)], [(0, 567057728862683)]], 2, 3⟩, ⟨[[(0, 1920292917891072),
    (326489701950628, 0), (18232637715, 0), (5761641, 0)], [(91025415344200, 0), (34925733346, 0), (14059595, 0),
    (6254, 0)], [(10923398638, 0), (10397060, 0), (7498, 0), (5, 0)]], 2, 3⟩, 4503599627370496, 472, 11609872319219,
    ⟨[[(679826682968610, 0), (143190528759, 0), (0, 146412626), (0, 225333)], [(23078094282, 0), (75396344, 0),
    (199650, 0), (456, 0)], [(0, 5375683), (0, 35034), (0, 130)]], 2, 3⟩, 1099511627776, 27124688,
    45838140664252171275359990720871751485064493964166810458413946212535488360763540655366844, lc0⟩)) (.sx (.leaf
    ⟨777, 16, 39, 3454, 16, 605, ⟨[[(16334344742400, 0)], [(0, 567057728862683)]], 2, 3⟩, ⟨[[(0, 67857028896768),
    (322105708297277, 0), (20508837518, 0), (6734423, 0)], [(95666646336053, 0), (39086582846, 0), (16881754, 0),
    (7877, 0)], [(12710453305, 0), (12884945, 0), (9691, 0), (6, 0)]], 2, 3⟩, 4503599627370496, 177, 14700406079744,
    ⟨[[(683372312172164, 0), (143440676128, 0), (0, 162693137), (0, 253581)], [(24311139179, 0), (83875936, 0),
    (232880, 0), (551, 0)], [(0, 5970704), (0, 40409), (0, 154)]], 2, 3⟩, 1099511627776, 31404920,
    46290312435524621193276918280785031264513798233374278958712095936525808963931703522086216, lc0⟩) (.sx (.leaf
    ⟨1528, 16, 79, 3704, 16, 648, ⟨[[(0, 1628715370317824)], [(0, 574327699745538)]], 2, 3⟩, ⟨[[(0,
    1313184731928576), (353086844426262, 0), (25624290626, 0), (8978996, 0)], [(53877336436130, 0), (23730270174, 0),
    (11213511, 0), (5580, 0)], [(3900308439, 0), (4297737, 0), (3432, 0), (2, 0)]], 2, 3⟩, 4503599627370496, 219,
    6901302625574, ⟨[[(683410843097616, 0), (130792934890, 0), (0, 149452916), (0, 221456)], [(12317016646, 0),
    (40460315, 0), (106413, 0), (237, 0)], [(0, 1528259), (0, 9744), (0, 35)]], 2, 3⟩, 1099511627776, 19553006,
    47411494401747780436121194139381718132055044026748587883535812744558904106239212411026876, lc0⟩) (.leaf ⟨1497,
    16, 79, 3632, 16, 635, ⟨[[(0, 1004430260252672)], [(0, 574327699745538)]], 2, 3⟩, ⟨[[(1323943336697856, 0),
    (351890507406179, 0), (27979412733, 0), (10255505, 0)], [(54739378879830, 0), (25456820049, 0), (12780190, 0),
    (6609, 0)], [(4217172782, 0), (4912528, 0), (4063, 0), (3, 0)]], 2, 3⟩, 4503599627370496, 236, 8097223837451,
    ⟨[[(683331847828080, 0), (131442488112, 0), (0, 160799494), (0, 246038)], [(12509785392, 0), (42436830, 0),
    (114882, 0), (261, 0)], [(0, 1572952), (0, 10290), (0, 38)]], 2, 3⟩, 1099511627776, 22457586,
    47885873117330679811060659717632735102061040144030462823129166628250005233572860371471504, lc0⟩))))))
theorem c24 : checkC job ⟨6, 8, 5, 6, 9, 13⟩ 1 40 B1.zlims t24 3697 121 640 7393 175 7584 = true := by decide +kernel

def t25 : CTree :=
  .sx (.sy (.sx (.leaf ⟨341, 16, 19, 1992, 16, 364, ⟨[[(1929528557537536, 0)], [(0, 552517787096973)]], 2, 3⟩,
    ⟨[[(1584618100499456, 0), (347562267773506, 0), (10057693352, 0), (6625222, 0)], [(63749959035480, 0),
    (30682470711, 0), (13776612, 0), (6233, 0)], [(7634116969, 0), (8605115, 0), (6442, 0), (4, 0)]], 2, 3⟩,
    4503599627370496, 94, 40420083881116, ⟨[[(658907393199192, 0), (289488964719, 0), (0, 250497567), (0, 676774)],
    [(33270871897, 0), (148901620, 0), (552947, 0), (1941, 0)], [(0, 10773101), (0, 104707), (0, 635), (0, 3)]], 2,
    3⟩, 1099511627776, 117454181,
    24934404463350787026744267410280322654537567497187506542355533644514611848297921847641305, lc0⟩) (.leaf ⟨312, 16,
    19, 1936, 16, 353, ⟨[[(0, 1175386726185472)], [(0, 552517787096973)]], 2, 3⟩, ⟨[[(0, 1951324538680320),
    (344787030247731, 0), (13396541030, 0), (8177574, 0)], [(65688747464466, 0), (34286220900, 0), (16953986, 0),
    (8681, 0)], [(8615253977, 0), (10504692, 0), (8853, 0), (7, 0)]], 2, 3⟩, 4503599627370496, 132, 60364790248338,
    ⟨[[(659162301567319, 0), (291537368045, 0), (0, 294312769), (0, 834248)], [(34590681859, 0), (165376690, 0),
    (658348, 0), (2442, 0)], [(0, 11685994), (0, 120172), (0, 763), (0, 3)]], 2, 3⟩, 1099511627776, 152902988,
    20843489413793339944379733456044710213721500863783502452740931114964006922051980437609168, lc0⟩)) (.sx (.leaf
    ⟨341, 16, 19, 1909, 16, 344, ⟨[[(1929528557537536, 0)], [(0, 552517787096973)]], 2, 3⟩, ⟨[[(0, 1198100511878144),
    (337792504540355, 0), (17789348747, 0), (10004014, 0)], [(72295173306771, 0), (40902282770, 0), (22181137, 0),
    (12837, 0)], [(11037436261, 0), (14596397, 0), (13882, 0), (13, 0)]], 2, 3⟩, 4503599627370496, 94,
    87045658514206, ⟨[[(666797840321626, 0), (289674842259, 0), (0, 351340393), (0, 993368)], [(37918090590, 0),
    (195753740, 0), (837716, 0), (3270, 0)], [(0, 14268764), (0, 156328), (0, 1030), (0, 5)]], 2, 3⟩, 1099511627776,
    193017113, 32324939971838757926253860202395363712086255999369042966658010863108132998306462967617802, lc0⟩)
    (.leaf ⟨312, 16, 19, 1835, 16, 330, ⟨[[(0, 1175386726185472)], [(0, 552517787096973)]], 2, 3⟩, ⟨[[(0,
    331060993844224), (334454861105245, 0), (23147735244, 0), (13511934, 0)], [(75007088408000, 0), (47241704231, 0),
    (29753960, 0), (21108, 0)], [(12914504256, 0), (19604640, 0), (22896, 0), (26, 0)]], 2, 3⟩, 4503599627370496,
    132, 133960088549430, ⟨[[(666772849097157, 0), (292834460076, 0), (0, 423086136), (0, 1280353)], [(39566448307,
    0), (221173726, 0), (1023319, 0), (4247, 0)], [(0, 15544923), (0, 181696), (0, 1264), (0, 6)]], 2, 3⟩,
    1099511627776, 263228766,
    29745666275468301982881829174064802701919629779425538319862108317688416453171515575937383, lc0⟩))) (.sy (.sx
    (.leaf ⟨282, 16, 19, 1873, 16, 341, ⟨[[(223297617461760, 0)], [(0, 552517787096973)]], 2, 3⟩,
    ⟨[[(1317335601152000, 0), (341730195419008, 0), (17483302989, 0), (10436949, 0)], [(67831739688222, 0),
    (38735137083, 0), (21544287, 0), (13106, 0)], [(9830937155, 0), (13299249, 0), (13349, 0), (13, 0)]], 2, 3⟩,
    4503599627370496, 51, 91409016280200, ⟨[[(658945425654267, 0), (294624895981, 0), (0, 345942290), (0, 1035846)],
    [(35815256342, 0), (183195820, 0), (781613, 0), (3065, 0)], [(0, 12538037), (0, 136445), (0, 909), (0, 4)]], 2,
    3⟩, 1099511627776, 199695909,
    13127778456002006927153016247741898237317072558723488981636945046591795612173380596982838, lc0⟩) (.sy (.leaf
    ⟨252, 16, 19, 3291, 16, 600, ⟨[[(1621981961109120, 0)], [(0, 552517787096973)]], 2, 3⟩, ⟨[[(0, 886324565309440),
    (306293379919642, 0), (8848610163, 0), (2708801, 0)], [(121802840599932, 0), (36556249869, 0), (10974020, 0),
    (3744, 0)], [(18373797414, 0), (13359195, 0), (7547, 0), (4, 0)]], 2, 3⟩, 4503599627370496, 47, 31083193158542,
    ⟨[[(657101275151371, 0), (165337953874, 0), (0, 116750915), (0, 202790)], [(36087349119, 0), (106445246, 0),
    (262360, 0), (591, 0)], [(0, 12676704), (0, 79024), (0, 301), (0, 1)]], 2, 3⟩, 1099511627776, 45285384,
    34027819263606170996560447221039327557988216491683639971536470749805065663584139481878178, lc0⟩) (.leaf ⟨252, 16,
    19, 3160, 16, 572, ⟨[[(1621981961109120, 0)], [(0, 552517787096973)]], 2, 3⟩, ⟨[[(817850168662016, 0),
    (298972790093804, 0), (11684181130, 0), (3714019, 0)], [(129775500436158, 0), (43777237842, 0), (15543727, 0),
    (6452, 0)], [(23066593223, 0), (19709135, 0), (13504, 0), (9, 0)]], 2, 3⟩, 4503599627370496, 47, 50304005893157,
    ⟨[[(660949078972314, 0), (167256677035, 0), (0, 145356016), (0, 265610)], [(38763943694, 0), (125802042, 0),
    (339365, 0), (819, 0)], [(0, 14728992), (0, 99422), (0, 403), (0, 1)]], 2, 3⟩, 1099511627776, 59424654,
    43838614889606415994486511269379085083353229868501750295667207503582258811730500918945880, lc0⟩))) (.sx (.sy
    (.leaf ⟨282, 16, 19, 3171, 16, 571, ⟨[[(223297617461760, 0)], [(0, 552517787096973)]], 2, 3⟩, ⟨[[(0,
    1425042573195264), (295921472696132, 0), (11739805594, 0), (3624283, 0)], [(133583915762249, 0), (44908597594,
    0), (15666727, 0), (6308, 0)], [(24392152198, 0), (20442821, 0), (13555, 0), (8, 0)]], 2, 3⟩, 4503599627370496,
    51, 54420231903726, ⟨[[(664890349671913, 0), (166541921434, 0), (0, 148634047), (0, 266628)], [(39974721270, 0),
    (131335272, 0), (357187, 0), (865, 0)], [(0, 15796285), (0, 107679), (0, 436), (0, 1)]], 2, 3⟩, 1099511627776,
    63514459, 14665422889414822387494212704527433417406217527222971859688232886476807529592513138975578, lc0⟩) (.leaf
    ⟨282, 16, 19, 2998, 16, 536, ⟨[[(223297617461760, 0)], [(0, 552517787096973)]], 2, 3⟩, ⟨[[(1158532069462016, 0),
    (286938899970146, 0), (15460778331, 0), (5245823, 0)], [(142250589980463, 0), (55159201776, 0), (23357559, 0),
    (11174, 0)], [(31578264847, 0), (31814859, 0), (24808, 0), (16, 0)]], 2, 3⟩, 4503599627370496, 51,
    88770796662454, ⟨[[(668601386526520, 0), (169746533150, 0), (0, 190734816), (0, 366931)], [(43160363091, 0),
    (158761205, 0), (479018, 0), (1259, 0)], [(0, 18489173), (0, 138077), (0, 602), (0, 2)]], 2, 3⟩, 1099511627776,
    86263722, 23774699726863386698578141951174269674691082320121511122266168786082116024869007486020413, lc0⟩)) (.sy
    (.sx (.leaf ⟨533, 16, 39, 3504, 16, 630, ⟨[[(1070880344988672, 0)], [(0, 567057728862683)]], 2, 3⟩,
    ⟨[[(2035714457202688, 0), (336326041166437, 0), (16675434131, 0), (5631356, 0)], [(79075900084430, 0),
    (29660733730, 0), (12162449, 0), (5730, 0)], [(8193634653, 0), (8029501, 0), (6191, 0), (4, 0)]], 2, 3⟩,
    4503599627370496, 58, 9272594100196, ⟨[[(664778747408040, 0), (146840688086, 0), (0, 132305099), (0, 219448)],
    [(20150329274, 0), (61804839, 0), (156416, 0), (348, 0)], [(0, 4003225), (0, 25140), (0, 93)]], 2, 3⟩,
    1099511627776, 24767989,
    33476717251490213735185719783110672264753447416308741940097609666186013980837727394447594, lc0⟩) (.sx (.leaf
    ⟨1034, 16, 79, 3714, 16, 667, ⟨[[(0, 647352864016384)], [(0, 574327699745538)]], 2, 3⟩, ⟨[[(0, 1310899001307136),
    (362077308362265, 0), (20227999277, 0), (7219803, 0)], [(43526091971265, 0), (17406248743, 0), (7798766, 0),
    (3940, 0)], [(2430373526, 0), (2592358, 0), (2132, 0), (1, 0)]], 2, 3⟩, 4503599627370496, 481, 5374221961697,
    ⟨[[(664898513646387, 0), (136336060734, 0), (0, 123668159), (0, 195758)], [(10162273084, 0), (29956506, 0),
    (72674, 0), (154, 0)], [(0, 1016407), (0, 6085), (0, 21)]], 2, 3⟩, 1099511627776, 17574973,
    46814146001556958639776169897747585129811023847756828588943975563121613114012457914654811, lc0⟩) (.sy (.sx (.leaf
    ⟨2021, 16, 158, 7500, 16, 1349, ⟨[[(1893521750751232, 0)], [(0, 574327699745538)]], 2, 3⟩, ⟨[[(1062710416367616,
    0), (365767410273429, 0), (9985650773, 0), (1778258, 0)], [(43371342983203, 0), (8588464581, 0), (1906428, 0),
    (480, 0)], [(1188277591, 0), (628773, 0), (258, 0)]], 2, 3⟩, 4503599627370496, 55, 521018299948,
    ⟨[[(663882351777450, 0), (67757255182, 0), (0, 29832483), (0, 23413)], [(5020143092, 0), (7273061, 0), (8687, 0),
    (9, 0)], [(0, 247597), (0, 730), (0, 1)]], 2, 3⟩, 1099511627776, 1070721,
    44336623764469195681515580649323522326835645165581004433776521703417358459496174619239613, lc0⟩) (.skip))
    (.skip)))) (.sx (.sx (.leaf ⟨1096, 16, 79, 3642, 16, 650, ⟨[[(0, 1895923084145664)], [(0, 574327699745538)]], 2,
    3⟩, ⟨[[(0, 234436079366144), (359076659856346, 0), (23836297235, 0), (8942934, 0)], [(46337747513768, 0),
    (20207378985, 0), (9949907, 0), (5298, 0)], [(2949483913, 0), (3425396, 0), (2945, 0), (2, 0)]], 2, 3⟩,
    4503599627370496, 588, 6907304887698, ⟨[[(668670586344992, 0), (135770757659, 0), (0, 140087759), (0, 226506)],
    [(10756661284, 0), (33579262, 0), (85536, 0), (187, 0)], [(0, 1144068), (0, 7148), (0, 26)]], 2, 3⟩,
    1099511627776, 21038840,
    38135356620085342567941233146667054144086835194384058435510082215606134594302049727897279, lc0⟩) (.sy (.leaf
    ⟨1065, 16, 79, 6766, 16, 1209, ⟨[[(0, 1271637974080512)], [(0, 574327699745538)]], 2, 3⟩, ⟨[[(0,
    1583934676725760), (334595568785075, 0), (11108019911, 0), (2100730, 0)], [(85547100038375, 0), (18710304918, 0),
    (4640834, 0), (1245, 0)], [(5424947145, 0), (3174985, 0), (1375, 0)]], 2, 3⟩, 4503599627370496, 572,
    2156063291931, ⟨[[(667745179481044, 0), (73094739174, 0), (0, 40396513), (0, 35290)], [(10681098858, 0),
    (17890087, 0), (24478, 0), (29, 0)], [(0, 1125897), (0, 3778), (0, 7)]], 2, 3⟩, 1099511627776, 2328939,
    42200647714967686176949859757400815279149450846255783958932986094865013979977274873593133, lc0⟩) (.skip)))
    (.skip)))))
theorem c25 : checkC job ⟨6, 8, 5, 6, 9, 13⟩ 1 40 B1.zlims t25 3939 121 640 7043 175 7584 = true := by decide +kernel

def t26 : CTree :=
  .sx (.sy (.leaf ⟨341, 16, 19, 3207, 16, 572, ⟨[[(1929528557537536, 0)], [(0, 552517787096973)]], 2, 3⟩,
    ⟨[[(409213659604992, 0), (290609328239044, 0), (11544893247, 0), (3351869, 0)], [(141074121945769, 0),
    (46551268148, 0), (15479964, 0), (5788, 0)], [(26824276752, 0), (21397519, 0), (13113, 0), (8, 0)]], 2, 3⟩,
    4503599627370496, 94, 62131839680438, ⟨[[(672356128301483, 0), (165156378841, 0), (0, 150172525), (0, 255840)],
    [(42122876399, 0), (140063176, 0), (382962, 0), (927, 0)], [(0, 17784631), (0, 122095), (0, 491), (0, 1)]], 2,
    3⟩, 1099511627776, 70322905,
    36772852696512699396222244057709412409276399302235744690854071389653611777183742707231549, lc0⟩) (.sx (.leaf
    ⟨716, 16, 39, 3600, 16, 638, ⟨[[(279970844804096, 0)], [(0, 567057728862683)]], 2, 3⟩, ⟨[[(1628470189639680, 0),
    (330808847160932, 0), (16173535639, 0), (4942908, 0)], [(86618742074654, 0), (31297022041, 0), (11728866, 0),
    (4934, 0)], [(9415012381, 0), (8396398, 0), (5757, 0), (3, 0)]], 2, 3⟩, 4503599627370496, 255, 9134077946054,
    ⟨[[(676042193031518, 0), (143318808331, 0), (0, 131363041), (0, 199785)], [(21853965959, 0), (67632542, 0),
    (170851, 0), (376, 0)], [(0, 4806683), (0, 30158), (0, 109)]], 2, 3⟩, 1099511627776, 23308633,
    39960546276068404575861004481958562620941817960554578364282639819760571898170780805634755, lc0⟩) (.leaf ⟨686, 16,
    39, 3492, 16, 618, ⟨[[(0, 1840010718851072)], [(0, 567057728862683)]], 2, 3⟩, ⟨[[(588530225270784, 0),
    (328293730880020, 0), (18783962302, 0), (6170934, 0)], [(88658087219166, 0), (34793416859, 0), (14591975, 0),
    (6782, 0)], [(10595149659, 0), (10511973, 0), (7929, 0), (5, 0)]], 2, 3⟩, 4503599627370496, 508, 11926276816832,
    ⟨[[(676086441347030, 0), (144404616101, 0), (0, 148998908), (0, 238357)], [(22498452331, 0), (73586331, 0),
    (195606, 0), (449, 0)], [(0, 5084147), (0, 33325), (0, 125)]], 2, 3⟩, 1099511627776, 28376317,
    40885659592512981432667273777366170501602405089632343746453633775590619598494781911065193, lc0⟩))) (.sy (.leaf
    ⟨312, 16, 19, 3013, 16, 536, ⟨[[(0, 1175386726185472)], [(0, 552517787096973)]], 2, 3⟩, ⟨[[(0, 1324633406629888),
    (284245084906911, 0), (15235217578, 0), (4996962, 0)], [(146083680471595, 0), (55901012454, 0), (22941019, 0),
    (10581, 0)], [(32910190399, 0), (32082263, 0), (24099, 0), (15, 0)]], 2, 3⟩, 4503599627370496, 132,
    93739879930538, ⟨[[(672454678206296, 0), (168850705571, 0), (0, 192459040), (0, 361612)], [(44440754622, 0),
    (164856121, 0), (499588, 0), (1315, 0)], [(0, 19742485), (0, 148097), (0, 643), (0, 2)]], 2, 3⟩, 1099511627776,
    90440043, 38118913664780974899036751807805811429320178403996104190468511889207375671051565551482130, lc0⟩) (.sx
    (.leaf ⟨655, 16, 39, 3373, 16, 596, ⟨[[(543607344865280, 0)], [(0, 567057728862683)]], 2, 3⟩, ⟨[[(0,
    2025382634633216), (325379609315853, 0), (22027928095, 0), (7858508, 0)], [(90884141226786, 0), (39213407646, 0),
    (18533959, 0), (9409, 0)], [(12117700559, 0), (13449248, 0), (11008, 0), (7, 0)]], 2, 3⟩, 4503599627370496, 214,
    15871705542515, ⟨[[(676161768294631, 0), (145539778696, 0), (0, 171404817), (0, 289913)], [(23240711756, 0),
    (80849080, 0), (227327, 0), (545, 0)], [(0, 5407334), (0, 37205), (0, 146)]], 2, 3⟩, 1099511627776, 35391158,
    38892675713132152043720584787802594462076311328476100669538906252752033898846759472691723, lc0⟩) (.leaf ⟨625, 16,
    39, 3236, 16, 571, ⟨[[(0, 1576374218789376)], [(0, 567057728862683)]], 2, 3⟩, ⟨[[(0, 342610447263744),
    (321659001485041, 0), (26102559161, 0), (10170421, 0)], [(93260726753819, 0), (44850912077, 0), (23936548, 0),
    (13080, 0)], [(14097970799, 0), (17495031, 0), (15295, 0), (10, 0)]], 2, 3⟩, 4503599627370496, 431,
    21243092442691, ⟨[[(676125497266960, 0), (147580727039, 0), (0, 199071358), (0, 358030)], [(23963469501, 0),
    (89103533, 0), (266245, 0), (672, 0)], [(0, 5723733), (0, 41558), (0, 171)]], 2, 3⟩, 1099511627776, 45069690,
    37388065346711428037842945624276278065256705552332426056073829990388405433070255469185263, lc0⟩)))
theorem c26 : checkC job ⟨6, 8, 5, 6, 9, 13⟩ 1 40 B1.zlims t26 7757 121 1280 14611 175 15168 = true := by decide +kernel

def t27 : CTree :=
  .sy (.sx (.leaf ⟨716, 16, 39, 3411, 16, 600, ⟨[[(279970844804096, 0)], [(0, 567057728862683)]], 2, 3⟩, ⟨[[(0,
    1977272370520064), (323739049992589, 0), (21349305410, 0), (7316134, 0)], [(93346060386531, 0), (39271443741, 0),
    (17780345, 0), (8674, 0)], [(12450322394, 0), (13230574, 0), (10407, 0), (7, 0)]], 2, 3⟩, 4503599627370496, 255,
    15367176211868, ⟨[[(679816045945700, 0), (144357775571, 0), (0, 168103993), (0, 274098)], [(23814715404, 0),
    (82675041, 0), (231335, 0), (552, 0)], [(0, 5707248), (0, 39021), (0, 151)]], 2, 3⟩, 1099511627776, 33685330,
    47288366691255185992290579459833997673361461926393976309770619391600056101895895569176476, lc0⟩) (.leaf ⟨686, 16,
    39, 3273, 16, 575, ⟨[[(0, 1840010718851072)], [(0, 567057728862683)]], 2, 3⟩, ⟨[[(1919897814204416, 0),
    (320179226418241, 0), (25247040812, 0), (9448864, 0)], [(95803090339830, 0), (44784522616, 0), (22888241, 0),
    (12080, 0)], [(14425738041, 0), (17144281, 0), (14489, 0), (9, 0)]], 2, 3⟩, 4503599627370496, 508,
    20542670184181, ⟨[[(679703692121382, 0), (146418399441, 0), (0, 194886022), (0, 338478)], [(24532187406, 0),
    (90947689, 0), (270182, 0), (677, 0)], [(0, 6031665), (0, 43494), (0, 177)]], 2, 3⟩, 1099511627776, 42684502,
    47996226018603676014530230564441606073605524667321584093429965982426466759644681234008464, lc0⟩)) (.sx (.sx
    (.leaf ⟨1466, 16, 79, 3555, 16, 621, ⟨[[(0, 380145150187520)], [(0, 574327699745538)]], 2, 3⟩,
    ⟨[[(648449657352192, 0), (350453808511793, 0), (30635359137, 0), (11752714, 0)], [(55635799701401, 0),
    (27415303827, 0), (14616857, 0), (7825, 0)], [(4579674261, 0), (5634431, 0), (4807, 0), (3, 0)]], 2, 3⟩,
    4503599627370496, 252, 9461151909014, ⟨[[(683350100547200, 0), (131985293512, 0), (0, 174421409), (0, 276202)],
    [(12744633206, 0), (44813792, 0), (125253, 0), (293, 0)], [(0, 1627973), (0, 10955), (0, 41)]], 2, 3⟩,
    1099511627776, 26092639,
    49344187058464742880988066745227671357048588128081048948196206802993516051686015273194471, lc0⟩) (.sy (.leaf
    ⟨1435, 16, 79, 6502, 16, 1137, ⟨[[(244139959877632, 0)], [(0, 574327699745538)]], 2, 3⟩, ⟨[[(685119036788736, 0),
    (321974131925577, 0), (14226411202, 0), (2759217, 0)], [(101518043907883, 0), (25246200470, 0), (6813785, 0),
    (1840, 0)], [(8385831868, 0), (5221382, 0), (2247, 0), (1, 0)]], 2, 3⟩, 4503599627370496, 268, 3668313538952,
    ⟨[[(682457863117946, 0), (72051352701, 0), (0, 52246401), (0, 45578)], [(12676278044, 0), (24330017, 0), (37135,
    0), (47, 0)], [(0, 1608949), (0, 5916), (0, 12)]], 2, 3⟩, 1099511627776, 3317919,
    45740151632763046099644163824006361264137279604488759467900061593390971236250126248014723, lc0⟩) (.leaf ⟨1435,
    16, 79, 6223, 16, 1084, ⟨[[(244139959877632, 0)], [(0, 574327699745538)]], 2, 3⟩, ⟨[[(1410986164686848, 0),
    (317522171006746, 0), (16746161771, 0), (3477659, 0)], [(106087825274278, 0), (29338739528, 0), (8679160, 0),
    (2442, 0)], [(10032220635, 0), (6764923, 0), (3012, 0), (1, 0)]], 2, 3⟩, 4503599627370496, 268, 4838308311331,
    ⟨[[(684243869548922, 0), (72711716262, 0), (0, 61422477), (0, 56589)], [(13315360663, 0), (27585945, 0), (45017,
    0), (61, 0)], [(0, 1766432), (0, 6884), (0, 15)]], 2, 3⟩, 1099511627776, 4176049,
    46601864702933589310810465969126792016022001268667864897476764851447946947187111160364987, lc0⟩))) (.sy (.sx
    (.leaf ⟨1404, 16, 79, 6347, 16, 1109, ⟨[[(868425069943808, 0)], [(0, 574327699745538)]], 2, 3⟩,
    ⟨[[(2071074272387072, 0), (320319459854360, 0), (15621341565, 0), (3170177, 0)], [(103204932111874, 0),
    (27302982517, 0), (7814940, 0), (2175, 0)], [(9149576602, 0), (6004454, 0), (2653, 0), (1, 0)]], 2, 3⟩,
    4503599627370496, 752, 4258124611395, ⟨[[(682436066510656, 0), (72512525594, 0), (0, 56925296), (0, 51501)],
    [(12907409781, 0), (25735573, 0), (40643, 0), (53, 0)], [(0, 1662805), (0, 6304), (0, 13)]], 2, 3⟩,
    1099511627776, 3759210,
    44593091667822984530781550281334892322848940642071462320779858296396694624168413965269223, lc0⟩) (.leaf ⟨1373,
    16, 79, 6176, 16, 1078, ⟨[[(1492710180007936, 0)], [(0, 574327699745538)]], 2, 3⟩, ⟨[[(0, 2073454284541952),
    (318149928749075, 0), (17184175541, 0), (3645840, 0)], [(104888096872385, 0), (29616098501, 0), (8972127, 0),
    (2564, 0)], [(10015083531, 0), (6909612, 0), (3123, 0), (1, 0)]], 2, 3⟩, 4503599627370496, 301, 4943878774787,
    ⟨[[(682505268663393, 0), (72972887655, 0), (0, 62719436), (0, 59068)], [(13185562607, 0), (27452028, 0), (45055,
    0), (61, 0)], [(0, 1728375), (0, 6782), (0, 15)]], 2, 3⟩, 1099511627776, 4311490,
    41250204079761334534886538772450331574351628486004928325867342295831477859261281671957848, lc0⟩)) (.sx (.leaf
    ⟨1404, 16, 79, 6045, 16, 1052, ⟨[[(868425069943808, 0)], [(0, 574327699745538)]], 2, 3⟩, ⟨[[(1186720397271040,
    0), (315446583573809, 0), (18472901820, 0), (4007820, 0)], [(107969782875572, 0), (31938694083, 0), (9983168, 0),
    (2877, 0)], [(11019567714, 0), (7796615, 0), (3544, 0), (1, 0)]], 2, 3⟩, 4503599627370496, 752, 5642320910770,
    ⟨[[(684249562054439, 0), (73267991754, 0), (0, 67818268), (0, 65173)], [(13591932513, 0), (29431973, 0), (49961,
    0), (70, 0)], [(0, 1832766), (0, 7402), (0, 16)]], 2, 3⟩, 1099511627776, 4861269,
    43477424428383731776266781270019891697767810287899568103262328157227050248946940265884135, lc0⟩) (.leaf ⟨1373,
    16, 79, 5856, 16, 1018, ⟨[[(1492710180007936, 0)], [(0, 574327699745538)]], 2, 3⟩, ⟨[[(0, 1606413151408128),
    (313199581252665, 0), (20428036564, 0), (4621772, 0)], [(109989850132501, 0), (34896154515, 0), (11490319, 0),
    (3380, 0)], [(12147794353, 0), (8987642, 0), (4155, 0), (1, 0)]], 2, 3⟩, 4503599627370496, 301, 6572649923970,
    ⟨[[(684299721922217, 0), (73811605852, 0), (0, 75530990), (0, 75942)], [(13905398296, 0), (31596832, 0), (55980,
    0), (81, 0)], [(0, 1908621), (0, 8014), (0, 18)]], 2, 3⟩, 1099511627776, 5701996,
    37061434622710447653866242245754668524684201781202993827891713530618135939579505922620260, lc0⟩))))
theorem c27 : checkC job ⟨6, 8, 5, 6, 9, 13⟩ 1 40 B1.zlims t27 15393 121 2560 14961 175 15168 = true := by decide +kernel

end PyX.Kron.T1ps
