import Verif.Lemmas.V3aJob

/-!
# The volume from pressure and enthalpy in subregion 3a, part E of the certificate
-/

namespace PyX.Kron.V3a

set_option Elab.async false

def t80 : CTree :=
  .sx (.sy (.sx (.sy (.leaf ⟨353, 16, 419, 265, 16, 3795, ⟨[[(12366340069584896, 0), (0, 12150923709211392),
    (863036132046, 0), (0, 26926084), (0, 9671)], [(44613015489429979, 0), (0, 10164424049401), (383489951, 0),
    (108943, 0), (0, 123)], [(50009734152831, 0), (0, 2207296612), (0, 364506), (624, 0)], [(25451291659, 0),
    (2865426, 0), (0, 1328)]], 3, 4⟩, ⟨[[(17405854758248448, 0), (0, 22550702908929549), (1214570857835, 0), (0,
    35894912), (16170, 0)], [(0, 16368981213025383), (0, 2815401898788), (336676884, 0), (0, 91052), (0, 83)],
    [(23708067741409, 0), (0, 1262273406), (374937, 0), (0, 426)], [(9977260386, 0), (1138532, 0), (1133, 0)]], 3,
    4⟩, 72057594037927936, 100915127991, 56619180554, ⟨[[(9081609021857, 0), (2399697472, 0), (914318, 0), (288, 0)],
    [(0, 4448251760), (0, 5253621), (0, 4025), (0, 2)], [(7165266, 0), (14197, 0), (15, 0)], [(0, 15564), (0, 42)]],
    3, 4⟩, 17592186044416, 26551749,
    7363383785618885806604864339523736106381822102263359973079940415144132293969490731931170002103822178214071752175711330768131532,
    lc0⟩) (.leaf ⟨345, 16, 425, 242, 16, 3810, ⟨[[(0, 2783812735057920), (0, 12188878227337813), (868643416720, 0),
    (0, 30413941), (0, 10251)], [(44450101486903323, 0), (0, 10247519910029), (410174327, 0), (70189, 0), (0, 134)],
    [(50549278822128, 0), (0, 2285107597), (0, 223079), (621, 0)], [(26034374500, 0), (2700775, 0), (0, 1291)]], 3,
    4⟩, ⟨[[(0, 8230456383488000), (0, 22450244703741069), (1211437648065, 0), (0, 32202384), (7992, 0)], [(0,
    16652140468636025), (0, 2775650891891), (312963032, 0), (0, 125455), (0, 137)], [(23705007320429, 0), (0,
    1216807672), (267359, 0), (0, 506)], [(10112975404, 0), (1328289, 0), (1239, 0)]], 3, 4⟩, 72057594037927936,
    121883259808, 62115829513, ⟨[[(9081475672324, 0), (2414344173, 0), (939068, 0), (301, 0)], [(0, 4444480390), (0,
    5334251), (0, 4194), (0, 2)], [(7220754, 0), (14659, 0), (15, 0)], [(0, 15620), (0, 43)]], 3, 4⟩, 17592186044416,
    29333751,
    7521782525015953688469401959644502641016967455087129011559624399986633372245072030475287053666912946342884091009022014409430188,
    lc0⟩)) (.sy (.leaf ⟨355, 16, 401, 263, 16, 3849, ⟨[[(8549844219023360, 0), (0, 11902896805834073), (835936059025,
    0), (0, 22376564), (0, 12591)], [(45434140111575918, 0), (0, 9839099331183), (344550270, 0), (138282, 0), (0,
    120)], [(49914720712840, 0), (0, 1854591639), (0, 452570), (619, 0)], [(24498938436, 0), (3392980, 0), (0,
    1206)]], 3, 4⟩, ⟨[[(0, 12298750510477312), (0, 22952512816233114), (1241737827150, 0), (0, 39320805), (13865,
    0)], [(0, 15231453822171259), (0, 2924300198992), (365477462, 0), (0, 115548), (0, 97)], [(24900632424604, 0),
    (0, 1175722500), (477384, 0), (0, 397)], [(10229981454, 0), (1333807, 0), (1160, 0)]], 3, 4⟩, 72057594037927936,
    29663299880, 31909329879, ⟨[[(8990932267250, 0), (2267930910, 0), (818710, 0), (247, 0)], [(0, 4365993449), (0,
    4885272), (0, 3573), (0, 1)], [(6898405, 0), (12939, 0), (13, 0)], [(0, 15107), (0, 38)]], 3, 4⟩, 17592186044416,
    25847307,
    6273678530399957625951283887316541706162481083419980176633984296527869798418753411786380138434792121108018177310368776216868611,
    lc0⟩) (.leaf ⟨347, 16, 406, 239, 16, 3864, ⟨[[(0, 30788929073160192), (0, 11919717809415970), (840587746194, 0),
    (0, 26706635), (0, 13396)], [(45225815901955831, 0), (0, 9905040503407), (377073173, 0), (100832, 0), (0, 130)],
    [(50388144913853, 0), (0, 1937840597), (0, 313095), (614, 0)], [(25065066626, 0), (3249870, 0), (0, 1156)]], 3,
    4⟩, ⟨[[(1183297295857664, 0), (0, 22848193823184578), (1237735038702, 0), (0, 36614017), (3997, 0)], [(0,
    15517623708146782), (0, 2880787120020), (335549589, 0), (0, 154923), (0, 154)], [(24908327324898, 0), (0,
    1113262910), (377260, 0), (0, 475)], [(10381581912, 0), (1528609, 0), (1267, 0)]], 3, 4⟩, 72057594037927936,
    47881999790, 37547058928, ⟨[[(8988039238634, 0), (2278420506, 0), (838355, 0), (257, 0)], [(0, 4360283444), (0,
    4947757), (0, 3715), (0, 2)], [(6958470, 0), (13340, 0), (14, 0)], [(0, 15120), (0, 40)]], 3, 4⟩, 17592186044416,
    28732967,
    6832783942161721155108145119787752306461702570176867099863498227159841499070605134482722912554126868653973501666896937453918962,
    lc0⟩))) (.sx (.sy (.leaf ⟨337, 16, 432, 219, 16, 3825, ⟨[[(22052950135795712, 0), (0, 12252480571571244),
    (875320201133, 0), (0, 34385260), (0, 12040)], [(44372314559099794, 0), (0, 10350222067927), (428538668, 0),
    (27296, 0), (0, 147)], [(51199599658917, 0), (0, 2346668806), (0, 80404), (620, 0)], [(26669433416, 0), (2544772,
    0), (0, 1259)]], 3, 4⟩, ⟨[[(0, 32913868523352064), (0, 22349482710619389), (1208813402843, 0), (0, 31417326), (0,
    2612)], [(0, 16933206980482320), (0, 2740154488928), (278917089, 0), (0, 179083), (0, 205)], [(23704430792995,
    0), (0, 1189542982), (138992, 0), (0, 600)], [(10264589871, 0), (1536009, 0), (1354, 0)]], 3, 4⟩,
    72057594037927936, 144317565822, 67835276757, ⟨[[(9083830263805, 0), (2432247091, 0), (967689, 0), (315, 0)],
    [(0, 4439921169), (0, 5424751), (0, 4383), (0, 2)], [(7264885, 0), (15151, 0), (16, 0)], [(0, 15680), (0, 45)]],
    3, 4⟩, 17592186044416, 32860884,
    7345911593574905657435611302508256796629161902004015749393599380151897407693154014913262182416901089677207689511414713968238279,
    lc0⟩) (.leaf ⟨329, 16, 438, 195, 16, 3840, ⟨[[(0, 27495042059182080), (0, 12284868160343124), (878841254212, 0),
    (0, 39110074), (0, 15279)], [(44172717606445650, 0), (0, 10425978556260), (435365651, 0), (0, 20930), (0, 163)],
    [(51724923793382, 0), (0, 2380574005), (64274, 0), (618, 0)], [(27233427409, 0), (2384891, 0), (0, 1227)]], 3,
    4⟩, ⟨[[(15496212104773632, 0), (0, 22248399985473244), (1205922195518, 0), (0, 34391990), (0, 16185)], [(0,
    17212571862447927), (0, 2710928204892), (229457261, 0), (0, 256620), (0, 289)], [(23704792293895, 0), (0,
    1184051764), (0, 13455), (0, 708)], [(10433632445, 0), (1763409, 0), (1481, 0), (1, 0)]], 3, 4⟩,
    72057594037927936, 167683402440, 73825311895, ⟨[[(9079183524126, 0), (2442825357, 0), (992488, 0), (324, 0)],
    [(0, 4426472363), (0, 5493261), (0, 4553), (0, 2)], [(7276015, 0), (15569, 0), (17, 0)], [(0, 15705), (0, 46)]],
    3, 4⟩, 17592186044416, 37207319,
    7043891479587415468761739369778621443987553419992286780877452192337952700720270885520511811536199985055941388655526051240406368,
    lc0⟩)) (.sy (.leaf ⟨339, 16, 412, 215, 16, 3880, ⟨[[(0, 23567783789907968), (0, 11963322827926996),
    (846153802677, 0), (0, 31596038), (0, 15434)], [(45112538549764736, 0), (0, 9990114638107), (401663159, 0),
    (59677, 0), (0, 142)], [(50977773215656, 0), (0, 2004743436), (0, 173316), (611, 0)], [(25685713410, 0),
    (3119829, 0), (0, 1110)]], 3, 4⟩, ⟨[[(19887627253469184, 0), (0, 22749586168663634), (1234257786819, 0), (0,
    37421517), (0, 8726)], [(0, 15805540822415666), (0, 2843318242331), (294066089, 0), (0, 214552), (0, 226)],
    [(24926341496035, 0), (0, 1068009358), (256978, 0), (0, 566)], [(10552260433, 0), (1742097, 0), (1385, 0), (1,
    0)]], 3, 4⟩, 72057594037927936, 67001212963, 43355340699, ⟨[[(8987839339809, 0), (2291536999, 0), (861127, 0),
    (268, 0)], [(0, 4354121240), (0, 5018150), (0, 3874), (0, 2)], [(7006660, 0), (13772, 0), (14, 0)], [(0, 15120),
    (0, 41)]], 3, 4⟩, 17592186044416, 31884115,
    6877638475134004450948221652744114311563778523727018798784847399798848588716602870095910426063727032651050415296813951558624736,
    lc0⟩) (.leaf ⟨331, 16, 418, 191, 16, 3895, ⟨[[(0, 33231033420484608), (0, 12004239813043097), (850368198339, 0),
    (0, 37416681), (0, 18966)], [(44981442940569728, 0), (0, 10071204316911), (416263140, 0), (13549, 0), (0, 158)],
    [(51560743845111, 0), (0, 2050121743), (0, 32083), (609, 0)], [(26299942084, 0), (2994410, 0), (0, 1065)]], 3,
    4⟩, ⟨[[(35432217564266496, 0), (0, 22644956446076987), (1229733709179, 0), (0, 42723766), (0, 24917)], [(0,
    16087596117045586), (0, 2812658925980), (235525022, 0), (0, 299213), (0, 314)], [(24940367422486, 0), (0,
    1042876737), (113151, 0), (0, 672)], [(10738166529, 0), (1975174, 0), (1513, 0), (1, 0)]], 3, 4⟩,
    72057594037927936, 87060475663, 49412930132, ⟨[[(8986762519163, 0), (2304304681, 0), (884962, 0), (277, 0)], [(0,
    4346413375), (0, 5088765), (0, 4042), (0, 2)], [(7039476, 0), (14207, 0), (15, 0)], [(0, 15123), (0, 43)]], 3,
    4⟩, 17592186044416, 35999319,
    6705807521599801148820019724829806053501024356804837820228853336683764017034055996868239937747416051819239111278235291231395732,
    lc0⟩)))) (.sy (.sx (.sy (.leaf ⟨357, 16, 383, 261, 16, 3906, ⟨[[(0, 31256749151141888), (0, 11633044954072656),
    (807263059437, 0), (0, 17204746), (0, 15272)], [(46119474198689426, 0), (0, 9488554214737), (302184968, 0),
    (165812, 0), (0, 117)], [(49638001277279, 0), (0, 1474557330), (0, 528382), (614, 0)], [(23318452082, 0),
    (3813852, 0), (0, 1149)]], 3, 4⟩, ⟨[[(0, 474491363450880), (0, 23376415254026805), (1270917317874, 0), (0,
    43492693), (11134, 0)], [(0, 14017480637966400), (0, 3031103550017), (400782527, 0), (0, 138812), (0, 111)],
    [(26142822337879, 0), (0, 1072354461), (582875, 0), (0, 367)], [(10394635845, 0), (1514973, 0), (1158, 0)]], 3,
    4⟩, 72057594037927936, 88110373167, 27158859767, ⟨[[(8898642840794, 0), (2140066053, 0), (730276, 0), (211, 0)],
    [(0, 4288978858), (0, 4540329), (0, 3158), (0, 1)], [(6625848, 0), (11750, 0), (11, 0)], [(0, 14762), (0, 35)]],
    3, 4⟩, 17592186044416, 25417831,
    4618692981082224391724912734732096382764256683827123309428449828006294034188934159535199527691930894281826195573283831607711678,
    lc0⟩) (.leaf ⟨349, 16, 388, 237, 16, 3922, ⟨[[(0, 33630776760827904), (0, 11657683043448689), (813151597269, 0),
    (0, 22358564), (0, 16304)], [(45973724672217362, 0), (0, 9561831892564), (341021961, 0), (129854, 0), (0, 126)],
    [(50166537063301, 0), (0, 1566033238), (0, 391184), (610, 0)], [(23917284234, 0), (3687119, 0), (0, 1099)]], 3,
    4⟩, ⟨[[(0, 17141451946326016), (0, 23273876948669873), (1266178699523, 0), (0, 41934627), (0, 534)], [(0,
    14309916790289863), (0, 2983523933760), (365047331, 0), (0, 183180), (0, 171)], [(26169301054987, 0), (0,
    992620188), (490362, 0), (0, 444)], [(10563138542, 0), (1710230, 0), (1263, 0)]], 3, 4⟩, 72057594037927936,
    75378053663, 24611364253, ⟨[[(8898890910114, 0), (2151793296, 0), (748565, 0), (221, 0)], [(0, 4286800117), (0,
    4601506), (0, 3291), (0, 1)], [(6711171, 0), (12140, 0), (12, 0)], [(0, 14766), (0, 36)]], 3, 4⟩, 17592186044416,
    27886388,
    5578225670362724651446618237324388756131655927556585084492630304079372174090820308432460656950133242074695111699664269240371803,
    lc0⟩)) (.leaf ⟨252, 16, 262, 135, 16, 2164, ⟨[[(11305027251603456, 0), (0, 16193736123507295), (2226524414848,
    0), (0, 82084772), (0, 207501)], [(33233189882482843, 0), (0, 13051877173494), (799657195, 0), (995738, 0), (0,
    1345)], [(35256377815032, 0), (0, 1613607198), (0, 1515704), (3446, 0)], [(15822589177, 0), (5738389, 0), (0,
    3321), (1, 0)]], 3, 4⟩, ⟨[[(0, 20402367266131968), (0, 25886298159897419), (2830149326589, 0), (0, 207927457),
    (13989, 0)], [(0, 7007716138732710), (0, 3384216897064), (922648606, 0), (0, 797495), (0, 1351)],
    [(14945232021379, 0), (0, 985413939), (1409126, 0), (0, 1638), (0, 2)], [(5722290051, 0), (1874429, 0), (2465,
    0), (2, 0)]], 3, 4⟩, 72057594037927936, 139792296081, 107752760735, ⟨[[(8814662455636, 0), (3728985447, 0),
    (2233374, 0), (1154, 0)], [(0, 5950152407), (0, 11044624), (0, 13599), (0, 9)], [(12739746, 0), (39702, 0), (70,
    0)], [(0, 40718), (0, 165)]], 3, 4⟩, 17592186044416, 331737789,
    4100605999739999967007369608690318544080574005150311936647593586563664914176167310642290059551359841416177791676921350722135746,
    lc0⟩)) (.sx (.sy (.leaf ⟨341, 16, 394, 213, 16, 3938, ⟨[[(12849773373628416, 0), (0, 11709589828540830),
    (819788094998, 0), (0, 28153681), (0, 18594)], [(45929466956542830, 0), (0, 9653513907121), (372362687, 0),
    (90420, 0), (0, 138)], [(50816144226775, 0), (0, 1640996557), (0, 253836), (607, 0)], [(24572521115, 0),
    (3575007, 0), (0, 1052)]], 3, 4⟩, ⟨[[(0, 33213488662863872), (0, 23171270378842732), (1261300244753, 0), (0,
    44517679), (0, 15511)], [(0, 14599823220595749), (0, 2942232210874), (316363221, 0), (0, 248760), (0, 246)],
    [(26201093943996, 0), (0, 928507338), (378126, 0), (0, 533)], [(10748103498, 0), (1923384, 0), (1377, 0)]], 3,
    4⟩, 72057594037927936, 62724886331, 22467719277, ⟨[[(8902067084575, 0), (2166804853, 0), (770271, 0), (230, 0)],
    [(0, 4284955270), (0, 4672225), (0, 3443), (0, 1)], [(6784853, 0), (12573, 0), (13, 0)], [(0, 14754), (0, 38)]],
    3, 4⟩, 17592186044416, 31061258,
    6037721775420732439875788706681152358919750947688142244936410077413687306261757723563458373214002344126960641623928217120743892,
    lc0⟩) (.leaf ⟨333, 16, 399, 188, 16, 3954, ⟨[[(0, 18605650370084864), (0, 11729236379570279), (822794608872, 0),
    (0, 34892746), (0, 22343)], [(45752131017530304, 0), (0, 9715794241492), (393268588, 0), (46068, 0), (0, 152)],
    [(51330123319642, 0), (0, 1690779980), (0, 114668), (603, 0)], [(25160387073, 0), (3458984, 0), (0, 1004)]], 3,
    4⟩, ⟨[[(23431725903779840, 0), (0, 23068706196105823), (1255179556562, 0), (0, 52398214), (0, 34489)], [(0,
    14887764229774768), (0, 2909701921140), (249125788, 0), (0, 340628), (0, 338)], [(26236875153332, 0), (0,
    883405374), (243004, 0), (0, 636)], [(10951057113, 0), (2156139, 0), (1503, 0), (1, 0)]], 3, 4⟩,
    72057594037927936, 49829625118, 20719904459, ⟨[[(8898462849453, 0), (2175317262, 0), (788863, 0), (238, 0)], [(0,
    4276433706), (0, 4725132), (0, 3586), (0, 1)], [(6825094, 0), (12949, 0), (13, 0)], [(0, 14704), (0, 39)]], 3,
    4⟩, 17592186044416, 34834265,
    5912728908379481328469599605482997779653663335957210260185402751731046670849207557806577438898135577156690766677751993829142186,
    lc0⟩)) (.sy (.leaf ⟨343, 16, 376, 210, 16, 4000, ⟨[[(11391523602980864, 0), (0, 11433733897418402),
    (792073342695, 0), (0, 23991945), (0, 21460)], [(46601863350609591, 0), (0, 9291790319173), (339364786, 0),
    (119293, 0), (0, 134)], [(50455008105692, 0), (0, 1259987479), (0, 330237), (599, 0)], [(23173035631, 0),
    (3847909, 0), (0, 1115)]], 3, 4⟩, ⟨[[(29953235075332096, 0), (0, 23620455121917706), (1290487196781, 0), (0,
    52707058), (0, 22992)], [(0, 13313702011793664), (0, 3036701046419), (346072814, 0), (0, 281848), (0, 267)],
    [(27526903332701, 0), (0, 775502493), (497459, 0), (0, 502)], [(10796155450, 0), (2015211, 0), (1281, 0)]], 3,
    4⟩, 72057594037927936, 170873440814, 90076364194, ⟨[[(8812337995100, 0), (2043736463, 0), (685269, 0), (197, 0)],
    [(0, 4215450496), (0, 4340618), (0, 3040), (0, 1)], [(6544514, 0), (11401, 0), (11, 0)], [(0, 14473), (0, 34)]],
    3, 4⟩, 17592186044416, 30239548,
    4689618740929757090031908635389760684663492016917024064652252147665585233622671626519551418989554021777843993911797273185298346,
    lc0⟩) (.leaf ⟨335, 16, 381, 186, 16, 4017, ⟨[[(17850699545251840, 0), (0, 11461058189700291), (796083518500, 0),
    (0, 31630490), (0, 25438)], [(46489315988176411, 0), (0, 9359762843180), (367076110, 0), (76773, 0), (0, 148)],
    [(51024617118930, 0), (0, 1317941823), (0, 194046), (595, 0)], [(23778541051, 0), (3726603, 0), (0, 1082)]], 3,
    4⟩, ⟨[[(0, 18592915382259712), (0, 23519690072916382), (1282491830891, 0), (0, 63417206), (0, 44933)], [(0,
    13606185031554279), (0, 3001107348751), (270431538, 0), (0, 380977), (0, 363)], [(27585935517681, 0), (0,
    710639065), (370418, 0), (0, 602)], [(11007932485, 0), (2232657, 0), (1393, 0)]], 3, 4⟩, 72057594037927936,
    164734236031, 93362255091, ⟨[[(8814032850942, 0), (2055088576, 0), (703183, 0), (205, 0)], [(0, 4215563357), (0,
    4399339), (0, 3178), (0, 1)], [(6623715, 0), (11794, 0), (12, 0)], [(0, 14442), (0, 36)]], 3, 4⟩, 17592186044416,
    33898939,
    5012005457396510471170123995084299041611408947926179994279222973518796155158363914746627545283044622052355919389686062921597810,
    lc0⟩))))
theorem c80 : checkR job con1 true ⟨7, 9, 7, 9, 13, 17⟩ 1 9016 t80 698 14 320 4039 39 4000 = true := by decide +kernel

def t81 : CTree :=
  .sx (.sx (.sy (.sx (.leaf ⟨255, 16, 252, 133, 16, 2179, ⟨[[(23558673918873600, 0), (0, 15928251597537733),
    (2161862492887, 0), (0, 49512657), (0, 236159)], [(33899239304516352, 0), (0, 12627282939748), (679566039, 0),
    (1145821, 0), (0, 1320)], [(35172007984387, 0), (0, 1069871651), (0, 1750063), (3395, 0), (0, 1)], [(14769954636,
    0), (5915867, 0), (0, 3839), (1, 0)]], 3, 4⟩, ⟨[[(5348351630487552, 0), (0, 26161883245456735), (2876944839078,
    0), (0, 233112686), (0, 25598)], [(0, 6200122949181243), (0, 3458812158940), (1014026834, 0), (0, 891849), (0,
    1474)], [(15526043073582, 0), (0, 834936850), (1609493, 0), (0, 1530), (0, 2)], [(5578736501, 0), (1825038, 0),
    (2000, 0), (1, 0)]], 3, 4⟩, 72057594037927936, 221023415702, 164916461819, ⟨[[(8728254817693, 0), (3553913166,
    0), (2028980, 0), (1017, 0)], [(0, 5829207643), (0, 10338833), (0, 12152), (0, 8)], [(12040900, 0), (35963, 0),
    (62, 0)], [(0, 39842), (0, 148)]], 3, 4⟩, 17592186044416, 314829045,
    2395603661787511857012708014535895428771420700001714021224082993721030787417307622718507347927255626163557618272537691971863286,
    lc0⟩) (.leaf ⟨259, 16, 243, 132, 16, 2196, ⟨[[(20426889030053888, 0), (0, 15701004712599509), (2101591797810, 0),
    (0, 14232798), (0, 263770)], [(34620845503771150, 0), (0, 12220536188648), (551307510, 0), (1288860, 0), (0,
    1303)], [(35084776086245, 0), (0, 546831993), (0, 2042221), (3281, 0), (0, 1)], [(13539004794, 0), (5778744, 0),
    (0, 4842), (0, 1)]], 3, 4⟩, ⟨[[(0, 10351675760418816), (0, 26464214415223060), (2929316112515, 0), (0,
    261285550), (0, 68953)], [(0, 5359258811926165), (0, 3528777512497), (1116907985, 0), (0, 983052), (0, 1597)],
    [(16106574816039, 0), (0, 697880093), (1757273, 0), (0, 1480), (0, 2)], [(5287457435, 0), (1529657, 0), (1123,
    0)]], 3, 4⟩, 72057594037927936, 320269998346, 239161168011, ⟨[[(8644241924914, 0), (3385688538, 0), (1840259, 0),
    (893, 0)], [(0, 5707906633), (0, 9667805), (0, 10785), (0, 7)], [(11236108, 0), (32305, 0), (55, 0)], [(0,
    39330), (0, 134)]], 3, 4⟩, 17592186044416, 292364606,
    2252579480630435494449875547855658378163187898220958114922119460620524823405072219269366228394568306373870092610447535416415925,
    lc0⟩)) (.sx (.leaf ⟨245, 16, 259, 106, 16, 2207, ⟨[[(0, 8233125409599488), (0, 16025491607162634),
    (2200658664387, 0), (0, 133629489), (0, 297814)], [(33833354356186304, 0), (0, 12850247285659), (922305709, 0),
    (725062, 0), (0, 1562)], [(36053933738959, 0), (0, 1317474121), (0, 1000856), (3331, 0)], [(15630745251, 0),
    (5474390, 0), (0, 3833)]], 3, 4⟩, ⟨[[(24885735116010496, 0), (0, 26047992408909568), (2853970870482, 0), (0,
    294215510), (0, 372906)], [(0, 6547292568858189), (0, 3362947068408), (745739357, 0), (0, 1574442), (0, 2906)],
    [(15668693120026, 0), (0, 623766691), (1186233, 0), (0, 2280), (0, 3)], [(5807503275, 0), (2186821, 0), (2319,
    0), (1, 0)]], 3, 4⟩, 72057594037927936, 236414888320, 216037350489, ⟨[[(8724535652611, 0), (3565857509, 0),
    (2097868, 0), (1082, 0)], [(0, 5784353414), (0, 10443638), (0, 12967), (0, 8)], [(12309599, 0), (37542, 0), (68,
    0)], [(0, 38692), (0, 159)]], 3, 4⟩, 17592186044416, 373589128,
    4026953451260222629944490398804574941434396719030588065227502986112742347386293288606146584563441554022402883686917067535314459,
    lc0⟩) (.leaf ⟨248, 16, 249, 105, 16, 2224, ⟨[[(32544792657104896, 0), (0, 15753538939852140), (2139676565336, 0),
    (0, 106440897), (0, 328759)], [(34502956610158066, 0), (0, 12412658147890), (823145820, 0), (876195, 0), (0,
    1531)], [(35896202269572, 0), (0, 826566521), (0, 1327878), (3175, 0), (0, 1)], [(14304672699, 0), (5134478, 0),
    (0, 5150), (0, 1)]], 3, 4⟩, ⟨[[(0, 16261115419447296), (0, 26343968171928021), (2897979045283, 0), (0,
    342682456), (0, 459879)], [(0, 5700005745759549), (0, 3419163979573), (823140957, 0), (0, 1712813), (0, 3079)],
    [(16266849489837, 0), (0, 460620719), (1347826, 0), (0, 2227), (0, 3)], [(5482741501, 0), (1730855, 0), (1191,
    0)]], 3, 4⟩, 72057594037927936, 355082828981, 306330432321, ⟨[[(8645368918169, 0), (3403285096, 0), (1905766, 0),
    (957, 0)], [(0, 5686369144), (0, 9810637), (0, 11594), (0, 7)], [(11726606, 0), (34098, 0), (61, 0)], [(0,
    38249), (0, 143)]], 3, 4⟩, 17592186044416, 352748598,
    2358147001018843345136618149564561299417155918871173382764940714500051118993082163729354262338315761191631846396777575127029061,
    lc0⟩))) (.sy (.sx (.leaf ⟨263, 16, 234, 131, 16, 2213, ⟨[[(470409681551360, 0), (0, 15449279645162220),
    (2036967370497, 0), (23503549, 0), (0, 289612)], [(35260523413238295, 0), (0, 11784495640212), (408561851, 0),
    (1415663, 0), (0, 1291)], [(34841161316505, 0), (0, 69928062), (0, 2426802), (3050, 0), (0, 1)], [(12043091731,
    0), (5230204, 0), (0, 6420), (0, 2)]], 3, 4⟩, ⟨[[(0, 3122789003151360), (0, 26769174293094397), (2984914703885,
    0), (0, 292217804), (0, 116132)], [(0, 4479638348294399), (0, 3592296144286), (1226360870, 0), (0, 1074649), (0,
    1723)], [(16658027814239, 0), (0, 598932779), (1808808, 0), (0, 1529), (0, 2)], [(4796297455, 0), (873855, 0),
    (0, 339), (0, 1)]], 3, 4⟩, 72057594037927936, 438906317085, 332860568076, ⟨[[(8559279204492, 0), (3223538214, 0),
    (1667534, 0), (781, 0)], [(0, 5603274597), (0, 9062487), (0, 9555), (0, 6)], [(10349492, 0), (28735, 0), (47,
    0)], [(0, 39817), (0, 129)]], 3, 4⟩, 17592186044416, 272594756,
    5837736485513236195139100312726583960846137523844014145146547730922226244071480119304532188277549428258229063943620917506391498,
    lc0⟩) (.sy (.out ⟨326, 16, 303, 3294, 16, 3977, ⟨[[(0, 31987357730889728), (0, 10267629371139236), (660961531623,
    0)], [(48517145563331365, 0), (0, 7629905640221), (51884136, 0)], [(46343649226570, 0), (297842260, 0), (0,
    1046536)]], 2, 2⟩, ⟨[[(0, 16956977946722304), (0, 25463047020430966), (1433747870440, 0)], [(0,
    6538087693493923), (0, 3469689029407), (655456743, 0)], [(32157550787459, 0), (0, 601805956), (843672, 0)]], 2,
    2⟩, 72057594037927936, 40004823743459, 26195345042167, ⟨[], 0, 0⟩, 0, 0, 0, lc0⟩ 0 174 13) (.sx (.leaf ⟨533, 16,
    463, 248, 16, 4489, ⟨[[(0, 16767025698562048), (0, 15450104931793543), (1012502965394, 0), (7281321, 0), (0,
    40489)], [(36119710947685742, 0), (0, 5820851740279), (95077157, 0), (177477, 0), (0, 84)], [(17596707849206, 0),
    (32951702, 0), (0, 336682), (172, 0)], [(2754750345, 0), (532839, 0), (0, 528)]], 3, 4⟩, ⟨[[(35830198781853696,
    0), (0, 27108233659583225), (1517589947938, 0), (0, 83958856), (0, 31677)], [(0, 3898637554556043), (0,
    1809002590741), (311903136, 0), (0, 164158), (0, 135)], [(8587020687980, 0), (0, 127259864), (207663, 0), (0,
    116)], [(1075091358, 0), (0, 1759), (0, 133)]], 3, 4⟩, 72057594037927936, 66730449208, 46333404648,
    ⟨[[(8496395546025, 0), (1547437283, 0), (386180, 0), (89, 0)], [(0, 2729462217), (0, 2131703), (0, 1085)],
    [(2394296, 0), (3220, 0), (3, 0)], [(0, 4837), (0, 8)]], 3, 4⟩, 17592186044416, 1697882,
    4974122108843850831905192077355736349234254016990504325481160895589128856624358305871509703588601614936655793375735601718486052,
    lc0⟩) (.out ⟨470, 16, 446, 3456, 16, 4209, ⟨[[(0, 12763462273089536), (0, 15039786261719030), (977625309499, 0)],
    [(35748831185249778, 0), (0, 5604199350555), (72155273, 0)], [(17165624088782, 0), (71731317, 0), (0, 371014)]],
    2, 2⟩, ⟨[[(13558411040260096, 0), (0, 26738200240886190), (1502832204257, 0)], [(0, 3362410985524217), (0,
    1788066772535), (318145004, 0)], [(8538055457516, 0), (0, 129342436), (189823, 0)]], 2, 2⟩, 72057594037927936,
    7867048052594, 8074031052128, ⟨[], 0, 0⟩, 0, 0, 0, lc0⟩ 0 224 12)))) (.sx (.leaf ⟨253, 16, 240, 104, 16, 2242,
    ⟨[[(0, 16246294270666752), (0, 15519644728274370), (2083430617951, 0), (0, 76581475), (0, 358700)],
    [(35225068032065216, 0), (0, 11997380431727), (708456573, 0), (1011869, 0), (0, 1514)], [(35715242903769, 0), (0,
    404377967), (0, 1785254), (2886, 0), (0, 1)], [(12729047370, 0), (4289656, 0), (0, 7230), (0, 3)]], 3, 4⟩, ⟨[[(0,
    31016147085744128), (0, 26654025204778496), (2945751035482, 0), (0, 395567111), (0, 552642)], [(0,
    4815244206102438), (0, 3469367978164), (907403938, 0), (0, 1853183), (0, 3257)], [(16839324419985, 0), (0,
    353424928), (1386445, 0), (0, 2299), (0, 3)], [(4925475412, 0), (806583, 0), (0, 681), (0, 2)]], 3, 4⟩,
    72057594037927936, 493880886478, 420937113651, ⟨[[(8559345621940, 0), (3235300997, 0), (1717104, 0), (837, 0)],
    [(0, 5554133437), (0, 9128439), (0, 10171), (0, 6)], [(10883897, 0), (30262, 0), (53, 0)], [(0, 37636), (0,
    127)]], 3, 4⟩, 17592186044416, 316200158,
    2198170139526983084324464588425665700939071178712729730444057936464632985236584121998907084748875144460426214508148533008663411,
    lc0⟩) (.leaf ⟨257, 16, 231, 103, 16, 2261, ⟨[[(0, 10985760984981504), (0, 15261207908045788), (2022879108663, 0),
    (0, 44346464), (0, 386721)], [(35856955333943803, 0), (0, 11560441832444), (566987948, 0), (1119849, 0), (0,
    1509)], [(35347743362233, 0), (0, 92039889), (0, 2430595), (2390, 0), (0, 1)], [(10809620781, 0), (2819751, 0),
    (0, 10198), (0, 6)]], 3, 4⟩, ⟨[[(0, 18263908007750656), (0, 26978141370502049), (2997404812422, 0), (0,
    453115686), (0, 651504)], [(0, 3894016918746273), (0, 3517910641638), (989742702, 0), (0, 2004584), (0, 3445)],
    [(17363752322691, 0), (0, 349192942), (1227711, 0), (0, 2567), (0, 3)], [(4066727328, 0), (0, 760971), (0, 3557),
    (0, 4)]], 3, 4⟩, 72057594037927936, 651820340938, 564006916690, ⟨[[(8477749950414, 0), (3080980590, 0), (1553665,
    0), (733, 0)], [(0, 5459732497), (0, 8569121), (0, 8984), (0, 6)], [(10071896, 0), (26998, 0), (46, 0)], [(0,
    38158), (0, 119)]], 3, 4⟩, 17592186044416, 293016379,
    4302684789228942585342891030141556013134279520216966825711006633515035372063756782107304890705222218800152407926606248680172078,
    lc0⟩)))) (.sx (.sy (.out ⟨163, 16, 141, 1675, 16, 2033, ⟨[[(0, 33866331925045248), (0, 9805483824078267),
    (1235805880794, 0)], [(48563954148601381, 0), (0, 14135100719560), (0, 71374866)], [(89104338398424, 0),
    (1783033807, 0), (0, 10978634)]], 2, 2⟩, ⟨[[(9047542202875904, 0), (0, 26066765620048647), (2970015362827, 0)],
    [(0, 4026234013433585), (0, 7096302254413), (2789072366, 0)], [(67268770687372, 0), (0, 2982617448), (4108546,
    0)]], 2, 2⟩, 72057594037927936, 120357644137532, 84515220888360, ⟨[], 0, 0⟩, 0, 0, 0, lc0⟩ 0 94 15) (.sx (.sy
    (.out ⟨316, 16, 297, 3333, 16, 4095, ⟨[[(4727445591506944, 0), (0, 10069938436786347), (654525081841, 0)],
    [(48967721339995483, 0), (0, 7440917983405), (105342069, 0)], [(46510976954344, 0), (127100801, 0), (0,
    1147894)]], 2, 2⟩, ⟨[[(0, 17242354397216768), (0, 25858898583007150), (1452095177758, 0)], [(0,
    5407555718226757), (0, 3407996926643), (554216266, 0)], [(33593973848535, 0), (0, 513861398), (446588, 0)]], 2,
    2⟩, 72057594037927936, 32930878975136, 23296355389474, ⟨[], 0, 0⟩, 0, 0, 0, lc0⟩ 0 396 25) (.leaf ⟨355, 16, 307,
    183, 16, 4406, ⟨[[(0, 14895831760617472), (0, 10303451065072806), (676111427542, 0), (0, 7624320), (0, 38085)],
    [(50017297462767927, 0), (0, 7670597663368), (156895112, 0), (184317, 0), (0, 137)], [(48080169945297, 0), (0,
    48475294), (0, 1121009), (258, 0)], [(11783214701, 0), (41582, 0), (0, 5121), (0, 2)]], 3, 4⟩,
    ⟨[[(28494895082756096, 0), (0, 26267962562750077), (1458709394063, 0), (0, 140415311), (0, 112191)], [(0,
    5810352117840993), (0, 3412836642899), (444337154, 0), (0, 600101), (0, 503)], [(34385474703166, 0), (0,
    468577029), (280780, 0), (0, 821)], [(5331334829, 0), (0, 3373669), (0, 3991), (0, 2)]], 3, 4⟩,
    72057594037927936, 1107163998086, 1116251068797, ⟨[[(8396380040147, 0), (1524311530, 0), (381513, 0), (91, 0)],
    [(0, 3908820827), (0, 3054929), (0, 1584), (0, 1)], [(4945349, 0), (6635, 0), (6, 0)], [(0, 14992), (0, 23)]], 3,
    4⟩, 17592186044416, 25353167,
    7013746443879453989098854487003596044883524730173734178404544523398806771435371691201273664817299146647176302240492899227269240,
    lc0⟩)) (.out ⟨234, 16, 211, 1741, 16, 2149, ⟨[[(34771631823544320, 0), (0, 14531203182999711), (1867787107564,
    0)], [(36450337361499488, 0), (0, 10557189601391), (155370075, 0)], [(33631355296821, 0), (0, 11612622), (0,
    4528189)]], 2, 2⟩, ⟨[[(0, 20081424375431168), (0, 27121885649934648), (3049556142075, 0)], [(0,
    1915115894744663), (0, 3572026974230), (1065682904, 0)], [(17785795937983, 0), (0, 906066886), (0, 107035)]], 2,
    2⟩, 72057594037927936, 20537149895969, 43158512641035, ⟨[], 0, 0⟩, 0, 0, 0, lc0⟩ 0 121 13))) (.out ⟨123, 16, 98,
    875, 16, 1071, ⟨[[(0, 4214604615413760), (0, 14045037318339246), (3440427380162, 0)], [(36887241462507099, 0),
    (0, 19597662358620), (0, 1835986385)], [(63333740016376, 0), (0, 430417822), (0, 55312015)]], 2, 2⟩, ⟨[[(0,
    30550396069969920), (0, 27428617339198933), (6308156846378, 0)], [(0, 274519414006431), (0, 7539433910176),
    (5011022595, 0)], [(35465597560731, 0), (0, 8018478972), (0, 14400067)]], 2, 2⟩, 72057594037927936,
    82162061598068, 209887903297224, ⟨[], 0, 0⟩, 0, 0, 0, lc0⟩ 0 44 11))
theorem c81 : checkR job con1 true ⟨7, 9, 7, 9, 13, 17⟩ 1 9016 t81 370 14 160 4039 39 4000 = true := by decide +kernel

def t82 : CTree :=
  .out ⟨101, 16, 86, 1604, 16, 1558, ⟨[[(3602879701896192, 0)], [(77461913590772526, 0)]], 2, 2⟩, ⟨[[(0,
    30876679045251072), (28066432877772931, 0)]], 2, 2⟩, 72057594037927936, 278, 1052, ⟨[], 0, 0⟩, 0, 0, 0, lc0⟩ 2 1
    98396
theorem c82 : checkR job con1 true ⟨7, 9, 7, 9, 13, 17⟩ 1 9016 t82 94 14 80 4117 39 4000 = true := by decide +kernel

def t83 : CTree :=
  .sy (.sx (.sy (.out ⟨396, 16, 2275, 6355, 16, 10037, ⟨[[(13721237048184832, 0), (0, 21901134458068667),
    (6625383668007, 0)], [(0, 9212210420761808), (0, 102349123593540), (711003264, 0)], [(211642572906094, 0), (0,
    505703608811), (0, 266759063)]], 2, 2⟩, ⟨[[(34531906379120640, 0), (0, 28008106049624556), (1712929242837, 0)]],
    2, 2⟩, 72057594037927936, 7389139477298482, 6229110480973, ⟨[], 0, 0⟩, 0, 0, 0, lc0⟩ 3 1 12460) (.out ⟨353, 16,
    2152, 6386, 16, 10133, ⟨[[(0, 8037197794107392), (0, 19697914557223431), (6809007603540, 0)], [(0,
    16262747009798235), (0, 96752423176275), (133461342, 0)], [(161287649412290, 0), (0, 520241240050), (0,
    285149922)]], 2, 2⟩, ⟨[[(0, 14095340839370752), (0, 28008138059855652), (1704798713242, 0)]], 2, 2⟩,
    72057594037927936, 7149977456695908, 6170040004487, ⟨[], 0, 0⟩, 0, 0, 0, lc0⟩ 3 1 15984)) (.sy (.out ⟨337, 16,
    1940, 6355, 16, 10037, ⟨[[(33732362066681856, 0), (0, 21445222636119572), (5501904872257, 0)],
    [(7865251102613255, 0), (0, 109942685116837), (0, 10592614573)], [(392121345917253, 0), (0, 370383611173), (0,
    166045174)]], 2, 2⟩, ⟨[[(34531906379120640, 0), (0, 28008106049624556), (1712929242837, 0)]], 2, 2⟩,
    72057594037927936, 8516653923531773, 6229110480973, ⟨[], 0, 0⟩, 0, 0, 0, lc0⟩ 3 1 12815) (.out ⟨360, 16, 2220,
    6386, 16, 10133, ⟨[[(11270790297632768, 0), (0, 23518613898571257), (6814367874285, 0)], [(0, 891050842495683),
    (0, 127876448310676), (0, 14396052193)], [(414448013089268, 0), (0, 455522043372), (0, 216636666)]], 2, 2⟩,
    ⟨[[(0, 14095340839370752), (0, 28008138059855652), (1704798713242, 0)]], 2, 2⟩, 72057594037927936,
    10057963027732072, 6170040004487, ⟨[], 0, 0⟩, 0, 0, 0, lc0⟩ 3 1 17855))) (.sx (.out ⟨484, 16, 347, 3223, 16,
    3117, ⟨[[(0, 26571237801484288)], [(78137453534878098, 0)]], 2, 2⟩, ⟨[[(26490173008183296, 0),
    (28075440077027673, 0)]], 2, 2⟩, 72057594037927936, 1745, 9998, ⟨[], 0, 0⟩, 0, 0, 0, lc0⟩ 2 1 48477) (.out ⟨161,
    16, 1106, 3208, 16, 5127, ⟨[[(5523132604063744, 0), (0, 21742925013650750), (15377672223286, 0)], [(0,
    8004305458851144), (0, 131207618190198), (0, 36308783921)], [(178348021660903, 0), (0, 509579080343), (0,
    522850822)]], 2, 2⟩, ⟨[[(13113175619207168, 0), (0, 27943173558478425), (3377634903720, 0)]], 2, 2⟩,
    72057594037927936, 6057442198838429, 24333000373303, ⟨[], 0, 0⟩, 0, 0, 0, lc0⟩ 3 1 24833))
theorem c83 : checkR job con1 true ⟨7, 9, 7, 9, 13, 17⟩ 1 9016 t83 230 14 160 4117 39 4000 = true := by decide +kernel

def t84 : CTree :=
  .sy (.sx (.sy (.out ⟨520, 16, 2892, 12712, 16, 20051, ⟨[[(24087557492039680, 0), (0, 17970088258144604),
    (1909104335423, 0)], [(22982087433535017, 0), (0, 46014579365172), (0, 2898821342)], [(222838091533135, 0), (0,
    55392568684), (0, 8973063)]], 2, 2⟩, ⟨[[(0, 32110397578674176), (0, 28042862719669396), (858551349223, 0)]], 2,
    2⟩, 72057594037927936, 1794850057246398, 1561071853446, ⟨[], 0, 0⟩, 0, 0, 0, lc0⟩ 3 1 8586) (.out ⟨532, 16, 3068,
    12742, 16, 20147, ⟨[[(0, 33306920632254464), (0, 18742000111184318), (2099901957873, 0)], [(20553915308855038,
    0), (0, 49315207812067), (0, 3340871601)], [(231756496212944, 0), (0, 60306417723), (0, 10267381)]], 2, 2⟩,
    ⟨[[(0, 973685364752384), (0, 28043031353529613), (856511143628, 0)]], 2, 2⟩, 72057594037927936, 1931593840156314,
    1553647728358, ⟨[], 0, 0⟩, 0, 0, 0, lc0⟩ 3 1 11542)) (.sy (.leaf ⟨742, 16, 2380, 361, 16, 2973,
    ⟨[[(26043293495836672, 0), (0, 15882770501372665), (1499462087540, 0), (213837928, 0), (45080, 0)],
    [(30447308487885600, 0), (0, 40212858845882), (0, 2698991014), (0, 972185), (0, 150)], [(229178674467910, 0), (0,
    38138366984), (0, 3793610), (0, 1584)], [(567457557590, 0), (88591266, 0), (43004, 0), (10, 0)]], 3, 4⟩,
    ⟨[[(13925507678650368, 0), (0, 8543264960418650), (0, 20064111798), (0, 64005790), (0, 5914)], [(0,
    55648616817104658), (4692803457415, 0), (2419178179, 0), (632211, 0), (99, 0)], [(8094300763836, 0), (0,
    23684193186), (0, 8712901), (0, 2143)], [(43259523716, 0), (26024737, 0), (9149, 0), (2, 0)]], 3, 4⟩,
    72057594037927936, 14933636512419, 4367586453348, ⟨[[(12266947192781, 0), (12075125827, 0), (23700850, 0),
    (52657, 0), (70, 0)], [(0, 6496583794), (0, 44011308), (0, 222437), (0, 741), (0, 1)], [(19610940, 0), (267942,
    0), (1860, 0), (6, 0)], [(0, 95940), (0, 1696), (0, 12)]], 3, 4⟩, 17592186044416, 70915213,
    5699171370529581841238316458498590553642047000920549129496112346511045771089428569907052755427761362568311748632069880542044745,
    lc0⟩) (.leaf ⟨762, 16, 2500, 354, 16, 2987, ⟨[[(0, 9622099541049344), (0, 16433681638424619), (1629380553774, 0),
    (239724943, 0), (49487, 0)], [(28669976760182496, 0), (0, 42701611580842), (0, 3079891410), (0, 1071736), (0,
    167)], [(237584073692149, 0), (0, 40713952656), (0, 4386462), (0, 1770)], [(603607268716, 0), (100299939, 0),
    (47693, 0), (11, 0)]], 3, 4⟩, ⟨[[(0, 28776309109727232), (0, 8587825223136185), (0, 35419818040), (0, 66114652),
    (0, 5635)], [(0, 55527813752561938), (5105854308953, 0), (2582863924, 0), (666631, 0), (102, 0)],
    [(6222055717804, 0), (0, 25201375726), (0, 9272065), (0, 2276)], [(45559567638, 0), (27616758, 0), (9651, 0), (2,
    0)]], 3, 4⟩, 72057594037927936, 15637093810316, 4590836126532, ⟨[[(12270965726130, 0), (12359145671, 0),
    (26017447, 0), (62911, 0), (91, 0)], [(0, 6460012607), (0, 46978585), (0, 255079), (0, 893), (0, 1)], [(20227253,
    0), (294806, 0), (2136, 0), (8, 0)], [(0, 100885), (0, 1856), (0, 14)]], 3, 4⟩, 17592186044416, 73573811,
    9096084392289248644162604060060409805275349042771742357151864736590407591624296790033148855388578439821471328656518043524478770,
    lc0⟩))) (.out ⟨229, 16, 1394, 6386, 16, 10133, ⟨[[(33277799649116160, 0), (0, 17221140739302840), (3936950072499,
    0)], [(19483147642576359, 0), (0, 94191122324500), (0, 14714998698)], [(462504957573653, 0), (0, 207564704878),
    (0, 64296579)]], 2, 2⟩, ⟨[[(0, 14095340839370752), (0, 28008138059855652), (1704798713242, 0)]], 2, 2⟩,
    72057594037927936, 7643063658045180, 6170040004487, ⟨[], 0, 0⟩, 0, 0, 0, lc0⟩ 3 1 15742)
theorem c84 : checkR job con1 true ⟨7, 9, 7, 9, 13, 17⟩ 1 9016 t84 502 14 320 8195 39 8000 = true := by decide +kernel

def t85 : CTree :=
  .sy (.sx (.sy (.leaf ⟨616, 16, 1938, 343, 16, 3005, ⟨[[(21763198074437632, 0), (0, 13872748306791649),
    (1157795744438, 0), (151127216, 0), (33119, 0)], [(36356613530052672, 0), (0, 34317004177373), (0, 2289138339),
    (0, 844706), (0, 133)], [(226833920394111, 0), (0, 25166639501), (0, 196606), (0, 608)], [(494784194708, 0),
    (67113735, 0), (33461, 0), (8, 0)]], 3, 4⟩, ⟨[[(23606455628271616, 0), (0, 8520564097070643), (41498597899, 0),
    (0, 48455025), (0, 3479)], [(0, 55677698716353957), (3469433464048, 0), (1975757490, 0), (522698, 0), (79, 0)],
    [(12318711709254, 0), (0, 21479853755), (0, 7928198), (0, 1981)], [(54210174697, 0), (31789613, 0), (11500, 0),
    (2, 0)]], 3, 4⟩, 72057594037927936, 10798359220159, 3197521435842, ⟨[[(11937230525443, 0), (10531465972, 0),
    (17821027, 0), (36431, 0), (64, 0)], [(0, 6452217157), (0, 36924829), (0, 168373), (0, 607), (0, 1)], [(18367181,
    0), (225219, 0), (1615, 0), (6, 0)], [(0, 89874), (0, 1617), (0, 13)]], 3, 4⟩, 17592186044416, 83798790,
    6719486099620968658783333347245661080296603711154918114475782493968897590726799049560006628772612994567637724766165294430515203,
    lc0⟩) (.leaf ⟨627, 16, 2019, 335, 16, 3017, ⟨[[(0, 34642486998532096), (0, 14261464084859661), (1244306078632,
    0), (168442045, 0), (36005, 0)], [(35072628483165029, 0), (0, 36139666834739), (0, 2595908256), (0, 924636), (0,
    147)], [(234267999743994, 0), (0, 26262314274), (0, 358934), (0, 684)], [(521133781010, 0), (75511311, 0),
    (36855, 0), (9, 0)]], 3, 4⟩, ⟨[[(31832278738694144, 0), (0, 8548984399979527), (30157547976, 0), (0, 49680084),
    (0, 3111)], [(0, 55616021972969362), (3802466966405, 0), (2109366378, 0), (549838, 0), (81, 0)],
    [(10636400657884, 0), (0, 22844348033), (0, 8438426), (0, 2103)], [(56987579442, 0), (33763603, 0), (12139, 0),
    (3, 0)]], 3, 4⟩, 72057594037927936, 11048439339356, 3336472856086, ⟨[[(11930640506553, 0), (10689575166, 0),
    (19156991, 0), (42895, 0), (82, 0)], [(0, 6370929969), (0, 38678361), (0, 191116), (0, 732), (0, 1)], [(18637676,
    0), (246281, 0), (1868, 0), (8, 0)], [(0, 94178), (0, 1791), (0, 15)]], 3, 4⟩, 17592186044416, 89085525,
    8414009130636011124043118937671555753611682209697251543158973995503671445138919310492771014924709482141183309324427171125406916,
    lc0⟩)) (.sy (.sx (.leaf ⟨763, 16, 2353, 510, 16, 4680, ⟨[[(0, 6921397808365568), (0, 17731150948311703),
    (1347622748329, 0), (161715247, 0), (36741, 0)], [(28257957977142624, 0), (0, 21422341673929), (0, 1368432166),
    (0, 521981), (0, 84)], [(78527359717521, 0), (0, 6421401662), (556764, 0), (0, 36)], [(78438799244, 0), (9067370,
    0), (4676, 0), (1, 0)]], 3, 4⟩, ⟨[[(0, 31886309897994240), (0, 13170778038518454), (123973192587, 0), (0,
    59692737), (0, 3072)], [(0, 42895506934137189), (2032823801761, 0), (1291480379, 0), (344882, 0), (50, 0)],
    [(6199108209126, 0), (0, 7551865830), (0, 2790990), (0, 707)], [(11653298508, 0), (6640807, 0), (2439, 0), (1,
    0)]], 3, 4⟩, 72057594037927936, 751108285550, 219902079310, ⟨[[(11706508585088, 0), (6183123348, 0), (6036370,
    0), (7032, 0), (9, 0)], [(0, 4585221194), (0, 14898063), (0, 38457), (0, 90)], [(8835827, 0), (60997, 0), (275,
    0), (1, 0)], [(0, 28893), (0, 322), (0, 2)]], 3, 4⟩, 17592186044416, 16756341,
    8600683187042428981102845236225646185484637137619759259172785536815545946312851945133660724786232733834371932548882872548805438,
    lc0⟩) (.leaf ⟨717, 16, 2179, 496, 16, 4710, ⟨[[(33906007257391104, 0), (0, 16979917151886198), (1212983366032,
    0), (136219107, 0), (31834, 0)], [(30413058233949632, 0), (0, 20152133308371), (0, 1228434756), (0, 482783), (0,
    79)], [(78903988171493, 0), (0, 5278024890), (865523, 0), (53, 0)], [(74575177302, 0), (7494355, 0), (3990, 0),
    (1, 0)]], 3, 4⟩, ⟨[[(8667055216541696, 0), (0, 13203733083286126), (159013366177, 0), (0, 50903216), (0, 1772)],
    [(0, 42793063961831863), (1636095054059, 0), (1148303990, 0), (308487, 0), (44, 0)], [(7247814301612, 0), (0,
    7032001214), (0, 2599178), (0, 667)], [(12269785059, 0), (6826161, 0), (2530, 0), (1, 0)]], 3, 4⟩,
    72057594037927936, 666796934647, 167171812410, ⟨[[(11554266705704, 0), (5797417887, 0), (5266336, 0), (5506, 0),
    (7, 0)], [(0, 4505092233), (0, 13489298), (0, 31252), (0, 70)], [(8312511, 0), (51297, 0), (218, 0), (1, 0)],
    [(0, 25162), (0, 263), (0, 1)]], 3, 4⟩, 17592186044416, 14934243,
    9615650824059398905616261012565999052849687945551011951006404021315544075144895206799914503634223846347471845922309321477142443,
    lc0⟩)) (.sx (.leaf ⟨766, 16, 2422, 497, 16, 4693, ⟨[[(0, 26116925135888384), (0, 18031599266724437),
    (1427491648365, 0), (178504424, 0), (39411, 0)], [(27357832173178578, 0), (0, 22280244471688), (0, 1537499765),
    (0, 565022), (0, 91)], [(80318028378802, 0), (0, 6521019007), (563596, 0), (0, 45)], [(81496800381, 0),
    (10105886, 0), (5095, 0), (1, 0)]], 3, 4⟩, ⟨[[(0, 22591091910467584), (0, 13189068084849246), (110205800677, 0),
    (0, 60721355), (0, 2437)], [(0, 42847615231434798), (2246909634943, 0), (1377847941, 0), (361727, 0), (51, 0)],
    [(5608277179337, 0), (0, 8022641998), (0, 2969511), (0, 751)], [(12220227353, 0), (7050681, 0), (2573, 0), (1,
    0)]], 3, 4⟩, 72057594037927936, 749273499467, 226816288195, ⟨[[(11704278023199, 0), (6278002770, 0), (6459609,
    0), (8299, 0), (11, 0)], [(0, 4575397767), (0, 15692629), (0, 44249), (0, 111)], [(9111116, 0), (68365, 0), (331,
    0), (1, 0)], [(0, 31325), (0, 376), (0, 2)]], 3, 4⟩, 17592186044416, 18354459,
    7213311433196036678911472776994212369533167438274847115785585088049197065885144649043343951237047521469376232384798073137317358,
    lc0⟩) (.leaf ⟨718, 16, 2238, 483, 16, 4722, ⟨[[(9041574700933120, 0), (0, 17242710985662201), (1279775005788, 0),
    (150317088, 0), (34035, 0)], [(29614199929871717, 0), (0, 20903815833295), (0, 1380730073), (0, 521771), (0,
    85)], [(80623044224983, 0), (0, 5281274413), (901455, 0), (52, 0)], [(77220236284, 0), (8355602, 0), (4344, 0),
    (1, 0)]], 3, 4⟩, ⟨[[(4927144175075328, 0), (0, 13213438401372329), (147419824542, 0), (0, 51485241), (0, 1111)],
    [(0, 42766997855704293), (1825583477139, 0), (1225203985, 0), (323010, 0), (44, 0)], [(6700211198461, 0), (0,
    7468851793), (0, 2766674), (0, 707)], [(12850540577, 0), (7249503, 0), (2669, 0), (1, 0)]], 3, 4⟩,
    72057594037927936, 658432508972, 170363212691, ⟨[[(11552858922870, 0), (5878527829, 0), (5590376, 0), (6424, 0),
    (9, 0)], [(0, 4494135943), (0, 14099451), (0, 35575), (0, 87)], [(8513985, 0), (56920, 0), (263, 0), (1, 0)],
    [(0, 26999), (0, 307), (0, 2)]], 3, 4⟩, 17592186044416, 16350502,
    9344642970259645454363256040026249903360382482644824849649013567493011763358065764395526481840809314888302548857172778699002736,
    lc0⟩)))) (.sx (.sy (.sx (.out ⟨501, 16, 2890, 12772, 16, 20243, ⟨[[(0, 23414018053918720), (0,
    19767077084327710), (1867606437763, 0)], [(20800832479512992, 0), (0, 25894827374548), (0, 2007280494)],
    [(79165899518604, 0), (0, 10042519880), (0, 483296)]], 2, 2⟩, ⟨[[(19739587158736896, 0), (0, 28042881581997450),
    (854470933971, 0)]], 2, 2⟩, 72057594037927936, 274861235602884, 1546258888554, ⟨[], 0, 0⟩, 0, 0, 0, lc0⟩ 3 1
    8228) (.leaf ⟨825, 16, 2711, 498, 16, 4679, ⟨[[(6432318967201792, 0), (0, 19229978164898251), (1698997788590, 0),
    (232400435, 0), (48938, 0)], [(23878292443263401, 0), (0, 24786093848484), (0, 1892878202), (0, 658545), (0,
    106)], [(81695461561392, 0), (0, 8273496803), (95355, 0), (0, 184)], [(89756299543, 0), (13250822, 0), (6396, 0),
    (2, 0)]], 3, 4⟩, ⟨[[(0, 31828130266775552), (0, 13209410530432195), (52229285380, 0), (0, 72370070), (0, 3278)],
    [(0, 42784246182192146), (2953046879738, 0), (1642142970, 0), (422430, 0), (60, 0)], [(3908180196841, 0), (0,
    9087509483), (0, 3362153), (0, 840)], [(12010010876, 0), (7131331, 0), (2563, 0), (1, 0)]], 3, 4⟩,
    72057594037927936, 868213092660, 296965936290, ⟨[[(11862214040349, 0), (6861254809, 0), (8223814, 0), (12818, 0),
    (18, 0)], [(0, 4690445091), (0, 18983069), (0, 64451), (0, 172)], [(10384692, 0), (93660, 0), (490, 0), (1, 0)],
    [(0, 40153), (0, 525), (0, 3)]], 3, 4⟩, 17592186044416, 23558177,
    10261614571541252204262746453963956407882016029945955578455775778329393880266032399194752667678489770782021098445335365500614760,
    lc0⟩)) (.out ⟨363, 16, 2168, 12802, 16, 20339, ⟨[[(0, 31771049864376320), (0, 14883265811347184), (1426589428093,
    0)], [(31535398255495721, 0), (0, 39751388141621), (0, 3276138667)], [(247145175920489, 0), (0, 28377137064), (0,
    756432)]], 2, 2⟩, ⟨[[(30103563071389696, 0), (0, 28042417923720245), (852430857638, 0)]], 2, 2⟩,
    72057594037927936, 1611666872777854, 1538905233303, ⟨[], 0, 0⟩, 0, 0, 0, lc0⟩ 3 1 10873)) (.sy (.leaf ⟨530, 16,
    1709, 310, 16, 3064, ⟨[[(16224313238208512, 0), (0, 12787325451568445), (1021321007366, 0), (128933375, 0),
    (27994, 0)], [(39364447409242455, 0), (0, 32041159199223), (0, 2334914565), (0, 839849), (0, 138)],
    [(235086724800049, 0), (0, 16896080222), (2186222, 0), (2, 0)], [(470367784192, 0), (58624431, 0), (29325, 0),
    (7, 0)]], 3, 4⟩, ⟨[[(0, 31540793701900288), (0, 8578987303036976), (75609494196, 0), (0, 36715016), (0, 660)],
    [(0, 55517911616330779), (2918364060681, 0), (1799060881, 0), (464834, 0), (63, 0)], [(14383430115315, 0), (0,
    21373382206), (0, 7927126), (0, 2009)], [(68367841871, 0), (39504551, 0), (14393, 0), (3, 0)]], 3, 4⟩,
    72057594037927936, 7993008218384, 2180016954954, ⟨[[(11633103966429, 0), (9531551889, 0), (15394541, 0), (32190,
    0), (75, 0)], [(0, 6371478605), (0, 34164807), (0, 155198), (0, 644), (0, 2)], [(18011405, 0), (216143, 0),
    (1711, 0), (8, 0)], [(0, 88569), (0, 1736), (0, 17)]], 3, 4⟩, 17592186044416, 106506234,
    9964473889173763593389798844028586404655016496949998892022853911849320466003854882356494911751361553658226411390445741082926118,
    lc0⟩) (.sx (.sy (.leaf ⟨1157, 16, 3829, 617, 16, 6140, ⟨[[(624900219568128, 0), (0, 13937044688738207),
    (594862834140, 0), (39681154, 0), (4177, 0)], [(38395071905647689, 0), (0, 17969202216317), (0, 703295133), (0,
    122040), (0, 10)], [(125585963816480, 0), (0, 5035179932), (214361, 0), (0, 12)], [(131176268227, 0), (9143805,
    0), (2222, 0)]], 3, 4⟩, ⟨[[(12778251865563136, 0), (0, 8610390113427742), (27839599309, 0), (0, 10090968), (0,
    91)], [(0, 55622802640414811), (1729488270652, 0), (501014420, 0), (63802, 0), (4, 0)], [(5829795977089, 0), (0,
    5806823149), (0, 1076928), (0, 135)], [(17311897485, 0), (5092884, 0), (920, 0)]], 3, 4⟩, 72057594037927936,
    1100519462063, 309508078326, ⟨[[(11702263708180, 0), (4973399610, 0), (4382965, 0), (5205, 0), (6, 0)], [(0,
    3048969554), (0, 8970968), (0, 22968), (0, 50)], [(4330550, 0), (29235, 0), (123, 0)], [(0, 10902), (0, 114), (0,
    1)]], 3, 4⟩, 17592186044416, 4837801,
    10269303116002502741001934818602050866580697184360581534161114189841830449503999998617822158341858386468477357651133549025867936,
    lc0⟩) (.out ⟨653, 16, 3835, 25636, 16, 40751, ⟨[[(0, 8486746332979200), (0, 13865206489378808), (605248631384,
    0)], [(37047098561067415, 0), (0, 18109495822365), (0, 733368342)], [(125390696686725, 0), (0, 5009797109),
    (211844, 0)]], 2, 2⟩, ⟨[[(0, 29559294097096704), (0, 28059467462552573), (426221917011, 0)]], 2, 2⟩,
    72057594037927936, 367600965682756, 384276051319, ⟨[], 0, 0⟩, 0, 0, 0, lc0⟩ 3 1 7296)) (.leaf ⟨721, 16, 2370,
    457, 16, 4748, ⟨[[(30028149319180288, 0), (0, 17824687056663526), (1435158312685, 0), (182574062, 0), (38942,
    0)], [(27869813325265362, 0), (0, 22634699753053), (0, 1734494124), (0, 612397), (0, 102)], [(84529252342169, 0),
    (0, 5291085456), (978705, 0), (48, 0)], [(83271485049, 0), (10369023, 0), (5156, 0), (1, 0)]], 3, 4⟩,
    ⟨[[(850623347859456, 0), (0, 13243736092826813), (123913554872, 0), (0, 51990020), (463, 0)], [(0,
    42684879666939493), (2244394338389, 0), (1390481166, 0), (352754, 0), (45, 0)], [(5495069150178, 0), (0,
    8431859088), (0, 3134254), (0, 796)], [(14126034486, 0), (8170905, 0), (2972, 0), (1, 0)]], 3, 4⟩,
    72057594037927936, 636144301697, 177674417190, ⟨[[(11553727879488, 0), (6071468545, 0), (6448716, 0), (9170, 0),
    (15, 0)], [(0, 4482382870), (0, 15713537), (0, 48093), (0, 139)], [(9035669, 0), (72451, 0), (395, 0), (1, 0)],
    [(0, 31816), (0, 429), (0, 3)]], 3, 4⟩, 17592186044416, 21551353,
    8494297367384247014127022872520879859341421137761163672307909134525008089712018202252606407118561447914647741532647668578643699,
    lc0⟩))))
theorem c85 : checkR job con1 true ⟨7, 9, 7, 9, 13, 17⟩ 1 9016 t85 530 14 320 8195 39 8000 = true := by decide +kernel

def t86 : CTree :=
  .sx (.out ⟨138, 16, 949, 3208, 16, 5127, ⟨[[(0, 21263029120786432), (0, 22118980501093878), (12027176853542, 0)],
    [(5613095475177322, 0), (0, 133506613486940), (0, 50104790958)], [(297680358787822, 0), (0, 305670008946), (0,
    220412648)]], 2, 2⟩, ⟨[[(13113175619207168, 0), (0, 27943173558478425), (3377634903720, 0)]], 2, 2⟩,
    72057594037927936, 6094948139354171, 24333000373303, ⟨[], 0, 0⟩, 0, 0, 0, lc0⟩ 3 1 24986) (.sy (.sx (.out ⟨230,
    16, 1472, 6416, 16, 10230, ⟨[[(0, 3971924271699968), (0, 19745317484151562), (4080398852727, 0)],
    [(18222007017335685, 0), (0, 55083536372239), (0, 9984466960)], [(165541128294196, 0), (0, 38823957410), (0,
    2913034)]], 2, 2⟩, ⟨[[(33880121370017792, 0), (0, 28009656719495703), (1696835083267, 0)]], 2, 2⟩,
    72057594037927936, 1198197912062737, 6112130223050, ⟨[], 0, 0⟩, 0, 0, 0, lc0⟩ 3 1 17234) (.sy (.sy (.out ⟨399,
    16, 2374, 25666, 16, 40848, ⟨[[(28600654288244736, 0), (0, 8682677977093268), (374131115293, 0)],
    [(48542868150618651, 0), (0, 22730787562778), (0, 935831668)], [(323415659706933, 0), (0, 11321088277), (757333,
    0)]], 2, 2⟩, ⟨[[(14461712375742464, 0), (0, 28059727060579174), (425721458642, 0)]], 2, 2⟩, 72057594037927936,
    1844556212621998, 383370545482, ⟨[], 0, 0⟩, 0, 0, 0, lc0⟩ 3 1 7868) (.out ⟨400, 16, 2435, 25697, 16, 40945,
    ⟨[[(3731456218112000, 0), (0, 8845439890578613), (389874910987, 0)], [(47965701754749202, 0), (0,
    23467609954068), (0, 998676026)], [(330824823210356, 0), (0, 11490909406), (775379, 0)]], 2, 2⟩, ⟨[[(0,
    18789332403879936), (0, 28059907024810650), (425220976599, 0)]], 2, 2⟩, 72057594037927936, 1902371343298480,
    382466817620, ⟨[], 0, 0⟩, 0, 0, 0, lc0⟩ 3 1 10109)) (.out ⟨300, 16, 1892, 12864, 16, 20533, ⟨[[(0,
    18771287096672256), (0, 13602350906488599), (1241474570536, 0)], [(35125192789978578, 0), (0, 36842777548399),
    (0, 3290746479)], [(256015174951791, 0), (0, 17575458851), (2400944, 0)]], 2, 2⟩, ⟨[[(0, 33753082468368384), (0,
    28043298236814713), (848434279394, 0)]], 2, 2⟩, 72057594037927936, 1507127911523553, 1524452654351, ⟨[], 0, 0⟩,
    0, 0, 0, lc0⟩ 3 1 13507))) (.out ⟨154, 16, 1067, 6447, 16, 10327, ⟨[[(0, 19780860811767808), (0,
    14415627844639966), (3061687048404, 0)], [(27042929194556302, 0), (0, 83751685085054), (0, 16821848604)],
    [(521526041316392, 0), (0, 94783057087), (5073971, 0)]], 2, 2⟩, ⟨[[(0, 10986678061891584), (0,
    28009907873648446), (1688869935101, 0)]], 2, 2⟩, 72057594037927936, 6930024013622321, 6054761018651, ⟨[], 0, 0⟩,
    0, 0, 0, lc0⟩ 3 1 23131))
theorem c86 : checkR job con1 true ⟨7, 9, 7, 9, 13, 17⟩ 1 9016 t86 258 14 160 8273 39 8000 = true := by decide +kernel

def t87 : CTree :=
  .sy (.sx (.sx (.leaf ⟨426, 16, 1289, 325, 16, 3242, ⟨[[(23959848925007872, 0), (0, 20651920520701355),
    (2825239256945, 0), (603067221, 0), (285985, 0)], [(20237088008143445, 0), (0, 24282651183930), (0, 2904488390),
    (0, 2318748), (0, 767)], [(50321173333787, 0), (0, 5440630322), (2839140, 0), (636, 0)], [(45369669232, 0),
    (7963657, 0), (8743, 0), (4, 0)]], 3, 4⟩, ⟨[[(14471032011620352, 0), (0, 18101131322719728), (507085242562, 0),
    (0, 235961490), (0, 3467)], [(0, 29121118510227365), (1842407749271, 0), (2866039105, 0), (1532263, 0), (410,
    0)], [(5534513902111, 0), (0, 9148864074), (0, 6769372), (0, 3512), (0, 1)], [(8904111606, 0), (9705401, 0),
    (7231, 0), (3, 0)]], 3, 4⟩, 72057594037927936, 389427646026, 84470404608, ⟨[[(11405891530730, 0), (8016280768,
    0), (10161032, 0), (14351, 0), (27, 0)], [(0, 7025172291), (0, 29114967), (0, 91257), (0, 289), (0, 1)],
    [(20072507, 0), (166711, 0), (987, 0), (5, 0)], [(0, 90820), (0, 1305), (0, 11)]], 3, 4⟩, 17592186044416,
    119564512,
    10074181248730495965861485222654640388429473952509680923870438602432215400103526946031084791054599510598945921605675079278115632,
    lc0⟩) (.leaf ⟨410, 16, 1215, 316, 16, 3261, ⟨[[(0, 14507188082630656), (0, 20111061730780869), (2588662100539,
    0), (507808240, 0), (249362, 0)], [(21832871063719337, 0), (0, 23159168312971), (0, 2569299774), (0, 2142493),
    (0, 719)], [(51066226697519, 0), (0, 4553200923), (3325028, 0), (935, 0)], [(43754314715, 0), (6166023, 0),
    (7189, 0), (4, 0)]], 3, 4⟩, ⟨[[(0, 15286305442742272), (0, 18162325589121910), (585597839701, 0), (0, 196889535),
    (7059, 0)], [(0, 28958813480706638), (1360757495926, 0), (2518632650, 0), (1350876, 0), (342, 0)],
    [(6327379053625, 0), (0, 8386730246), (0, 6198690), (0, 3266), (0, 1)], [(9133813852, 0), (9634706, 0), (7239,
    0), (3, 0)]], 3, 4⟩, 72057594037927936, 361617057249, 55085091061, ⟨[[(11261301939197, 0), (7523571814, 0),
    (8930538, 0), (11020, 0), (19, 0)], [(0, 6798096877), (0, 26193762), (0, 72658), (0, 201), (0, 1)], [(18539879,
    0), (136342, 0), (701, 0), (3, 0)], [(0, 76669), (0, 947), (0, 8)]], 3, 4⟩, 17592186044416, 93317960,
    9458170612814782332824693895648824950837652765098634185573205483241107933607096734158915265576383352238476132754336243149785065,
    lc0⟩)) (.sx (.leaf ⟨395, 16, 1145, 306, 16, 3280, ⟨[[(0, 20168820584972288), (0, 19566740623158640),
    (2374324910806, 0), (422785139, 0), (216126, 0)], [(23367668341680329, 0), (0, 22052567760238), (0, 2230703869),
    (0, 1961646), (0, 669)], [(51626605027169, 0), (0, 3859331103), (3657339, 0), (1163, 0)], [(42159042105, 0),
    (4450938, 0), (5684, 0), (3, 0)]], 3, 4⟩, ⟨[[(27490382364930048, 0), (0, 18236226023702377), (655213526047, 0),
    (0, 162497812), (15817, 0)], [(0, 28749446951587918), (918896791779, 0), (2201191359, 0), (1182221, 0), (279,
    0)], [(7140351657124, 0), (0, 7632161223), (0, 5628512), (0, 3020), (0, 1)], [(9277970098, 0), (9415342, 0),
    (7136, 0), (3, 0)]], 3, 4⟩, 72057594037927936, 342611395498, 28605835481, ⟨[[(11115866266791, 0), (7061490663,
    0), (7905114, 0), (8641, 0), (12, 0)], [(0, 6582978544), (0, 23762914), (0, 59384), (0, 136)], [(17285381, 0),
    (114812, 0), (497, 0), (2, 0)], [(0, 66996), (0, 697), (0, 5)]], 3, 4⟩, 17592186044416, 74229176,
    7138335291555939471807661423793302874099479456392446863161484839330216690979989231100524202705736639651589220470104902496517295,
    lc0⟩) (.leaf ⟨381, 16, 1080, 297, 16, 3300, ⟨[[(30199813395197952, 0), (0, 19041152935528947), (2183440263596,
    0), (347898841, 0), (186337, 0)], [(24862305324253705, 0), (0, 20995696803060), (0, 1899128582), (0, 1782237),
    (0, 620)], [(52073191337331, 0), (0, 3343572186), (3854197, 0), (1327, 0)], [(40651151709, 0), (2858910, 0),
    (4260, 0), (3, 0)]], 3, 4⟩, ⟨[[(6569600901066752, 0), (0, 18327350720962754), (716934663920, 0), (0, 132498387),
    (22920, 0)], [(0, 28500470437747835), (516476538501, 0), (1914207873, 0), (1026585, 0), (220, 0)],
    [(7969094520474, 0), (0, 6899281570), (0, 5069372), (0, 2779), (0, 1)], [(9348924290, 0), (9064481, 0), (6934,
    0), (3, 0)]], 3, 4⟩, 72057594037927936, 331567206768, 19331640376, ⟨[[(10985198336525, 0), (6659887410, 0),
    (7084933, 0), (7079, 0), (8, 0)], [(0, 6423857596), (0, 21902216), (0, 50752), (0, 95)], [(16419421, 0), (101354,
    0), (372, 0), (1, 0)], [(0, 61614), (0, 551), (0, 3)]], 3, 4⟩, 17592186044416, 65418806,
    3337016902109670526588949220101746153988482183840642993399832038579314784262144848466338399046276634766448280625643671856570704,
    lc0⟩))) (.sx (.sx (.sy (.leaf ⟨675, 16, 2125, 457, 16, 4766, ⟨[[(30301300738949120, 0), (0, 16745250268662164),
    (1210485224132, 0), (138468746, 0), (31197, 0)], [(31003139487415273, 0), (0, 20316013933872), (0, 1371458177),
    (0, 516454), (0, 86)], [(82449242237962, 0), (0, 4205406572), (1216345, 0), (132, 0)], [(75613680343, 0),
    (7445981, 0), (3936, 0), (1, 0)]], 3, 4⟩, ⟨[[(0, 35863266247569408), (0, 13263229213401147), (171147390568, 0),
    (0, 43257948), (785, 0)], [(0, 42637056142880475), (1612526329405, 0), (1155248186, 0), (299175, 0), (38, 0)],
    [(7314267087721, 0), (0, 7334221249), (0, 2724370), (0, 703)], [(13961746703, 0), (7780182, 0), (2869, 0), (1,
    0)]], 3, 4⟩, 72057594037927936, 572257526689, 117493111455, ⟨[[(11409633626107, 0), (5593902895, 0), (5171827,
    0), (5757, 0), (9, 0)], [(0, 4424355043), (0, 13374825), (0, 32560), (0, 82)], [(8259356, 0), (52764, 0), (246,
    0), (1, 0)], [(0, 25142), (0, 285), (0, 2)]], 3, 4⟩, 17592186044416, 15822749,
    9176159805404471756611069138516009003466308636388537258444224181520655099533556311721127623154844589635897217696806910639061808,
    lc0⟩) (.leaf ⟨675, 16, 2183, 443, 16, 4778, ⟨[[(24538678719045632, 0), (0, 17005649587544110), (1277994827489,
    0), (152433531, 0), (33244, 0)], [(30212615358317728, 0), (0, 21100162650285), (0, 1536333666), (0, 558979), (0,
    94)], [(84370313582745, 0), (0, 4122775558), (1281436, 0), (137, 0)], [(78299213738, 0), (8298725, 0), (4285, 0),
    (1, 0)]], 3, 4⟩, ⟨[[(19652533708582912, 0), (0, 13270647267837709), (161469126057, 0), (0, 42992893), (1624, 0)],
    [(0, 42611125510211410), (1802804580161, 0), (1229712740, 0), (311649, 0), (37, 0)], [(6742217511954, 0), (0,
    7791870313), (0, 2900931), (0, 746)], [(14623085065, 0), (8260180, 0), (3027, 0), (1, 0)]], 3, 4⟩,
    72057594037927936, 554740262482, 117268089874, ⟨[[(11404656072816, 0), (5666582115, 0), (5493969, 0), (6768, 0),
    (11, 0)], [(0, 4401457292), (0, 13935172), (0, 37161), (0, 102)], [(8381384, 0), (58214, 0), (298, 0), (1, 0)],
    [(0, 26540), (0, 332), (0, 2)]], 3, 4⟩, 17592186044416, 17583793,
    8345573780074349401848393995242679563994326430253701116894581584833203701708593945154611955122037753602443465437740313389276434,
    lc0⟩)) (.leaf ⟨403, 16, 1261, 298, 16, 3276, ⟨[[(0, 3576628017090560), (0, 20443227927693476), (2819678193205,
    0), (610804616, 0), (278190, 0)], [(20767352281138226, 0), (0, 24494005422403), (0, 3215215422), (0, 2470372),
    (0, 837)], [(52652463151505, 0), (0, 4169289608), (3682649, 0), (1011, 0)], [(45957315341, 0), (7637270, 0),
    (8422, 0), (4, 0)]], 3, 4⟩, ⟨[[(0, 33273297986560000), (0, 18157684827841641), (542456501836, 0), (0, 193101844),
    (23538, 0)], [(0, 28969340867177147), (1787149046169, 0), (2860223096, 0), (1462932, 0), (334, 0)],
    [(5659820749283, 0), (0, 9458996310), (0, 7040769), (0, 3680), (0, 1)], [(9976587462, 0), (10873659, 0), (8057,
    0), (4, 0)]], 3, 4⟩, 72057594037927936, 337029007208, 51247257746, ⟨[[(11264260270893, 0), (7727459896, 0),
    (9915351, 0), (14537, 0), (32, 0)], [(0, 6857793165), (0, 28519116), (0, 92169), (0, 317), (0, 1)], [(19633498,
    0), (165564, 0), (1050, 0), (6, 0)], [(0, 87299), (0, 1325), (0, 13)]], 3, 4⟩, 17592186044416, 126242770,
    9839128007698513733481845640520354333620851300224489541055025343535543986415288364036553991034554699764971558318834909725755756,
    lc0⟩)) (.sx (.leaf ⟨387, 16, 1186, 288, 16, 3295, ⟨[[(9082833491099648, 0), (0, 19875300510224338),
    (2570184437309, 0), (510250844, 0), (239714, 0)], [(22407673079393659, 0), (0, 23241114139827), (0, 2812344907),
    (0, 2261099), (0, 778)], [(53187063391936, 0), (0, 3384181743), (4077588, 0), (1269, 0)], [(44065662914, 0),
    (5589679, 0), (6680, 0), (4, 0)]], 3, 4⟩, ⟨[[(486645202210816, 0), (0, 18219884741392368), (620778567097, 0), (0,
    155846454), (32025, 0)], [(0, 28794894207671483), (1290256522921, 0), (2499198350, 0), (1272439, 0), (262, 0)],
    [(6539091902147, 0), (0, 8606698516), (0, 6406841), (0, 3406), (0, 1)], [(10103299959, 0), (10636070, 0), (7943,
    0), (3, 0)]], 3, 4⟩, 72057594037927936, 316164933161, 20784561061, ⟨[[(11121325675810, 0), (7245151925, 0),
    (8693205, 0), (10964, 0), (21, 0)], [(0, 6645170388), (0, 25656514), (0, 72718), (0, 211), (0, 1)], [(18230439,
    0), (135025, 0), (722, 0), (4, 0)], [(0, 74156), (0, 936), (0, 9)]], 3, 4⟩, 17592186044416, 98119672,
    8039364204279583099364715364882831036396113971813231061401580755412562064025102863051620007565966093067809876862990749428427761,
    lc0⟩) (.leaf ⟨373, 16, 1117, 278, 16, 3314, ⟨[[(26071963712016384, 0), (0, 19334263443418693), (2349632182736,
    0), (421945035, 0), (205431, 0)], [(24007450817208425, 0), (0, 22056303550926), (0, 2419835709), (0, 2055180),
    (0, 719)], [(53612359910252, 0), (0, 2810732207), (4316779, 0), (1454, 0)], [(42302529739, 0), (3692976, 0),
    (5040, 0), (3, 0)]], 3, 4⟩, ⟨[[(35204435467718656, 0), (0, 18295164763853850), (689861345058, 0), (0, 123520686),
    (38613, 0)], [(0, 28568732747217303), (837776452319, 0), (2171352700, 0), (1096099, 0), (195, 0)],
    [(7430139066102, 0), (0, 7775702317), (0, 5783501), (0, 3136), (0, 1)], [(10142467917, 0), (10246891, 0), (7715,
    0), (3, 0)]], 3, 4⟩, 72057594037927936, 305349573011, 34504536112, ⟨[[(10982325979462, 0), (6800478685, 0),
    (7686924, 0), (8544, 0), (12, 0)], [(0, 6444047189), (0, 23282755), (0, 59383), (0, 137)], [(17072840, 0),
    (114214, 0), (499, 0), (2, 0)], [(0, 65740), (0, 679), (0, 5)]], 3, 4⟩, 17592186044416, 78183290,
    5642938322517052626859996024199525028167150864162921588854816161137957106528479570070702746768115683969409851594046547722849865,
    lc0⟩)))
theorem c87 : checkR job con1 true ⟨7, 9, 7, 9, 13, 17⟩ 1 9016 t87 558 14 320 8195 39 8000 = true := by decide +kernel

def t88 : CTree :=
  .sy (.sx (.sy (.sx (.leaf ⟨676, 16, 2246, 430, 16, 4791, ⟨[[(230973481967616, 0), (0, 17288373058537334),
    (1352839397760, 0), (167697025, 0), (35441, 0)], [(29381329199673499, 0), (0, 21966367538337), (0, 1718839576),
    (0, 606117), (0, 102)], [(86482418609639, 0), (0, 4033510694), (1351432, 0), (142, 0)], [(81252205583, 0),
    (9246131, 0), (4669, 0), (1, 0)]], 3, 4⟩, ⟨[[(6344740947812352, 0), (0, 13282279698857630), (151891177973, 0),
    (0, 42459784), (2553, 0)], [(0, 42578409052323282), (2005841611892, 0), (1307549595, 0), (324160, 0), (37, 0)],
    [(6133084823781, 0), (0, 8280765675), (0, 3088983), (0, 792)], [(15327707189, 0), (8768559, 0), (3195, 0), (1,
    0)]], 3, 4⟩, 72057594037927936, 534611045436, 117118837538, ⟨[[(11403699312662, 0), (5749696428, 0), (5876329,
    0), (8070, 0), (15, 0)], [(0, 4382218222), (0, 14595967), (0, 42929), (0, 129)], [(8524025, 0), (64820, 0), (364,
    0), (1, 0)], [(0, 28188), (0, 388), (0, 3)]], 3, 4⟩, 17592186044416, 20236925,
    9952912565319989772698838600623422371714844619483297619351467533559182549166756664506392675665015705647643461436399938112749837,
    lc0⟩) (.leaf ⟨634, 16, 2068, 416, 16, 4822, ⟨[[(0, 12250574568153088), (0, 16487280809364004), (1202377991642,
    0), (138905011, 0), (29999, 0)], [(31689017086196919, 0), (0, 20414516930525), (0, 1503225619), (0, 548402), (0,
    94)], [(85969378377415, 0), (0, 3056845966), (1583744, 0), (214, 0)], [(76149945818, 0), (7107390, 0), (3772, 0),
    (1, 0)]], 3, 4⟩, ⟨[[(20948130627481600, 0), (0, 13318035982487504), (187355436516, 0), (0, 34208883), (3506, 0)],
    [(0, 42471733671364215), (1572801820990, 0), (1149470565, 0), (283269, 0), (30, 0)], [(7479724588862, 0), (0,
    7596312446), (0, 2839068), (0, 738)], [(15662652700, 0), (8723677, 0), (3202, 0), (1, 0)]], 3, 4⟩,
    72057594037927936, 471536872769, 60609783838, ⟨[[(11258402405760, 0), (5366638384, 0), (5010108, 0), (5799, 0),
    (10, 0)], [(0, 4312383908), (0, 12996777), (0, 32611), (0, 90)], [(7989778, 0), (51515, 0), (261, 0), (1, 0)],
    [(0, 23456), (0, 285), (0, 2)]], 3, 4⟩, 17592186044416, 15443629,
    7862343963010747160877984558570986895772093908537364039180208019258600489594093087339943809067045789795021808106789929567410696,
    lc0⟩)) (.sx (.sy (.out ⟨546, 16, 3275, 25727, 16, 41042, ⟨[[(10162269578059776, 0), (0, 12487826223041490),
    (504156180001, 0)], [(40959797770801335, 0), (0, 16166322624039), (0, 666134934)], [(125766870117454, 0), (0,
    2824387103), (501722, 0)]], 2, 2⟩, ⟨[[(14821228512804864, 0), (0, 28060007916846313), (424720479465, 0)]], 2, 2⟩,
    72057594037927936, 331224120440019, 381565453354, ⟨[], 0, 0⟩, 0, 0, 0, lc0⟩ 3 1 6071) (.out ⟨543, 16, 3339,
    25758, 16, 41139, ⟨[[(5440228152188928, 0), (0, 12651074092757704), (521789998566, 0)], [(40470430486633490, 0),
    (0, 16590350295413), (0, 706939948)], [(128003121710357, 0), (0, 2799300421), (517718, 0)]], 2, 2⟩, ⟨[[(0,
    28803411194150912), (0, 28060030294319360), (424219975725, 0)]], 2, 2⟩, 72057594037927936, 339355674827467,
    380666035937, ⟨[], 0, 0⟩, 0, 0, 0, lc0⟩ 3 1 8644)) (.leaf ⟨633, 16, 2124, 403, 16, 4835, ⟨[[(0,
    16669763887570944), (0, 16738431720176075), (1269458553125, 0), (152437317, 0), (31821, 0)], [(30902017852205111,
    0), (0, 21218647140037), (0, 1679316926), (0, 594189), (0, 102)], [(88062479904024, 0), (0, 2881830196),
    (1678597, 0), (225, 0)], [(78805458208, 0), (7922184, 0), (4106, 0), (1, 0)]], 3, 4⟩, ⟨[[(0, 1912784136454144),
    (0, 13325253782037315), (179974320752, 0), (0, 33050424), (4517, 0)], [(0, 42456079088297134), (1762082811238,
    0), (1220102167, 0), (293117, 0), (29, 0)], [(6888104207385, 0), (0, 8074651426), (0, 3024982), (0, 784)],
    [(16407030521, 0), (9261089, 0), (3379, 0), (1, 0)]], 3, 4⟩, 72057594037927936, 444308800964, 56614199995,
    ⟨[[(11259360366813, 0), (5444180347, 0), (5341850, 0), (6915, 0), (13, 0)], [(0, 4298389671), (0, 13561176), (0,
    37569), (0, 115)], [(8087093, 0), (56948, 0), (321, 0), (1, 0)], [(0, 24549), (0, 335), (0, 3)]], 3, 4⟩,
    17592186044416, 18384401,
    10420768182784524698348823212055019188956045943127175516236226329188299759316504754908772772229325200733937854335889449275093548,
    lc0⟩))) (.sx (.leaf ⟨380, 16, 1232, 270, 16, 3310, ⟨[[(1533545826758656, 0), (0, 20219526057947671),
    (2803187320639, 0), (610245518, 0), (265021, 0)], [(21374736054635273, 0), (0, 24642732546975), (0, 3501729812),
    (0, 2616327), (0, 909)], [(55002167998932, 0), (0, 2830167608), (4552676, 0), (1392, 0)], [(46271692178, 0),
    (6958041, 0), (7837, 0), (4, 0)]], 3, 4⟩, ⟨[[(0, 31900911193255936), (0, 18208333400464236), (588371233429, 0),
    (0, 143572434), (51623, 0)], [(0, 28808990057308882), (1711598088190, 0), (2818982599, 0), (1356314, 0), (236,
    0)], [(5853653152853, 0), (0, 9714826435), (0, 7284844), (0, 3842), (0, 1)], [(11032930600, 0), (11995285, 0),
    (8841, 0), (4, 0)]], 3, 4⟩, 72057594037927936, 282701191368, 17636759587, ⟨[[(11123822328545, 0), (7435047465,
    0), (9642677, 0), (14496, 0), (35, 0)], [(0, 6682046012), (0, 27725611), (0, 91535), (0, 338), (0, 1)],
    [(18996516, 0), (159927, 0), (1074, 0), (7, 0)], [(0, 80595), (0, 1270), (0, 14)]], 3, 4⟩, 17592186044416,
    126593099,
    9454982437960742109550730121307646496083713965198114135566946152768406120067301024546467575195793707334109433504459337833346862,
    lc0⟩) (.leaf ⟨365, 16, 1157, 260, 16, 3330, ⟨[[(18900057216290816, 0), (0, 19638571758058496), (2543965057407,
    0), (505402568, 0), (225187, 0)], [(23068875377031328, 0), (0, 23277467964150), (0, 3032917603), (0, 2375455),
    (0, 838)], [(55333070672201, 0), (0, 2185813229), (4834467, 0), (1599, 0)], [(44148941466, 0), (4694604, 0),
    (5935, 0), (3, 0)]], 3, 4⟩, ⟨[[(0, 626781064200192), (0, 18277539226190008), (665782738433, 0), (0, 109178921),
    (57481, 0)], [(0, 28627196635346423), (1202646391355, 0), (2446304076, 0), (1157147, 0), (160, 0)],
    [(6819681919945, 0), (0, 8779651330), (0, 6593677), (0, 3542), (0, 1)], [(11043373155, 0), (11569965, 0), (8590,
    0), (4, 0)]], 3, 4⟩, 72057594037927936, 272080638719, 51318081658, ⟨[[(10985188393572, 0), (6962455263, 0),
    (8422908, 0), (10733, 0), (21, 0)], [(0, 6482982392), (0, 24928818), (0, 71572), (0, 211), (0, 1)], [(17756497,
    0), (130410, 0), (706, 0), (4, 0)], [(0, 69561), (0, 865), (0, 9)]], 3, 4⟩, 17592186044416, 95561246,
    6142789204404008848896309613141821870979745106054061640064489445308249058323837465478542668923752914175837090848062492221013236,
    lc0⟩))) (.sx (.sy (.sx (.out ⟨366, 16, 2339, 12894, 16, 20630, ⟨[[(7909419097681920, 0), (0, 17551348139492785),
    (1496103231236, 0)], [(26983252878768709, 0), (0, 23482162028929), (0, 2101609607)], [(89442920843495, 0), (0,
    3750616405), (1476784, 0)]], 2, 2⟩, ⟨[[(0, 9175245193740288), (0, 28043265892362109), (846435842334, 0)]], 2, 2⟩,
    72057594037927936, 251390283803652, 1517276966834, ⟨[], 0, 0⟩, 0, 0, 0, lc0⟩ 3 1 12482) (.sy (.out ⟨499, 16,
    3051, 25788, 16, 41236, ⟨[[(0, 1879293509935104), (0, 11914064792146955), (465719147279, 0)],
    [(42597446898483035, 0), (0, 15385220754701), (0, 641272221)], [(126262679595215, 0), (0, 1927068913), (617068,
    0)]], 2, 2⟩, ⟨[[(0, 5529768295399424), (0, 28059974710928079), (423719473762, 0)]], 2, 2⟩, 72057594037927936,
    315905783800773, 379768818247, ⟨[], 0, 0⟩, 0, 0, 0, lc0⟩ 3 1 6161) (.out ⟨495, 16, 3107, 25818, 16, 41333,
    ⟨[[(2834987297779712, 0), (0, 12058217883990242), (481221210976, 0)], [(42153206803637632, 0), (0,
    15771568817010), (0, 679871729)], [(128430958076924, 0), (0, 1863645424), (638215, 0)]], 2, 2⟩,
    ⟨[[(12602772231290880, 0), (0, 28059841716466639), (423218981863, 0)]], 2, 2⟩, 72057594037927936,
    323101329674585, 378873779186, ⟨[], 0, 0⟩, 0, 0, 0, lc0⟩ 3 1 8860))) (.out ⟨246, 16, 1636, 12924, 16, 20727,
    ⟨[[(33304811924408320, 0), (0, 12344097307062325), (1057931910998, 0)], [(38730103467667013, 0), (0,
    33453860006260), (0, 3112033743)], [(259722679083128, 0), (0, 8472076294), (4886367, 0)]], 2, 2⟩,
    ⟨[[(5132373685174272, 0), (0, 28042924439756265), (844437485012, 0)]], 2, 2⟩, 72057594037927936,
    1370783141262906, 1510135311464, ⟨[], 0, 0⟩, 0, 0, 0, lc0⟩ 3 1 15555)) (.sx (.sy (.leaf ⟨593, 16, 2007, 376, 16,
    4880, ⟨[[(0, 32050096634216448), (0, 16196973287264226), (1187505021181, 0), (137170915, 0), (28159, 0)],
    [(32451850544718546, 0), (0, 20428425949851), (0, 1620965951), (0, 578080), (0, 101)], [(89357871414012, 0), (0,
    1859581656), (1955735, 0), (296, 0)], [(76087414374, 0), (6448699, 0), (3488, 0), (1, 0)]], 3, 4⟩, ⟨[[(0,
    24476069071609856), (0, 13372765277022295), (208006842739, 0), (0, 23875765), (6314, 0)], [(0,
    42311428253116261), (1515253179912, 0), (1128476367, 0), (259570, 0), (19, 0)], [(7754362814152, 0), (0,
    7819623628), (0, 2944713), (0, 772)], [(17346415528, 0), (9635130, 0), (3520, 0), (1, 0)]], 3, 4⟩,
    72057594037927936, 368376766865, 27638227174, ⟨[[(11119734869732, 0), (5152561711, 0), (4850176, 0), (5777, 0),
    (11, 0)], [(0, 4223041912), (0, 12606374), (0, 32278), (0, 97)], [(7720948, 0), (49215, 0), (269, 0), (1, 0)],
    [(0, 21136), (0, 272), (0, 2)]], 3, 4⟩, 17592186044416, 15092495,
    9642277240839725801236666468809647061311616448490148133854154927983983438287621234786734403024114054676834828610664162112952957,
    lc0⟩) (.sx (.out ⟨412, 16, 2623, 12924, 16, 20727, ⟨[[(4487759808905216, 0), (0, 20733591838993346),
    (1611515561678, 0)], [(19349294973087877, 0), (0, 13506622787173), (0, 1168272660)], [(28627649082199, 0), (0,
    555759939), (635981, 0)]], 2, 2⟩, ⟨[[(5132373685174272, 0), (0, 28042924439756265), (844437485012, 0)]], 2, 2⟩,
    72057594037927936, 46598794674079, 1510135311464, ⟨[], 0, 0⟩, 0, 0, 0, lc0⟩ 3 1 8850) (.sy (.leaf ⟨1180, 16,
    4066, 725, 16, 9810, ⟨[[(15315171797057536, 0), (0, 16410929426072914), (607868299857, 0), (35358660, 0), (3544,
    0)], [(32933139520117189, 0), (0, 10456678520795), (0, 429464277), (0, 75712), (0, 7)], [(46020664139865, 0), (0,
    376877925), (263738, 0), (20, 0)], [(19423847830, 0), (812431, 0), (220, 0)]], 3, 4⟩, ⟨[[(9381522775801856, 0),
    (0, 13405843057086533), (106554656947, 0), (0, 5149116), (915, 0)], [(0, 42329973790333659), (772451049938, 0),
    (284396334, 0), (31753, 0), (1, 0)], [(3851043896338, 0), (0, 2000689563), (0, 377768), (0, 50)], [(4497884365,
    0), (1252103, 0), (228, 0)]], 3, 4⟩, 72057594037927936, 40682980156, 5505977276, ⟨[[(11085150416491, 0),
    (2554757622, 0), (1218300, 0), (752, 0), (1, 0)], [(0, 2068753870), (0, 3103183), (0, 4085), (0, 6)], [(1856526,
    0), (5985, 0), (17, 0)], [(0, 2440), (0, 16)]], 3, 4⟩, 17592186044416, 749447,
    8723291579545346268349848096171149252024209202763666607388133449007498637778238556196774086924149187161230987258850028107183329,
    lc0⟩) (.out ⟨638, 16, 4041, 25879, 16, 41528, ⟨[[(7502302856953856, 0), (0, 16215133515290483), (612482946278,
    0)], [(31917409709521426, 0), (0, 10460355715690), (0, 444676183)], [(45710092421118, 0), (0, 333300667),
    (266870, 0)]], 2, 2⟩, ⟨[[(6363638522183680, 0), (0, 28060021363378718), (422228228228, 0)]], 2, 2⟩,
    72057594037927936, 55564444799898, 377099182119, ⟨[], 0, 0⟩, 0, 0, 0, lc0⟩ 3 1 7297)))) (.leaf ⟨357, 16, 1201,
    241, 16, 3346, ⟨[[(22552735057674240, 0), (0, 19963438870942188), (2772152051791, 0), (599421581, 0), (245516,
    0)], [(22041123134776091, 0), (0, 24700532191010), (0, 3758328312), (0, 2754265), (0, 981)], [(57291707534430,
    0), (0, 1455156286), (5418916, 0), (1766, 0)], [(46247084222, 0), (5896165, 0), (6967, 0), (4, 0)]], 3, 4⟩,
    ⟨[[(30004686464333824, 0), (0, 18262880779693581), (645677488094, 0), (0, 88330866), (79817, 0)], [(0,
    28654975373779803), (1613387720155, 0), (2735453690, 0), (1205732, 0), (113, 0)], [(6122297421675, 0), (0,
    9922975140), (0, 7509084), (0, 4002), (0, 2)], [(12057587386, 0), (13043673, 0), (9566, 0), (4, 0)]], 3, 4⟩,
    72057594037927936, 230462357180, 70019977200, ⟨[[(10982256911990, 0), (7124505938, 0), (9299751, 0), (14090, 0),
    (36, 0)], [(0, 6492173327), (0, 26605285), (0, 88210), (0, 339), (0, 2)], [(18132981, 0), (147814, 0), (1024, 0),
    (7, 0)], [(0, 70363), (0, 1096), (0, 14)]], 3, 4⟩, 17592186044416, 115947851,
    9330564531471870092749667659188915129709516252047944254217223890952369443699354326126295546522059139711546380376907442266860012,
    lc0⟩)))
theorem c88 : checkR job con1 true ⟨7, 9, 7, 9, 13, 17⟩ 1 9016 t88 558 14 320 8273 39 8000 = true := by decide +kernel

def t89 : CTree :=
  .sy (.sx (.sy (.sx (.leaf ⟨370, 16, 1020, 288, 16, 3320, ⟨[[(0, 7188846639661056), (0, 18540954139021443),
    (2014852863276, 0), (282473431, 0), (159790, 0)], [(26326130832067255, 0), (0, 20000762124493), (0, 1581158695),
    (0, 1607773), (0, 571)], [(52441344425205, 0), (0, 2984898903), (3932696, 0), (1435, 0)], [(39259314117, 0),
    (1417155, 0), (2939, 0), (2, 0)]], 3, 4⟩, ⟨[[(0, 11526257665531904), (0, 18429120917598080), (771355352553, 0),
    (0, 106508423), (28470, 0)], [(0, 28202132919788023), (151964069658, 0), (1656366616, 0), (883315, 0), (166, 0)],
    [(8805737092079, 0), (0, 6196331758), (0, 4527525), (0, 2545), (0, 1)], [(9354718802, 0), (8595964, 0), (6643,
    0), (3, 0)]], 3, 4⟩, 72057594037927936, 326992922135, 40553502434, ⟨[[(10849545268859, 0), (6258183952, 0),
    (6305091, 0), (5879, 0), (4, 0)], [(0, 6227938737), (0, 19973486), (0, 43554), (0, 66)], [(15366902, 0), (89243,
    0), (282, 0), (1, 0)], [(0, 56285), (0, 443), (0, 2)]], 3, 4⟩, 17592186044416, 58830831,
    6634516307901246825313553382417386726981563333240206592235146137996924548591267628092510417159083097940728325134960857985123018,
    lc0⟩) (.leaf ⟨360, 16, 964, 279, 16, 3341, ⟨[[(0, 13638780173930496), (0, 18054483360083407), (1865360913532, 0),
    (225520527, 0), (136110, 0)], [(27744194725408334, 0), (0, 19058450971715), (0, 1280493152), (0, 1439543), (0,
    525)], [(52714906124670, 0), (0, 2758906409), (3906366, 0), (1493, 0)], [(37969518932, 0), (145865, 0), (1735,
    0), (1, 0)]], 3, 4⟩, ⟨[[(0, 19315484706365440), (0, 18546110771670715), (819478612580, 0), (0, 84237831), (32580,
    0)], [(0, 27862210273377938), (0, 176387828791), (1427114236, 0), (752196, 0), (115, 0)], [(9648167320044, 0),
    (0, 5534329796), (0, 4011317), (0, 2324), (0, 1)], [(9310199270, 0), (8031250, 0), (6277, 0), (3, 0)]], 3, 4⟩,
    72057594037927936, 327969347264, 57021012587, ⟨[[(10718948934744, 0), (5888806943, 0), (5622219, 0), (5032, 0),
    (2, 0)], [(0, 6052779966), (0, 18264160), (0, 38121), (0, 49)], [(14417810, 0), (79741, 0), (230, 0)], [(0,
    51955), (0, 380), (0, 1)]], 3, 4⟩, 17592186044416, 57379202,
    8458035320063501135465365885890343028532906549460972182172808344574579256837041839386421529516601684710511696263915718951344858,
    lc0⟩)) (.sx (.leaf ⟨361, 16, 1053, 269, 16, 3335, ⟨[[(23485166647570432, 0), (0, 18810681941436104),
    (2154421684966, 0), (344651515, 0), (174892, 0)], [(25556585645548279, 0), (0, 20933933277715), (0, 2043080038),
    (0, 1854796), (0, 662)], [(53923035843003, 0), (0, 2420533131), (4417191, 0), (1573, 0)], [(40663012853, 0),
    (1973902, 0), (3522, 0), (2, 0)]], 3, 4⟩, ⟨[[(11976128669032448, 0), (0, 18393401730601918), (751021510076, 0),
    (0, 95818578), (43448, 0)], [(0, 28307095575184160), (428707512791, 0), (1877170761, 0), (934191, 0), (133, 0)],
    [(8331104663919, 0), (0, 6982367766), (0, 5182965), (0, 2877), (0, 1)], [(10112517257, 0), (9730899, 0), (7392,
    0), (3, 0)]], 3, 4⟩, 72057594037927936, 302282355507, 58856928613, ⟨[[(10850335768010, 0), (6388966865, 0),
    (6822758, 0), (6930, 0), (7, 0)], [(0, 6260786243), (0, 21229091), (0, 50168), (0, 89)], [(16065233, 0), (99799,
    0), (361, 0), (1, 0)], [(0, 60281), (0, 526), (0, 3)]], 3, 4⟩, 17592186044416, 68332390,
    5066173786782330751885287992191792512588439083715929993743360317221500922518890311057797333554029666903111389146495028796698278,
    lc0⟩) (.leaf ⟨351, 16, 993, 260, 16, 3356, ⟨[[(0, 23964264121434112), (0, 18293355950213422), (1981048190969, 0),
    (277243714, 0), (147684, 0)], [(27038794628979767, 0), (0, 19865673328258), (0, 1686508602), (0, 1661586), (0,
    607)], [(54104282072907, 0), (0, 2185523957), (4395008, 0), (1635, 0)], [(39135059115, 0), (456492, 0), (2142,
    0), (2, 0)]], 3, 4⟩, ⟨[[(0, 8169349852835840), (0, 18502440171795558), (804714213329, 0), (0, 72299103), (46621,
    0)], [(0, 27992038432816855), (60441327961, 0), (1614070352, 0), (785461, 0), (75, 0)], [(9232212816767, 0), (0,
    6232095963), (0, 4609373), (0, 2630), (0, 1)], [(10020948952, 0), (9102885, 0), (6983, 0), (3, 0)]], 3, 4⟩,
    72057594037927936, 305620978370, 77722259065, ⟨[[(10717311063838, 0), (5993231865, 0), (6034465, 0), (5802, 0),
    (3, 0)], [(0, 6068934886), (0, 19260886), (0, 43105), (0, 61)], [(15002446, 0), (87998, 0), (277, 0), (1, 0)],
    [(0, 55466), (0, 433), (0, 2)]], 3, 4⟩, 17592186044416, 64560152,
    8038020876222496204876687399417590218558706262325005489120640820879017365815208737096319906831168177766541125299821252487633598,
    lc0⟩))) (.sy (.sx (.leaf ⟨351, 16, 912, 270, 16, 3363, ⟨[[(11148339068633088, 0), (0, 17587490610645986),
    (1733748032120, 0), (176357725, 0), (115088, 0)], [(29125579684999922, 0), (0, 18177098969220), (0, 1001373568),
    (0, 1279904), (0, 481)], [(52925228586626, 0), (0, 2644165290), (3792340, 0), (1510, 0)], [(36801227332, 0), (0,
    937434), (664, 0), (1, 0)]], 3, 4⟩, ⟨[[(0, 16001999686356992), (0, 18677399329388964), (862067717381, 0), (0,
    65366593), (35349, 0)], [(0, 27479887934107355), (0, 471030704189), (1224902276, 0), (632497, 0), (68, 0)],
    [(10493111954416, 0), (0, 4920418979), (0, 3526292), (0, 2116), (0, 1)], [(9228276827, 0), (7390715, 0), (5851,
    0), (3, 0)]], 3, 4⟩, 72057594037927936, 333201292092, 68434118825, ⟨[[(10593237454194, 0), (5549296377, 0),
    (5016709, 0), (4385, 0), (1, 0)], [(0, 5895824651), (0, 16727072), (0, 33635), (0, 40)], [(13547730, 0), (71505,
    0), (199, 0)], [(0, 47937), (0, 339), (0, 1)]], 3, 4⟩, 17592186044416, 56801422,
    8786451690060587309287419725300437764140578146045329516832527561958021533843577180050418940535036861585392338886817947889294408,
    lc0⟩) (.leaf ⟨344, 16, 863, 261, 16, 3385, ⟨[[(0, 32215979104935936), (0, 17126148480477745), (1616887343079, 0),
    (134108554, 0), (96384, 0)], [(30447891560930848, 0), (0, 17343433260415), (0, 745844030), (0, 1129276), (0,
    439)], [(53044337656010, 0), (0, 2616486260), (3603436, 0), (1490, 0)], [(35729346998, 0), (0, 1819289), (0,
    267), (1, 0)]], 3, 4⟩, ⟨[[(0, 6301363198144512), (0, 18816581440948083), (899572631971, 0), (0, 49583256),
    (36859, 0)], [(0, 27046478911568773), (0, 734538390678), (1047608231, 0), (523209, 0), (24, 0)],
    [(11335033020357, 0), (0, 4358765578), (0, 3075903), (0, 1924), (0, 1)], [(9119823752, 0), (6694237, 0), (5378,
    0), (2, 0)]], 3, 4⟩, 72057594037927936, 341568185721, 74538057510, ⟨[[(10464685686668, 0), (5218547098, 0),
    (4441049, 0), (3801, 0), (1, 0)], [(0, 5727096455), (0, 15194316), (0, 29234), (0, 35)], [(12605965, 0), (62862,
    0), (174, 0)], [(0, 43185), (0, 299), (0, 1)]], 3, 4⟩, 17592186044416, 56371156,
    8826477783654975143212137010266071556286761838902558959631300356313299855321937935483275165076460274762457046086535823176780600,
    lc0⟩)) (.sx (.leaf ⟨341, 16, 937, 251, 16, 3378, ⟨[[(26845767849676800, 0), (0, 17788190819671864),
    (1828057943062, 0), (218947667, 0), (123567, 0)], [(28460396921523941, 0), (0, 18860837445034), (0, 1355273006),
    (0, 1478347), (0, 555)], [(54188583609463, 0), (0, 2079938291), (4270438, 0), (1648, 0)], [(37739529812, 0), (0,
    838505), (918, 0), (1, 0)]], 3, 4⟩, ⟨[[(0, 18298055468105728), (0, 18626749034888455), (851993782051, 0), (0,
    52645063), (48255, 0)], [(0, 27631571608770843), (0, 269490675763), (1380968250, 0), (649421, 0), (21, 0)],
    [(10131820398062, 0), (0, 5535325500), (0, 4070686), (0, 2399), (0, 1)], [(9885485048, 0), (8388789, 0), (6507,
    0), (3, 0)]], 3, 4⟩, 72057594037927936, 313973597293, 90957130817, ⟨[[(10594795490398, 0), (5647644691, 0),
    (5378505, 0), (5052, 0), (2, 0)], [(0, 5926126909), (0, 17661373), (0, 38071), (0, 48)], [(14179710, 0), (79399,
    0), (236, 0)], [(0, 51967), (0, 386), (0, 1)]], 3, 4⟩, 17592186044416, 66265735,
    9192159207796254274789662968406066756926299993169257823719524838504561532296712087508100301562022542554855086215866089352965401,
    lc0⟩) (.leaf ⟨334, 16, 886, 242, 16, 3400, ⟨[[(0, 13146263537090560), (0, 17320921739138695), (1695855566019, 0),
    (169131003, 0), (102398, 0)], [(29865297756290395, 0), (0, 17947151988693), (0, 1054137526), (0, 1308624), (0,
    507)], [(54271753025902, 0), (0, 2080625058), (4068206, 0), (1624, 0)], [(36534492953, 0), (0, 1900146), (0,
    141), (1, 0)]], 3, 4⟩, ⟨[[(0, 22617218145452032), (0, 18759842002583096), (893390029797, 0), (0, 36517306),
    (48434, 0)], [(0, 27217226448772910), (0, 564028568822), (1175483563, 0), (524960, 0), (0, 30)],
    [(11024029043117, 0), (0, 4896814043), (0, 3570741), (0, 2185), (0, 1)], [(9718708120, 0), (7610880, 0), (5979,
    0), (3, 0)]], 3, 4⟩, 72057594037927936, 326714587247, 98243048688, ⟨[[(10467410693722, 0), (5305358827, 0),
    (4741563, 0), (4386, 0), (1, 0)], [(0, 5750082125), (0, 15970905), (0, 32991), (0, 41)], [(13155631, 0), (69663,
    0), (204, 0)], [(0, 46995), (0, 342), (0, 1)]], 3, 4⟩, 17592186044416, 65724427,
    8793437428080817674472631698939717755650709767259204277577146409960562638386542401050901959751032046457196261275502454416474138,
    lc0⟩)))) (.sx (.sy (.sx (.leaf ⟨352, 16, 1088, 250, 16, 3350, ⟨[[(35124117981298688, 0), (0, 19081810196649426),
    (2316072511211, 0), (413957119, 0), (189929, 0)], [(24705146213698766, 0), (0, 21995373926766), (0, 2585420148),
    (0, 2143001), (0, 770)], [(55548823496395, 0), (0, 1758704637), (4956534, 0), (1731, 0)], [(42196889578, 0),
    (2649111, 0), (4183, 0), (2, 0)]], 3, 4⟩, ⟨[[(31714044869033984, 0), (0, 18360110289895493), (733676442926, 0),
    (0, 79951614), (61306, 0)], [(0, 28388902239944325), (742152352879, 0), (2109553058, 0), (973310, 0), (89, 0)],
    [(7788413784954, 0), (0, 7880837598), (0, 5924089), (0, 3253), (0, 1)], [(10967184254, 0), (10994465, 0), (8227,
    0), (4, 0)]], 3, 4⟩, 72057594037927936, 270718611989, 79281592263, ⟨[[(10849783671347, 0), (6525517548, 0),
    (7418442, 0), (8352, 0), (11, 0)], [(0, 6291103234), (0, 22587045), (0, 58548), (0, 129), (0, 1)], [(16698911,
    0), (111258, 0), (476, 0), (2, 0)], [(0, 63132), (0, 624), (0, 5)]], 3, 4⟩, 17592186044416, 79725288,
    4328365188698559395661338791354681356596540283754903540799398717935952335495249203340688343325072162328103845043403429789801153,
    lc0⟩) (.leaf ⟨341, 16, 1024, 241, 16, 3371, ⟨[[(26592740395839488, 0), (0, 18540245654775388), (2115435966208,
    0), (334456391, 0), (158732, 0)], [(26273591813784457, 0), (0, 20789657337139), (0, 2163885216), (0, 1920798),
    (0, 705)], [(55645932486528, 0), (0, 1515291323), (4939557, 0), (1797, 0)], [(40407734973, 0), (845481, 0),
    (2600, 0), (2, 0)]], 3, 4⟩, ⟨[[(0, 129287034011648), (0, 18460271470642163), (793218844797, 0), (0, 55516897),
    (63244, 0)], [(0, 28102175621931886), (328151200797, 0), (1808037268, 0), (804484, 0), (23, 0)], [(8755740277227,
    0), (0, 7032422293), (0, 5286603), (0, 2978), (0, 1)], [(10823106774, 0), (10295772, 0), (7770, 0), (3, 0)]], 3,
    4⟩, 72057594037927936, 277036092140, 101072044531, ⟨[[(10721166124673, 0), (6123676146, 0), (6553988, 0), (6859,
    0), (5, 0)], [(0, 6115981549), (0, 20536482), (0, 49795), (0, 82)], [(15736255, 0), (98154, 0), (347, 0), (1,
    0)], [(0, 59043), (0, 497), (0, 3)]], 3, 4⟩, 17592186044416, 73190967,
    5993852578235008981431549572061160849713264135147224715329648071493605493853615229922174414348103700090475160325221106515393256,
    lc0⟩)) (.sx (.leaf ⟨344, 16, 1126, 232, 16, 3366, ⟨[[(0, 26875148449751040), (0, 19366147341751811),
    (2504493057879, 0), (491053684, 0), (204701, 0)], [(23775087597416466, 0), (0, 23223046824620), (0, 3224997038),
    (0, 2482153), (0, 900)], [(57379050328809, 0), (0, 986500106), (5562575, 0), (1911, 0)], [(43912075862, 0),
    (3463885, 0), (4938, 0), (3, 0)]], 3, 4⟩, ⟨[[(0, 19537992792737792), (0, 18334140120645038), (720873980774, 0),
    (0, 57961521), (82325, 0)], [(0, 28452963839602235), (1094352860113, 0), (2351073966, 0), (997250, 0), (32, 0)],
    [(7170158650016, 0), (0, 8909128497), (0, 6764314), (0, 3680), (0, 1)], [(11933286467, 0), (12405014, 0), (9160,
    0), (4, 0)]], 3, 4⟩, 72057594037927936, 231153091445, 102026391038, ⟨[[(10849176074186, 0), (6661354731, 0),
    (8077680, 0), (10285, 0), (18, 0)], [(0, 6304729066), (0, 23902750), (0, 68661), (0, 193), (0, 1)], [(17102368,
    0), (121845, 0), (635, 0), (4, 0)], [(0, 63307), (0, 721), (0, 8)]], 3, 4⟩, 17592186044416, 87320021,
    4773777332077781893563728565279613359631797572228754255533322748011114377902200685927332559217670205803464009308859846929949391,
    lc0⟩) (.leaf ⟨332, 16, 1058, 222, 16, 3387, ⟨[[(11161514220093440, 0), (0, 18808253318239327), (2272589384755,
    0), (397555452, 0), (168982, 0)], [(25455950316814720, 0), (0, 21866361412655), (0, 2727823048), (0, 2226222),
    (0, 823)], [(57403379960538, 0), (0, 734810884), (5552535, 0), (1983, 0)], [(41834737514, 0), (1325874, 0),
    (3118, 0), (2, 0)]], 3, 4⟩, ⟨[[(9478602999056384, 0), (0, 18424450003936880), (786475250498, 0), (0, 33041266),
    (82673, 0)], [(0, 28198405278752690), (627868093885, 0), (2005828798, 0), (805451, 0), (0, 43)], [(8212386095374,
    0), (0, 7951279726), (0, 6055475), (0, 3373), (0, 1)], [(11730522849, 0), (11627150, 0), (8650, 0), (4, 0)]], 3,
    4⟩, 72057594037927936, 241291908468, 127075428438, ⟨[[(10719340072207, 0), (6242292420, 0), (7105418, 0), (8188,
    0), (8, 0)], [(0, 6130790602), (0, 21697914), (0, 57215), (0, 114)], [(16212675, 0), (106585, 0), (432, 0), (2,
    0)], [(0, 59933), (0, 540), (0, 4)]], 3, 4⟩, 17592186044416, 78476824,
    4407758129207081520831123325619772895350839274403927310811903894237151857165394258008981643251354285951212924876909809872864225,
    lc0⟩))) (.sy (.sx (.leaf ⟨332, 16, 965, 232, 16, 3394, ⟨[[(0, 6943447144964096), (0, 18021690062432135),
    (1940149026740, 0), (265862988, 0), (131263, 0)], [(27786524663185253, 0), (0, 19671095580303), (0, 1773753763),
    (0, 1711868), (0, 644)], [(55668372510009, 0), (0, 1424353450), (4808058, 0), (1809, 0)], [(38806188393, 0), (0,
    696400), (1200, 0), (1, 0)]], 3, 4⟩, ⟨[[(0, 18206571988506624), (0, 18582301248993946), (845597017945, 0), (0,
    35492988), (63431, 0)], [(0, 27774817622051991), (0, 42393627948), (1540259295, 0), (649946, 0), (0, 39)],
    [(9719947054012, 0), (0, 6245401368), (0, 4689564), (0, 2721), (0, 1)], [(10630897863, 0), (9502300, 0), (7241,
    0), (3, 0)]], 3, 4⟩, 72057594037927936, 289655621490, 116302120949, ⟨[[(10592246345582, 0), (5738822303, 0),
    (5762571, 0), (5840, 0), (2, 0)], [(0, 5932809827), (0, 18557051), (0, 42963), (0, 59)], [(14688773, 0), (86891,
    0), (277, 0), (1, 0)], [(0, 54868), (0, 427), (0, 2)]], 3, 4⟩, 17592186044416, 74704222,
    8053452959035890372561230524810496807014467694617231445028785486339141995486231781152999729136694092266133358703063998965670501,
    lc0⟩) (.leaf ⟨324, 16, 910, 222, 16, 3416, ⟨[[(0, 17937541668773888), (0, 17515020401666813), (1786309313907, 0),
    (206867409, 0), (107054, 0)], [(29229247548551881, 0), (0, 18627755759449), (0, 1416995100), (0, 1516683), (0,
    587)], [(55601408417890, 0), (0, 1454085102), (4580890, 0), (1774, 0)], [(37371315613, 0), (0, 1963387), (0, 6),
    (1, 0)]], 3, 4⟩, ⟨[[(35780917653108736, 0), (0, 18708670161143440), (890941107079, 0), (0, 19485507), (61923,
    0)], [(0, 27382074748784777), (0, 372904135185), (1302573849, 0), (508048, 0), (0, 97)], [(10669256473506, 0),
    (0, 5521286251), (0, 4134301), (0, 2484), (0, 1)], [(10398704408, 0), (8633124, 0), (6650, 0), (3, 0)]], 3, 4⟩,
    72057594037927936, 306933189986, 124749494878, ⟨[[(10462840911413, 0), (5380930874, 0), (5055326, 0), (5089, 0),
    (1, 0)], [(0, 5755252185), (0, 16724525), (0, 37217), (0, 49)], [(13641608, 0), (76480, 0), (239, 0)], [(0,
    50238), (0, 381), (0, 1)]], 3, 4⟩, 17592186044416, 76028725,
    8420568585482589325439890338395102092722940235799548971184259617533882046857195984772440132008424008455976032358233177043313868,
    lc0⟩)) (.sx (.leaf ⟨322, 16, 994, 213, 16, 3409, ⟨[[(0, 3284828835651584), (0, 18246259338372214),
    (2067504635582, 0), (316439760, 0), (137437, 0)], [(27029127026503470, 0), (0, 20580751427198), (0, 2264907133),
    (0, 1983479), (0, 750)], [(57257899642579, 0), (0, 659809200), (5402989, 0), (1989, 0)], [(39924506026, 0), (0,
    503151), (1512, 0), (1, 0)]], 3, 4⟩, ⟨[[(0, 25981688545900544), (0, 18532452656175225), (843521077006, 0), (0,
    13136347), (80992, 0)], [(0, 27891171344665029), (210568665531, 0), (1697527951, 0), (629306, 0), (0, 114)],
    [(9243615898978, 0), (0, 7059778832), (0, 5390364), (0, 3087), (0, 1)], [(11468129125, 0), (10738802, 0), (8055,
    0), (4, 0)]], 3, 4⟩, 72057594037927936, 258539500937, 144738163621, ⟨[[(10593567415200, 0), (5849739130, 0),
    (6234806, 0), (6887, 0), (2, 0)], [(0, 5965428685), (0, 19656741), (0, 49174), (0, 75)], [(15301123, 0), (95271,
    0), (331, 0), (1, 0)], [(0, 57382), (0, 461), (0, 2)]], 3, 4⟩, 17592186044416, 80378322,
    5133051437055631790388733324634802030805211703023251582693840452238056431581466646964039861466850427150629881231767768104096874,
    lc0⟩) (.leaf ⟨314, 16, 936, 203, 16, 3432, ⟨[[(0, 24748253940133888), (0, 17724730576156505), (1891161409314, 0),
    (247169139, 0), (109961, 0)], [(28560260129410944, 0), (0, 19417000630561), (0, 1845509790), (0, 1760596), (0,
    684)], [(57102907403305, 0), (0, 726562584), (5152802, 0), (1946, 0)], [(38281796677, 0), (0, 2009389), (136, 0),
    (1, 0)]], 3, 4⟩, ⟨[[(19296898608721920, 0), (0, 18656893070124800), (892983282676, 0), (2154203, 0), (77403, 0)],
    [(0, 27531350754932736), (0, 161402679184), (1423608497, 0), (467616, 0), (0, 180)], [(10260059655209, 0), (0,
    6242593917), (0, 4775110), (0, 2823), (0, 1)], [(11166013164, 0), (9770778, 0), (7398, 0), (3, 0)]], 3, 4⟩,
    72057594037927936, 282286548494, 154610178362, ⟨[[(10463842134106, 0), (5472048344, 0), (5429741, 0), (5982, 0)],
    [(0, 5778336481), (0, 17619365), (0, 42369), (0, 58)], [(14206233, 0), (84002, 0), (280, 0)], [(0, 53344), (0,
    416), (0, 2)]], 3, 4⟩, 17592186044416, 87789723,
    6081493237142639160461088985572375140689795189606018453173567108424636367482794289043281716439101139910845094421518143250013723,
    lc0⟩))))
theorem c89 : checkR job con1 true ⟨7, 9, 7, 9, 13, 17⟩ 1 9016 t89 586 14 320 4117 39 4000 = true := by decide +kernel

def t90 : CTree :=
  .sy (.sx (.sy (.sx (.leaf ⟨337, 16, 817, 252, 16, 3410, ⟨[[(0, 130272395427840), (0, 16674998925181148),
    (1513597313179, 0), (98141657, 0), (79803, 0)], [(31717368959247465, 0), (0, 16562378154487), (0, 516283855), (0,
    989097), (0, 401)], [(53097058865590, 0), (0, 2654895876), (3356226, 0), (1442, 0)], [(34763867159, 0), (0,
    2491137), (0, 1049)]], 3, 4⟩, ⟨[[(27328752465033216, 0), (0, 18979569431569506), (933452814296, 0), (0,
    36661020), (37224, 0)], [(0, 26585313882412361), (0, 970599651392), (894147660, 0), (423846, 0), (0, 17)],
    [(12182918944277, 0), (0, 3856881002), (0, 2665970), (0, 1752), (0, 1)], [(9006858329, 0), (5970710, 0), (4881,
    0), (2, 0)]], 3, 4⟩, 72057594037927936, 351741242186, 75724811700, ⟨[[(10343597186596, 0), (4920726727, 0),
    (3945602, 0), (3298, 0), (1, 0)], [(0, 5593985349), (0, 13912054), (0, 25434), (0, 32)], [(11864292, 0), (55496,
    0), (154, 0)], [(0, 39136), (0, 265), (0, 1)]], 3, 4⟩, 17592186044416, 57109205,
    8262534455318473436257856632547579945891003721681288122819604988429888122621281046955015441714487200987384840864640493538804393,
    lc0⟩) (.leaf ⟨331, 16, 774, 244, 16, 3436, ⟨[[(35658251356008448, 0), (0, 16238733460725488), (1422706264350, 0),
    (67813077, 0), (65144, 0)], [(32943181915870629, 0), (0, 15837566594018), (0, 313945741), (0, 860276), (0, 367)],
    [(53109353276140, 0), (0, 2739269350), (3066716, 0), (1372, 0)], [(33911554559, 0), (0, 2950352), (0, 1680)]], 3,
    4⟩, ⟨[[(2207875332595712, 0), (0, 19154584760931784), (963795969493, 0), (0, 26320963), (36496, 0)], [(0,
    26079367549986944), (0, 1182093795032), (761669902, 0), (333028, 0), (0, 55)], [(13030614569157, 0), (0,
    3413653782), (0, 2296201), (0, 1597), (0, 1)], [(8897854017, 0), (5239340, 0), (4371, 0), (2, 0)]], 3, 4⟩,
    72057594037927936, 362685354965, 72490753150, ⟨[[(10229562148937, 0), (4649878446, 0), (3512832, 0), (2830, 0),
    (1, 0)], [(0, 5483028114), (0, 12807134), (0, 21987), (0, 29)], [(11249580, 0), (48921, 0), (135, 0)], [(0,
    35485), (0, 231), (0, 1)]], 3, 4⟩, 17592186044416, 57518534,
    6800324262591143155966319514315972133168364520084025845663922014048635724807877908788799861571444866655558165495519650716808860,
    lc0⟩)) (.sx (.leaf ⟨327, 16, 838, 233, 16, 3425, ⟨[[(20032764522061824, 0), (0, 16859425496913175),
    (1579072709266, 0), (126525537, 0), (83658, 0)], [(31203835497779154, 0), (0, 17090026286161), (0, 782579576),
    (0, 1150747), (0, 463)], [(54271105975284, 0), (0, 2158601028), (3798545, 0), (1566, 0)], [(35451680437, 0), (0,
    2719216), (0, 1028)]], 3, 4⟩, ⟨[[(0, 4810965627969536), (0, 18917394694076373), (930423534094, 0), (0, 23648877),
    (47292, 0)], [(0, 26772632961834071), (0, 827057011601), (996394086, 0), (411476, 0), (0, 76)], [(11917196774395,
    0), (0, 4325055825), (0, 3116155), (0, 1993), (0, 1)], [(9545095118, 0), (6801615, 0), (5423, 0), (2, 0)]], 3,
    4⟩, 72057594037927936, 341722524711, 99815155250, ⟨[[(10347331640936, 0), (4997915412, 0), (4193347, 0), (3816,
    0), (1, 0)], [(0, 5612129828), (0, 14555613), (0, 28606), (0, 37)], [(12339163, 0), (61287, 0), (181, 0)], [(0,
    42642), (0, 304), (0, 1)]], 3, 4⟩, 17592186044416, 67131285,
    8326586803729491047699707356662332967771994459596938830776831953969845369817535357364664222748634835895694105556007402768962927,
    lc0⟩) (.leaf ⟨322, 16, 793, 224, 16, 3450, ⟨[[(0, 18267150571126784), (0, 16408573111289987), (1476334497633, 0),
    (90404561, 0), (67117, 0)], [(32483820395086889, 0), (0, 16293343781234), (0, 542168109), (0, 1005788), (0,
    423)], [(54213955278628, 0), (0, 2290239724), (3479939, 0), (1484, 0)], [(34497727245, 0), (0, 3292656), (0,
    1741)]], 3, 4⟩, ⟨[[(20738261632221184, 0), (0, 19082074491638029), (962973275849, 0), (0, 13739895), (44865, 0)],
    [(0, 26273397992967227), (0, 1061635991624), (840256197, 0), (307375, 0), (0, 120)], [(12801545023434, 0), (0,
    3817784678), (0, 2705762), (0, 1821), (0, 1)], [(9372055262, 0), (5980747, 0), (4851, 0), (2, 0)]], 3, 4⟩,
    72057594037927936, 358049449713, 96272429242, ⟨[[(10224205051837, 0), (4700017481, 0), (3683287, 0), (3243, 0),
    (1, 0)], [(0, 5462701514), (0, 13189936), (0, 24185), (0, 34)], [(11492716, 0), (52632, 0), (156, 0)], [(0,
    37736), (0, 260), (0, 1)]], 3, 4⟩, 17592186044416, 66467130,
    6928101028884685866053426266460062439326571954360828414590739465730267866235371070562636063974626494097734810779920320839610494,
    lc0⟩))) (.sy (.sx (.leaf ⟨327, 16, 734, 236, 16, 3463, ⟨[[(4369386247245824, 0), (0, 15822157388821110),
    (1343087018047, 0), (42483431, 0), (52203, 0)], [(34137531500272265, 0), (0, 15171488158078), (0, 139069804), (0,
    743241), (0, 336)], [(53108113078853, 0), (0, 2850800293), (2749949, 0), (1288, 0)], [(33176193035, 0), (0,
    3199746), (0, 2160)]], 3, 4⟩, ⟨[[(0, 8622845428805632), (0, 19341045342167099), (991143130299, 0), (0, 18351993),
    (34735, 0)], [(0, 25527889019401234), (0, 1372230218232), (647990623, 0), (249721, 0), (0, 91)],
    [(13879355551812, 0), (0, 3028961569), (0, 1967050), (0, 1462), (0, 1)], [(8806422691, 0), (4523875, 0), (3865,
    0), (2, 0)]], 3, 4⟩, 72057594037927936, 373328576742, 64353162388, ⟨[[(10112056780681, 0), (4384292230, 0),
    (3111536, 0), (2371, 0), (1, 0)], [(0, 5355669286), (0, 11735304), (0, 18622), (0, 25)], [(10606454, 0), (42402,
    0), (113, 0)], [(0, 31608), (0, 193), (0, 1)]], 3, 4⟩, 17592186044416, 56116804,
    5110750184085354556725022862641211806635034454377337828621037524060511202052561902101850202497663992510261718599607766220904413,
    lc0⟩) (.leaf ⟨324, 16, 697, 228, 16, 3492, ⟨[[(0, 19547552680742912), (0, 15430161165340022), (1273685707284, 0),
    (21532760, 0), (40778, 0)], [(35315744892363419, 0), (0, 14565655964418), (8982633, 0), (0, 637989), (0, 309)],
    [(53121006400216, 0), (0, 2972367870), (2419672, 0), (1196, 0)], [(32558845617, 0), (0, 3246973), (0, 2495)]], 3,
    4⟩, ⟨[[(574691787831296, 0), (0, 19544054605413543), (1016266459511, 0), (0, 12575909), (32002, 0)], [(0,
    24937137579368251), (0, 1544605513999), (551094350, 0), (172944, 0), (0, 124)], [(14735709211716, 0), (0,
    2701514995), (0, 1678093), (0, 1346), (0, 1)], [(8747869289, 0), (3848689, 0), (3381, 0), (1, 0)]], 3, 4⟩,
    72057594037927936, 382925960240, 51585163423, ⟨[[(9996534092015, 0), (4134908527, 0), (2761565, 0), (1956, 0),
    (1, 0)], [(0, 5232304384), (0, 10789956), (0, 15698), (0, 21)], [(10041555, 0), (36846, 0), (92, 0)], [(0,
    28243), (0, 159), (0, 1)]], 3, 4⟩, 17592186044416, 54624023,
    3538292536864515531792693915099579992567110774478861888380385500082618565288539997144255375234419638382117994980870783781902654,
    lc0⟩)) (.sx (.leaf ⟨317, 16, 751, 216, 16, 3478, ⟨[[(16451289838350336, 0), (0, 15973341772633305),
    (1386310004118, 0), (60043973, 0), (52545, 0)], [(33716159202125664, 0), (0, 15559620802690), (0, 333292826), (0,
    874271), (0, 387)], [(54128376324597, 0), (0, 2453445144), (3129802, 0), (1386, 0)], [(33675636988, 0), (0,
    3623954), (0, 2282)]], 3, 4⟩, ⟨[[(0, 2935742412050432), (0, 19269800369852728), (992472303950, 0), (0, 6570045),
    (41259, 0)], [(0, 25741886144338693), (0, 1272276154441), (705348221, 0), (211764, 0), (0, 162)],
    [(13689452308631, 0), (0, 3378267623), (0, 2342424), (0, 1672), (0, 1)], [(9223375524, 0), (5180088, 0), (4287,
    0), (2, 0)]], 3, 4⟩, 72057594037927936, 374463239321, 87120887823, ⟨[[(10112565328077, 0), (4438728367, 0),
    (3263448, 0), (2731, 0), (1, 0)], [(0, 5356354979), (0, 12122334), (0, 20520), (0, 30)], [(10898602, 0), (45836,
    0), (133, 0)], [(0, 34016), (0, 221), (0, 1)]], 3, 4⟩, 17592186044416, 66887470,
    5255450073238198790308464551671478533212454867675926483691063046691907705348851151217977388179792382608932757734216598275439651,
    lc0⟩) (.leaf ⟨314, 16, 712, 208, 16, 3507, ⟨[[(0, 18479548308889600), (0, 15558779693785554), (1307746264890, 0),
    (34739174, 0), (39713, 0)], [(34914931277958514, 0), (0, 14890201538091), (0, 155313886), (0, 756226), (0, 355)],
    [(54043003212190, 0), (0, 2628113765), (2764079, 0), (1278, 0)], [(32985112499, 0), (0, 3722475), (0, 2655), (0,
    1)]], 3, 4⟩, ⟨[[(0, 12478861319403520), (0, 19468955640022183), (1018901978437, 0), (0, 1928500), (36501, 0)],
    [(0, 25161808083925449), (0, 1462001218047), (588667087, 0), (123259, 0), (0, 201)], [(14576467191803, 0), (0,
    3001814557), (0, 2023356), (0, 1542), (0, 1)], [(9108283200, 0), (4421764, 0), (3746, 0), (2, 0)]], 3, 4⟩,
    72057594037927936, 389136924745, 72670594861, ⟨[[(9997338966498, 0), (4182776179, 0), (2880989, 0), (2234, 0),
    (1, 0)], [(0, 5232963164), (0, 11104074), (0, 17071), (0, 26)], [(10283240, 0), (39397, 0), (107, 0)], [(0,
    30227), (0, 180), (0, 1)]], 3, 4⟩, 17592186044416, 65382407,
    3674402001297484140474623341379194579753009812432144113765662874855545950042240689188932623286628528746556310337092382327326675,
    lc0⟩)))) (.sx (.sy (.sx (.leaf ⟨317, 16, 859, 213, 16, 3440, ⟨[[(0, 6489528194416640), (0, 17026878347773972),
    (1652129551962, 0), (156509740, 0), (85795, 0)], [(30613907758085362, 0), (0, 17665896434109), (0, 1096247773),
    (0, 1336899), (0, 536)], [(55482994231629, 0), (0, 1575384660), (4280782, 0), (1705, 0)], [(36116349153, 0), (0,
    2948469), (0, 1013)]], 3, 4⟩, ⟨[[(33507125789843456, 0), (0, 18854801023214713), (930808257407, 0), (0, 7195600),
    (58874, 0)], [(0, 26948396964413435), (0, 667196544099), (1093807163, 0), (378176, 0), (0, 151)],
    [(11610534830626, 0), (0, 4870359697), (0, 3628842), (0, 2269), (0, 1)], [(10154029843, 0), (7725500, 0), (6026,
    0), (3, 0)]], 3, 4⟩, 72057594037927936, 327709236161, 126765771619, ⟨[[(10342684895764, 0), (5061805596, 0),
    (4441319, 0), (4434, 0), (1, 0)], [(0, 5612583970), (0, 15156489), (0, 32094), (0, 44)], [(12755650, 0), (67031,
    0), (213, 0)], [(0, 45734), (0, 343), (0, 1)]], 3, 4⟩, 17592186044416, 78742561,
    7999950954233058686799028960086314647327595455794184437996305029022610658050961619480220714531734257829693912923236696253172092,
    lc0⟩) (.leaf ⟨311, 16, 812, 205, 16, 3465, ⟨[[(28563289038479360, 0), (0, 16564070828712327), (1535864749304, 0),
    (113825843, 0), (67172, 0)], [(31956907858551365, 0), (0, 16789975721345), (0, 812607909), (0, 1173451), (0,
    489)], [(55352394327273, 0), (0, 1760969668), (3929183, 0), (1609, 0)], [(35050385787, 0), (0, 3652353), (0,
    1820)]], 3, 4⟩, ⟨[[(0, 28893189474287616), (0, 19014325127713083), (965685840951, 0), (1682104, 0), (54350, 0)],
    [(0, 26465521984452800), (0, 929232684015), (910805282, 0), (258870, 0), (0, 201)], [(12540692125373, 0), (0,
    4293168992), (0, 3174031), (0, 2078), (0, 1)], [(9911989790, 0), (6806294, 0), (5387, 0), (2, 0)]], 3, 4⟩,
    72057594037927936, 350505240452, 122999146536, ⟨[[(10231109352787, 0), (4777893750, 0), (3916397, 0), (3817, 0),
    (1, 0)], [(0, 5498493454), (0, 13837820), (0, 27442), (0, 41)], [(12026626, 0), (58522, 0), (188, 0)], [(0,
    41509), (0, 303), (0, 1)]], 3, 4⟩, 17592186044416, 81227217,
    6995705162048797021586302311934608507553486879736187822821336096119818589731584590504205221243500253050082212519863694030445389,
    lc0⟩)) (.sx (.leaf ⟨307, 16, 883, 194, 16, 3456, ⟨[[(0, 2685288611254272), (0, 17234563966510448),
    (1739135614354, 0), (188117772, 0), (85981, 0)], [(30045276162968517, 0), (0, 18361425649852), (0, 1469400028),
    (0, 1557090), (0, 623)], [(56934462612610, 0), (0, 900289456), (4823381, 0), (1865, 0)], [(36882748390, 0), (0,
    3190681), (0, 1009)]], 3, 4⟩, ⟨[[(2317951837937664, 0), (0, 18796630076470328), (935757298503, 0), (13194611, 0),
    (72012, 0)], [(0, 27119161985182126), (0, 492265453370), (1181225802, 0), (319051, 0), (0, 242)],
    [(11259585186110, 0), (0, 5505148461), (0, 4214064), (0, 2585), (0, 1)], [(10844760547, 0), (8755428, 0), (6700,
    0), (3, 0)]], 3, 4⟩, 72057594037927936, 310314765064, 157008908393, ⟨[[(10345474781420, 0), (5143779599, 0),
    (4747067, 0), (5244, 0)], [(0, 5632121369), (0, 15909771), (0, 36519), (0, 53)], [(13281615, 0), (73856, 0),
    (251, 0)], [(0, 49138), (0, 383), (0, 1)]], 3, 4⟩, 17592186044416, 92872069,
    5931889159161271494628040343329546165966785871647052018135208271771470474391189818102037952939539025209060356584031194382365954,
    lc0⟩) (.leaf ⟨301, 16, 833, 185, 16, 3481, ⟨[[(13677166822416384, 0), (0, 16744400090611374), (1605384334632, 0),
    (137715349, 0), (64923, 0)], [(31434230007636562, 0), (0, 17377198577183), (0, 1134403927), (0, 1370453), (0,
    568)], [(56668332158599, 0), (0, 1146979983), (4428690, 0), (1752, 0)], [(35653148137, 0), (0, 4042156), (0,
    1923)]], 3, 4⟩, ⟨[[(0, 3724913236215808), (0, 18950643897317648), (972656184875, 0), (20309536, 0), (64912, 0)],
    [(0, 26654861957003104), (0, 786462723384), (967350357, 0), (182192, 0), (0, 300)], [(12241763585147, 0), (0,
    4850203671), (0, 3709716), (0, 2372), (0, 1)], [(10525163046, 0), (7726004, 0), (5986, 0), (3, 0)]], 3, 4⟩,
    72057594037927936, 339914409640, 152990859283, ⟨[[(10228570674293, 0), (4838720450, 0), (4137367, 0), (4512, 0),
    (1, 0)], [(0, 5498797838), (0, 14374126), (0, 30831), (0, 51)], [(12421813, 0), (63753, 0), (222, 0)], [(0,
    44429), (0, 340), (0, 1)]], 3, 4⟩, 17592186044416, 97293741,
    5402464598713292432885259464933267703353850725136075998486676307489333667710703067548830980966836898559395417943242034279323305,
    lc0⟩))) (.sy (.sx (.leaf ⟨307, 16, 768, 196, 16, 3493, ⟨[[(0, 10999539822813184), (0, 16112540599495122),
    (1433992149784, 0), (77769194, 0), (50803, 0)], [(33235738384974656, 0), (0, 15982099128659), (0, 565089631), (0,
    1025300), (0, 447)], [(55178105997692, 0), (0, 1983357078), (3541160, 0), (1495, 0)], [(34134490917, 0), (0,
    4077095), (0, 2428)]], 3, 4⟩, ⟨[[(1866062477064192, 0), (0, 19197452729984072), (996804922432, 0), (7409980, 0),
    (48453, 0)], [(0, 25948167729111077), (0, 1163719681095), (751223367, 0), (148911, 0), (0, 249)],
    [(13468715243654, 0), (0, 3791840857), (0, 2771975), (0, 1911), (0, 1)], [(9696030305, 0), (5908685, 0), (4757,
    0), (2, 0)]], 3, 4⟩, 72057594037927936, 373018872640, 112702699863, ⟨[[(10110283965359, 0), (4489179082, 0),
    (3416462, 0), (3167, 0), (1, 0)], [(0, 5354574705), (0, 12511351), (0, 22634), (0, 37)], [(11204659, 0), (49483,
    0), (156, 0)], [(0, 36489), (0, 251), (0, 1)]], 3, 4⟩, 17592186044416, 80136141,
    5373898801259857146984888793309208863765061065130856091720277406411603444283533432429278828733516181656473406990039293637109792,
    lc0⟩) (.leaf ⟨304, 16, 728, 188, 16, 3522, ⟨[[(0, 22570469687357440), (0, 15699098560514754), (1346884562391, 0),
    (47605627, 0), (36479, 0)], [(34510654202813440, 0), (0, 15264409913586), (0, 353549944), (0, 893742), (0, 411)],
    [(55065675465352, 0), (0, 2222048837), (3139460, 0), (1372, 0)], [(33412695496, 0), (0, 4239811), (0, 2849), (0,
    1)]], 3, 4⟩, ⟨[[(0, 26122126814605312), (0, 19392562540809488), (1024200008682, 0), (10207899, 0), (41207, 0)],
    [(0, 25380305610195579), (0, 1374194889755), (611707651, 0), (46797, 0), (0, 295)], [(14390547383893, 0), (0,
    3361204633), (0, 2419491), (0, 1768), (0, 1)], [(9517270726, 0), (5057405, 0), (4152, 0), (2, 0)]], 3, 4⟩,
    72057594037927936, 394164159783, 96417186706, ⟨[[(9997898463671, 0), (4232185988, 0), (3006630, 0), (2579, 0),
    (1, 0)], [(0, 5233117662), (0, 11438031), (0, 18636), (0, 32)], [(10553593, 0), (42236, 0), (126, 0)], [(0,
    32398), (0, 203), (0, 1)]], 3, 4⟩, 17592186044416, 78673279,
    3790575546157586704520387500880609911498078668651181697776431969824161018071860228394905962505905228821225600371272742904499160,
    lc0⟩)) (.sx (.leaf ⟨297, 16, 787, 176, 16, 3508, ⟨[[(0, 22304920839720960), (0, 16280369902459461),
    (1489958290013, 0), (95146784, 0), (46546, 0)], [(32776493469844128, 0), (0, 16487898717267), (0, 842369411), (0,
    1202962), (0, 520)], [(56407474591539, 0), (0, 1437860714), (3997276, 0), (1620, 0)], [(34637711127, 0), (0,
    4575267), (0, 2610), (0, 1)]], 3, 4⟩, ⟨[[(5940018966652928, 0), (0, 19123491354425406), (1004693657282, 0),
    (23789227, 0), (56199, 0)], [(0, 26146105902854185), (0, 1048815416915), (779090736, 0), (55597, 0), (0, 355)],
    [(13211641823756, 0), (0, 4279015428), (0, 3263583), (0, 2186), (0, 1)], [(10230581577, 0), (6717810, 0), (5280,
    0), (2, 0)]], 3, 4⟩, 72057594037927936, 369620956419, 141512782783, ⟨[[(10109400209749, 0), (4545379605, 0),
    (3586673, 0), (3738, 0), (1, 0)], [(0, 5354446189), (0, 12943361), (0, 25167), (0, 47)], [(11548763, 0), (53571,
    0), (186, 0)], [(0, 39135), (0, 283), (0, 1)]], 3, 4⟩, 17592186044416, 97328058,
    4147451617093670879323003324882903575161343809483530517119611039364080098488505995886933597363564462454965677948639750708583699,
    lc0⟩) (.leaf ⟨293, 16, 744, 167, 16, 3537, ⟨[[(7963299113287680, 0), (0, 15828445889685264), (1389157400031, 0),
    (59292660, 0), (30457, 0)], [(34049690931234830, 0), (0, 15673750887712), (0, 591037381), (0, 1052964), (0,
    477)], [(56118975054491, 0), (0, 1744341881), (3544962, 0), (1475, 0)], [(33791029924, 0), (0, 4799780), (0,
    3077), (0, 1)]], 3, 4⟩, ⟨[[(31873433492244480, 0), (0, 19314430863875689), (1032527177327, 0), (23875476, 0),
    (45928, 0)], [(0, 25592294561661083), (0, 1283968925634), (613205876, 0), (0, 62287), (0, 408)],
    [(14172891330374, 0), (0, 3788451476), (0, 2874003), (0, 2027), (0, 1)], [(9980185530, 0), (5762624, 0), (4603,
    0), (2, 0)]], 3, 4⟩, 72057594037927936, 397213635648, 123037747359, ⟨[[(9996863764749, 0), (4283737968, 0),
    (3139768, 0), (3033, 0), (2, 0)], [(0, 5241399283), (0, 11820077), (0, 20482), (0, 41)], [(10899440, 0), (45542,
    0), (150, 0)], [(0, 34970), (0, 231), (0, 1)]], 3, 4⟩, 17592186044416, 97668239,
    2824484162511855861898298207428777457845790250347751273713065260708902373357479521681108573244942915711332634298014694556084931,
    lc0⟩))))
theorem c90 : checkR job con1 true ⟨7, 9, 7, 9, 13, 17⟩ 1 9016 t90 614 14 320 4117 39 4000 = true := by decide +kernel

def t91 : CTree :=
  .sx (.sy (.sy (.sx (.leaf ⟨321, 16, 661, 220, 16, 3523, ⟨[[(0, 30271739461713920), (0, 15022245959093658),
    (1209883625348, 0), (4359711, 0), (30581, 0)], [(36386275665639648, 0), (0, 13978487804383), (131184998, 0), (0,
    542506), (0, 285)], [(53015958020593, 0), (0, 3079475606), (2081769, 0), (1098, 0)], [(31961393263, 0), (0,
    3094494), (0, 2686)]], 3, 4⟩, ⟨[[(30299160811337728, 0), (0, 19763243797395814), (1039600792028, 0), (0,
    8836340), (28334, 0)], [(0, 24305313465868745), (0, 1702336622764), (468817292, 0), (101640, 0), (0, 157)],
    [(15603682866480, 0), (0, 2427107505), (0, 1426890), (0, 1247), (0, 1)], [(8733569409, 0), (3235297, 0), (2933,
    0), (1, 0)]], 3, 4⟩, 72057594037927936, 392624803250, 34820506318, ⟨[[(9883428192191, 0), (3901070136, 0),
    (2458722, 0), (1596, 0), (1, 0)], [(0, 5126628721), (0, 9985268), (0, 13289), (0, 18)], [(9599743, 0), (32475,
    0), (74, 0)], [(0, 25653), (0, 130)]], 3, 4⟩, 17592186044416, 53247853,
    2405283640874612916958858210802411117364334983112680762899157499951583230016982548431843892756467913841254789097899508193732411,
    lc0⟩) (.leaf ⟨319, 16, 628, 213, 16, 3556, ⟨[[(0, 31306018946871296), (0, 14646485056041648), (1154464106446, 0),
    (0, 9482248), (21565, 0)], [(37462659901740928, 0), (0, 13451279461578), (229216276, 0), (0, 458118), (0, 264)],
    [(52965776647607, 0), (0, 3166812699), (1754397, 0), (1003, 0)], [(31469800223, 0), (0, 2768085), (0, 2751)]], 3,
    4⟩, ⟨[[(9095946170537984, 0), (0, 19998330579597581), (1061521994128, 0), (0, 7007492), (23759, 0)], [(0,
    23630300502405024), (0, 1848253171255), (399172745, 0), (34832, 0), (0, 188)], [(16488178719061, 0), (0,
    2199845107), (0, 1209838), (0, 1164), (0, 1)], [(8773025476, 0), (2703320, 0), (2536, 0), (1, 0)]], 3, 4⟩,
    72057594037927936, 399298225741, 14952248533, ⟨[[(9776185888493, 0), (3685269311, 0), (2199646, 0), (1295, 0),
    (1, 0)], [(0, 5029158365), (0, 9284041), (0, 11355), (0, 14)], [(9225668, 0), (29044, 0), (59, 0)], [(0, 23595),
    (0, 107)]], 3, 4⟩, 17592186044416, 51754660,
    2071356128213414284652407259539067490228950558427445428854315900650842604468032235215601818122476649131677109229246515110071422,
    lc0⟩)) (.sx (.leaf ⟨311, 16, 675, 200, 16, 3538, ⟨[[(0, 9465008905715712), (0, 15147538726410631),
    (1237661778463, 0), (13798702, 0), (28356, 0)], [(36044064090388187, 0), (0, 14264334610928), (0, 6718160), (0,
    650298), (0, 327)], [(53907022026019, 0), (0, 2792335584), (2393379, 0), (1166, 0)], [(32374925185, 0), (0,
    3597377), (0, 2869), (0, 1)]], 3, 4⟩, ⟨[[(0, 2671218887282688), (0, 19684629108096361), (1043016503337, 0),
    (349944, 0), (30641, 0)], [(0, 24539240168492142), (0, 1634609485650), (488019748, 0), (40764, 0), (0, 238)],
    [(15470665844174, 0), (0, 2684899922), (0, 1746618), (0, 1433), (0, 1)], [(9042696549, 0), (3731585, 0), (3245,
    0), (1, 0)]], 3, 4⟩, 72057594037927936, 403096177098, 53610566228, ⟨[[(9886688150986, 0), (3947850512, 0),
    (2560145, 0), (1808, 0), (1, 0)], [(0, 5130269675), (0, 10266156), (0, 14306), (0, 22)], [(9815183, 0), (34474,
    0), (85, 0)], [(0, 27371), (0, 146), (0, 1)]], 3, 4⟩, 17592186044416, 64839968,
    2549720977657733823485111583323567433695036360132104583594819485753743332387802062231076146963361755352744807704530243018577331,
    lc0⟩) (.leaf ⟨309, 16, 641, 192, 16, 3571, ⟨[[(5544997263822848, 0), (0, 14765988443282947), (1176862378764, 0),
    (0, 3331988), (18330, 0)], [(37168433215432178, 0), (0, 13702293658565), (114299112, 0), (0, 556899), (0, 304)],
    [(53821461623084, 0), (0, 2934133072), (2034130, 0), (1058, 0)], [(31883531116, 0), (0, 3273258), (0, 2939), (0,
    1)]], 3, 4⟩, ⟨[[(27119623650400256, 0), (0, 19916475166833408), (1065224106493, 0), (400108, 0), (23707, 0)],
    [(0, 23872302393248539), (0, 1793273534589), (401167082, 0), (0, 36816), (0, 275)], [(16377451728857, 0), (0,
    2421005179), (0, 1508188), (0, 1341), (0, 1)], [(9037776359, 0), (3131487, 0), (2801, 0), (1, 0)]], 3, 4⟩,
    72057594037927936, 415374340311, 31021103325, ⟨[[(9777834136259, 0), (3726195213, 0), (2283369, 0), (1446, 0),
    (1, 0)], [(0, 5026575056), (0, 9518753), (0, 12055), (0, 17)], [(9390325, 0), (30514, 0), (66, 0)], [(0, 24975),
    (0, 118)]], 3, 4⟩, 17592186044416, 62929177,
    1992872090205342349954859176950145294033802858596351220055136823718888294416467934591963790964625141209451104331934237155129558,
    lc0⟩))) (.sy (.sx (.leaf ⟨301, 16, 690, 180, 16, 3553, ⟨[[(8839882762977280, 0), (0, 15286474533928796),
    (1269468699813, 0), (22407547, 0), (23831, 0)], [(35707330413823191, 0), (0, 14595179103183), (0, 175145235), (0,
    775803), (0, 378)], [(54897770227784, 0), (0, 2450656859), (2731491, 0), (1244, 0)], [(32789394948, 0), (0,
    4146554), (0, 3088), (0, 1)]], 3, 4⟩, ⟨[[(0, 35967133546565632), (0, 19604619506267599), (1048668389633, 0),
    (10258680, 0), (32666, 0)], [(0, 24768327300662272), (0, 1564837582677), (489778882, 0), (0, 48722), (0, 338)],
    [(15314568585457, 0), (0, 2997392504), (0, 2114451), (0, 1646), (0, 1)], [(9393819104, 0), (4281365, 0), (3592,
    0), (1, 0)]], 3, 4⟩, 72057594037927936, 413106159876, 74776242675, ⟨[[(9889882152088, 0), (3996510004, 0),
    (2665863, 0), (2070, 0), (2, 0)], [(0, 5133145449), (0, 10564634), (0, 15434), (0, 27)], [(10059199, 0), (36698,
    0), (99, 0)], [(0, 29292), (0, 164), (0, 1)]], 3, 4⟩, 17592186044416, 78591602,
    2553438449416992037697248001183654947358586338971922532321985366404568669692716069407079744884691942525478690119479300656233686,
    lc0⟩) (.leaf ⟨299, 16, 654, 172, 16, 3586, ⟨[[(10000629818880000, 0), (0, 14878169835147625), (1200551347647, 0),
    (1558181, 0), (12665, 0)], [(36832212699655657, 0), (0, 13972971820928), (0, 28118376), (0, 670977), (0, 350)],
    [(54692643801931, 0), (0, 2649954206), (2332367, 0), (1118, 0)], [(32251108262, 0), (0, 3819593), (0, 3160), (0,
    1)]], 3, 4⟩, ⟨[[(0, 27001731958843392), (0, 19833209216682880), (1070652949100, 0), (7706059, 0), (22857, 0)],
    [(0, 24110618509940334), (0, 1739206647090), (382915180, 0), (0, 138874), (0, 381)], [(16246737571788, 0), (0,
    2693188754), (0, 1852363), (0, 1545), (0, 1)], [(9338692322, 0), (3605085, 0), (3095, 0), (1, 0)]], 3, 4⟩,
    72057594037927936, 431222933513, 49365667249, ⟨[[(9781003750465, 0), (3769256354, 0), (2368483, 0), (1624, 0),
    (2, 0)], [(0, 5031092756), (0, 9778132), (0, 12797), (0, 21)], [(9603721, 0), (32197, 0), (75, 0)], [(0, 26619),
    (0, 131), (0, 1)]], 3, 4⟩, 17592186044416, 77824045,
    1838309553388972589763529249783232756458358841974966556432790001638540995284327741870269535015957054323954166312593682098166245,
    lc0⟩)) (.sx (.leaf ⟨290, 16, 704, 159, 16, 3568, ⟨[[(33080588850896896, 0), (0, 15394119549700766),
    (1301375504496, 0), (29284594, 0), (16369, 0)], [(35268827049871246, 0), (0, 14934394257726), (0, 378631461), (0,
    920017), (0, 439)], [(55834173041907, 0), (0, 2042106340), (3090690, 0), (1328, 0)], [(33105155540, 0), (0,
    4736578), (0, 3340), (0, 1)]], 3, 4⟩, ⟨[[(2645630466811904, 0), (0, 19522852028151047), (1056722202076, 0),
    (20763973, 0), (34139, 0)], [(0, 24992510698401394), (0, 1496307319703), (466611739, 0), (0, 172942), (0, 459)],
    [(15130709291319, 0), (0, 3372875593), (0, 2537580), (0, 1892), (0, 1)], [(9791513666, 0), (4890600, 0), (3978,
    0), (2, 0)]], 3, 4⟩, 72057594037927936, 421320772038, 98500034052, ⟨[[(9889608882955, 0), (4043210508, 0),
    (2769515, 0), (2394, 0), (2, 0)], [(0, 5142884140), (0, 10892522), (0, 16647), (0, 34)], [(10370376, 0), (39205,
    0), (116, 0)], [(0, 31574), (0, 185), (0, 1)]], 3, 4⟩, 17592186044416, 98166641,
    1768452452263848096032426237235879379267147967491928310294532784190447011039668648551871877082351362777972307005495693106112002,
    lc0⟩) (.leaf ⟨289, 16, 667, 151, 16, 3601, ⟨[[(0, 17070446827106304), (0, 14982854735106918), (1225159494840, 0),
    (4306667, 0), (4006, 0)], [(36452282381798834, 0), (0, 14268386149198), (0, 202421617), (0, 803223), (0, 406)],
    [(55584019874363, 0), (0, 2310468254), (2650714, 0), (1185, 0)], [(32568350664, 0), (0, 4413002), (0, 3417), (0,
    1)]], 3, 4⟩, ⟨[[(0, 8977984346853376), (0, 19748265713675763), (1077758539813, 0), (14607079, 0), (20856, 0)],
    [(0, 24345438995391479), (0, 1689824339253), (336469887, 0), (0, 277744), (0, 508)], [(16091669934528, 0), (0,
    3024293857), (0, 2249297), (0, 1780), (0, 1)], [(9679659984, 0), (4129148, 0), (3423, 0), (1, 0)]], 3, 4⟩,
    72057594037927936, 446843220877, 70135525544, ⟨[[(9778285916093, 0), (3805350178, 0), (2443656, 0), (1819, 0),
    (2, 0)], [(0, 5024000116), (0, 10014935), (0, 13424), (0, 26)], [(9806118, 0), (33786, 0), (84, 0)], [(0, 28279),
    (0, 143), (0, 1)]], 3, 4⟩, 17592186044416, 95428366,
    1348905764118999205606002265549684188067453579701927740856236314529588259977311829993690418227519979186503361302101615575314346,
    lc0⟩)))) (.sy (.sx (.sy (.leaf ⟨317, 16, 597, 206, 16, 3591, ⟨[[(16989866812215296, 0), (0, 14283950090976556),
    (1104826979641, 0), (0, 20471269), (13530, 0)], [(38504279520121819, 0), (0, 12961823651682), (305060414, 0), (0,
    383233), (0, 247)], [(52910417494088, 0), (0, 3218234348), (1443821, 0), (914, 0)], [(31025546336, 0), (0,
    2283962), (0, 2701)]], 3, 4⟩, ⟨[[(9741979866007552, 0), (0, 20249109430827661), (1082353155904, 0), (0, 6991413),
    (18292, 0)], [(0, 22909619553380270), (0, 1984810816630), (340409614, 0), (0, 28352), (0, 218)],
    [(17394823463194, 0), (0, 2012313848), (0, 1022310), (0, 1095)], [(8873183875, 0), (2269567, 0), (2200, 0), (1,
    0)]], 3, 4⟩, 72057594037927936, 399619146845, 23678979084, ⟨[[(9673448545139, 0), (3485870597, 0), (1977951, 0),
    (1054, 0), (1, 0)], [(0, 4944519944), (0, 8678252), (0, 9851), (0, 11)], [(8929213, 0), (26453, 0), (47, 0)],
    [(0, 22077), (0, 91)]], 3, 4⟩, 17592186044416, 51319292,
    2753620460857511782183256791702179148525899013298918359751113756046893296067626950239335572966599190915262099040939865646026202,
    lc0⟩) (.leaf ⟨308, 16, 609, 185, 16, 3606, ⟨[[(0, 4705023591931904), (0, 14395604011306278), (1122604847559, 0),
    (0, 17205567), (9420, 0)], [(38248588825113888, 0), (0, 13181444123909), (210159589, 0), (0, 474216), (0, 283)],
    [(53727281176521, 0), (0, 3036013092), (1693576, 0), (955, 0)], [(31450445028, 0), (0, 2769004), (0, 2879), (0,
    1)]], 3, 4⟩, ⟨[[(5578478577473536, 0), (0, 20164234166504845), (1085873060431, 0), (0, 1674493), (15713, 0)],
    [(0, 23158719995617015), (0, 1940751226440), (326132923, 0), (0, 110459), (0, 310)], [(17303080865485, 0), (0,
    2201915636), (0, 1302894), (0, 1265), (0, 1)], [(9101880516, 0), (2640221, 0), (2425, 0), (1, 0)]], 3, 4⟩,
    72057594037927936, 420627432474, 13619559288, ⟨[[(9672194185628, 0), (3516930066, 0), (2042388, 0), (1148, 0),
    (1, 0)], [(0, 4928160809), (0, 8847663), (0, 10276), (0, 13)], [(9013700, 0), (27403, 0), (51, 0)], [(0, 23013),
    (0, 97)]], 3, 4⟩, 17592186044416, 60953308,
    2336406397466142928511687255824254306660606123521535283879053443599246771799760401056820712158841996530680856698257446129446081,
    lc0⟩)) (.sy (.leaf ⟨317, 16, 568, 200, 16, 3629, ⟨[[(0, 27556287890833408), (0, 13937836858858734),
    (1060305926508, 0), (0, 29014330), (6343, 0)], [(39523220615316494, 0), (0, 12508402326045), (361117934, 0), (0,
    316966), (0, 232)], [(52865588171167, 0), (0, 3224405583), (1157820, 0), (833, 0)], [(30614143180, 0), (0,
    1667247), (0, 2554)]], 3, 4⟩, ⟨[[(0, 35009815607910400), (0, 20521094616978603), (1102676074002, 0), (0,
    8716993), (11945, 0)], [(0, 22146494909157445), (0, 2114596997500), (291143478, 0), (0, 88680), (0, 247)],
    [(18334787686645, 0), (0, 1856341488), (0, 859073), (0, 1039)], [(9040133552, 0), (1947493, 0), (1934, 0), (1,
    0)]], 3, 4⟩, 72057594037927936, 392227331931, 42843893314, ⟨[[(9568659665738, 0), (3287744957, 0), (1770689, 0),
    (848, 0), (1, 0)], [(0, 4843757971), (0, 8061633), (0, 8545), (0, 8)], [(8588533, 0), (24062, 0), (38, 0)], [(0,
    20535), (0, 77)]], 3, 4⟩, 17592186044416, 49384692,
    3651692096173768623457546765810918959502752583231360220675246666578752312665632709540585777306075620063159237720485918796129630,
    lc0⟩) (.leaf ⟨307, 16, 578, 178, 16, 3643, ⟨[[(0, 5053668745912320), (0, 14015430182267743), (1072245854930, 0),
    (0, 28233005), (1472, 0)], [(39228293271431909, 0), (0, 12677642566975), (283047934, 0), (0, 400573), (0, 265)],
    [(53547961033816, 0), (0, 3081814050), (1378232, 0), (862, 0)], [(31004771597, 0), (0, 2110078), (0, 2705), (0,
    1)]], 3, 4⟩, ⟨[[(5629571743037440, 0), (0, 20427719317528484), (1105260190371, 0), (0, 5797872), (6663, 0)], [(0,
    22395780739866075), (0, 2079300060274), (261260884, 0), (0, 180999), (0, 345)], [(18254406912463, 0), (0,
    2018003775), (0, 1124625), (0, 1202), (0, 1)], [(9239679375, 0), (2272148, 0), (2127, 0), (1, 0)]], 3, 4⟩,
    72057594037927936, 416660668186, 36217632893, ⟨[[(9568373139342, 0), (3319106789, 0), (1831656, 0), (912, 0), (1,
    0)], [(0, 4840928506), (0, 8249167), (0, 8908), (0, 10)], [(8702528, 0), (25031, 0), (40, 0)], [(0, 21510), (0,
    82)]], 3, 4⟩, 17592186044416, 59986017,
    2963455493823840965671960515939862434306392348338720846921236435446962089781389230145090130229170212867990611132615577570032198,
    lc0⟩))) (.sx (.sy (.leaf ⟨298, 16, 621, 164, 16, 3621, ⟨[[(15067377534201856, 0), (0, 14500988973108521),
    (1140895226969, 0), (0, 15543146), (2802, 0)], [(37954907176538190, 0), (0, 13417136942044), (90170905, 0), (0,
    579350), (0, 327)], [(54555443760823, 0), (0, 2808490852), (1958033, 0), (1002, 0)], [(31831763605, 0), (0,
    3293083), (0, 3088), (0, 1)]], 3, 4⟩, ⟨[[(1544089822281728, 0), (0, 20078013591934434), (1090528547134, 0),
    (2658581, 0), (11790, 0)], [(0, 23405134876452370), (0, 1900400803317), (288888126, 0), (0, 224755), (0, 422)],
    [(17194008751329, 0), (0, 2439484567), (0, 1627449), (0, 1461), (0, 1)], [(9361825701, 0), (3049490, 0), (2675,
    0), (1, 0)]], 3, 4⟩, 72057594037927936, 442224250577, 21764467741, ⟨[[(9673792553037, 0), (3554501654, 0),
    (2114087, 0), (1261, 0), (1, 0)], [(0, 4926832534), (0, 9070916), (0, 10756), (0, 16)], [(9179893, 0), (28691,
    0), (56, 0)], [(0, 24372), (0, 106)]], 3, 4⟩, 17592186044416, 75127253,
    1892830995375779901714471574261620908079993591140949075051191678229631231326137935642455195774516324305311185773116145242327313,
    lc0⟩) (.leaf ⟨288, 16, 633, 143, 16, 3636, ⟨[[(5008978813976576, 0), (0, 14600070395270923), (1159228989367, 0),
    (0, 16393870), (0, 6891)], [(37621842038708768, 0), (0, 13673497850497), (0, 58957439), (0, 701326), (0, 379)],
    [(55398990791466, 0), (0, 2532586729), (2238361, 0), (1052, 0)], [(32165535072, 0), (0, 3861801), (0, 3333), (0,
    1)]], 3, 4⟩, ⟨[[(0, 2194890089697280), (0, 19990290871799693), (1096038911758, 0), (5517620, 0), (6087, 0)], [(0,
    23649294833726903), (0, 1868002861144), (220269356, 0), (0, 377919), (0, 556)], [(17063503133798, 0), (0,
    2732599170), (0, 2002700), (0, 1687), (0, 1)], [(9656322569, 0), (3501618, 0), (2953, 0), (1, 0)]], 3, 4⟩,
    72057594037927936, 464410099949, 38677191794, ⟨[[(9673377491627, 0), (3590124949, 0), (2181745, 0), (1380, 0),
    (2, 0)], [(0, 4923264083), (0, 9299331), (0, 11154), (0, 19)], [(9365783, 0), (30048, 0), (61, 0)], [(0, 25893),
    (0, 114)]], 3, 4⟩, 17592186044416, 93288807,
    1431139716106852205683572872389158992434809604881842105284596495558925832469537351013023706409188623466161751921477374985299194,
    lc0⟩)) (.sy (.leaf ⟨297, 16, 589, 157, 16, 3658, ⟨[[(29052532824772608, 0), (0, 14112231564643111),
    (1085891535001, 0), (0, 29397937), (0, 5953)], [(38968728184053161, 0), (0, 12881895910105), (182642703, 0), (0,
    497852), (0, 306)], [(54331047173666, 0), (0, 2905236154), (1611944, 0), (895, 0)], [(31410082131, 0), (0,
    2590258), (0, 2889), (0, 1)]], 3, 4⟩, ⟨[[(0, 21499092138027008), (0, 20338796318221561), (1108611505135, 0), (0,
    4806183), (0, 532)], [(0, 22649352052864023), (0, 2050963234086), (205826254, 0), (0, 307300), (0, 462)],
    [(18164052400182, 0), (0, 2225598620), (0, 1432886), (0, 1392), (0, 1)], [(9469084678, 0), (2630547, 0), (2342,
    0), (1, 0)]], 3, 4⟩, 72057594037927936, 442937531529, 28532081801, ⟨[[(9571987027686, 0), (3355660881, 0),
    (1897442, 0), (982, 0), (1, 0)], [(0, 4843908708), (0, 8466205), (0, 9273), (0, 12)], [(8857271, 0), (26182, 0),
    (43, 0)], [(0, 22741), (0, 89)]], 3, 4⟩, 17592186044416, 74001880,
    2283487205775282072739036935197358521443488931666000599628801207497929421763317516266610935484062380719001451148805965584816445,
    lc0⟩) (.leaf ⟨287, 16, 600, 135, 16, 3673, ⟨[[(35256138734292992, 0), (0, 14203787566812158), (1098824628988, 0),
    (0, 33388174), (0, 16509)], [(38673823740275625, 0), (0, 13103316990289), (55516854, 0), (0, 610777), (0, 354)],
    [(55125303452037, 0), (0, 2686572133), (1857708, 0), (932, 0)], [(31772660527, 0), (0, 3109838), (0, 3103), (0,
    1)]], 3, 4⟩, ⟨[[(23908755996635136, 0), (0, 20248638342253896), (1111899526840, 0), (0, 6426408), (0, 10170)],
    [(0, 22901766347560736), (0, 2033708664666), (115897584, 0), (0, 474516), (0, 604)], [(18054786463713, 0), (0,
    2485933673), (0, 1790168), (0, 1611), (0, 1)], [(9728698676, 0), (3025772, 0), (2581, 0), (1, 0)]], 3, 4⟩,
    72057594037927936, 470547375365, 19780457194, ⟨[[(9570356908474, 0), (3386706738, 0), (1957855, 0), (1042, 0),
    (2, 0)], [(0, 4835784114), (0, 8671638), (0, 9521), (0, 14)], [(9002724, 0), (27342, 0), (45, 0)], [(0, 24054),
    (0, 95)]], 3, 4⟩, 17592186044416, 92178766,
    1615576379732195486673398852865527791216546437910193863465561317195517319409413091170589285403049338416550121971016919625747664,
    lc0⟩))))
theorem c91 : checkR job con1 true ⟨7, 9, 7, 9, 13, 17⟩ 1 9016 t91 642 14 320 4117 39 4000 = true := by decide +kernel

def t92 : CTree :=
  .sx (.sy (.sx (.sy (.leaf ⟨316, 16, 540, 193, 16, 3668, ⟨[[(11978133866303488, 0), (0, 13586165394058724),
    (1018460272102, 0), (0, 35408423), (0, 118)], [(40458710459453010, 0), (0, 12066712865699), (399308907, 0), (0,
    257811), (0, 219)], [(52748762439065, 0), (0, 3172792670), (900392, 0), (764, 0)], [(30162634108, 0), (0,
    945128), (0, 2328)]], 3, 4⟩, ⟨[[(11858484388112384, 0), (0, 20802904199730258), (1122126762943, 0), (0,
    12127313), (4708, 0)], [(0, 21325132793145925), (0, 2237965375523), (250063066, 0), (0, 146714), (0, 276)],
    [(19304480723643, 0), (0, 1721257697), (0, 713571), (0, 990)], [(9268262527, 0), (1743740, 0), (1742, 0), (1,
    0)]], 3, 4⟩, 72057594037927936, 375769404691, 60510168442, ⟨[[(9467546022403, 0), (3106118047, 0), (1593365, 0),
    (692, 0), (1, 0)], [(0, 4761866111), (0, 7531867), (0, 7556), (0, 6)], [(8333870, 0), (22280, 0), (31, 0)], [(0,
    19472), (0, 68)]], 3, 4⟩, 17592186044416, 49035417,
    4584809735611254116517410766312555179895929474877114984333913903833677209302597358108420846835520240175956999952056789850494650,
    lc0⟩) (.leaf ⟨307, 16, 550, 171, 16, 3683, ⟨[[(9337205314011136, 0), (0, 13676599808114683), (1028816764430, 0),
    (0, 36904930), (0, 5632)], [(40251653869095561, 0), (0, 12231952973488), (336801757, 0), (0, 336288), (0, 250)],
    [(53479479786703, 0), (0, 3074256225), (1099734, 0), (784, 0)], [(30631534549, 0), (0, 1338605), (0, 2452)]], 3,
    4⟩, ⟨[[(31633259408025600, 0), (0, 20712425270551575), (1123945908518, 0), (0, 11920390), (0, 3446)], [(0,
    21586168686976073), (0, 2211208618968), (205314110, 0), (0, 249173), (0, 379)], [(19243769152168, 0), (0,
    1859128174), (0, 966898), (0, 1150), (0, 1)], [(9453700965, 0), (2036379, 0), (1913, 0), (1, 0)]], 3, 4⟩,
    72057594037927936, 403118607664, 57349043162, ⟨[[(9466586588037, 0), (3131653424, 0), (1644802, 0), (729, 0), (1,
    0)], [(0, 4747698054), (0, 7677778), (0, 7819), (0, 7)], [(8386039, 0), (23005, 0), (32, 0)], [(0, 20134), (0,
    72)]], 3, 4⟩, 17592186044416, 58401960,
    3664250863024072240305447057488042457235188399258476118052946913714281252665998555945677517685394728705424268916491236437996243,
    lc0⟩)) (.sy (.leaf ⟨316, 16, 514, 187, 16, 3711, ⟨[[(33357624922038272, 0), (0, 13256000504264195),
    (980689683796, 0), (0, 40010529), (0, 5940)], [(41390713896478693, 0), (0, 11656401121451), (422981058, 0), (0,
    205280), (0, 208)], [(52662595575893, 0), (0, 3065183792), (677339, 0), (707, 0)], [(29703240583, 0), (0,
    154669), (0, 2052)]], 3, 4⟩, ⟨[[(18791654285948928, 0), (0, 21111501803511723), (1141837138531, 0), (0,
    17196689), (0, 3422)], [(0, 20459214711004309), (0, 2357676667601), (216590297, 0), (0, 203010), (0, 305)],
    [(20325797524763, 0), (0, 1598420027), (0, 580132), (0, 948)], [(9559211451, 0), (1661025, 0), (1626, 0), (1,
    0)]], 3, 4⟩, 72057594037927936, 350049572317, 74713983634, ⟨[[(9369153689477, 0), (2932720363, 0), (1431593, 0),
    (569, 0)], [(0, 4679172235), (0, 7020074), (0, 6720), (0, 5)], [(8080271, 0), (20655, 0), (26, 0)], [(0, 18488),
    (0, 62)]], 3, 4⟩, 17592186044416, 48246429,
    5430516092705240634908125626855084606780021300236157874323427892759714663082455230746516436347229821284954377474343870986383229,
    lc0⟩) (.leaf ⟨307, 16, 523, 165, 16, 3725, ⟨[[(35138917213208576, 0), (0, 13333200152152245), (988048351576, 0),
    (0, 43470119), (0, 12010)], [(41192846244459045, 0), (0, 11797586827419), (373484899, 0), (0, 278810), (0, 237)],
    [(53345967258732, 0), (0, 2998204196), (857586, 0), (720, 0)], [(30198265087, 0), (0, 486750), (0, 2137)]], 3,
    4⟩, ⟨[[(9019435268009984, 0), (0, 21012674296686303), (1141852269363, 0), (0, 20008476), (0, 14632)], [(0,
    20719777113495374), (0, 2337004045636), (157307171, 0), (0, 315443), (0, 413)], [(20273319118881, 0), (0,
    1713554526), (0, 822368), (0, 1103), (0, 1)], [(9735549813, 0), (1933426, 0), (1782, 0), (1, 0)]], 3, 4⟩,
    72057594037927936, 379364175315, 74933867009, ⟨[[(9369761685727, 0), (2957835324, 0), (1479782, 0), (592, 0), (1,
    0)], [(0, 4670879599), (0, 7165260), (0, 6971), (0, 5)], [(8134033, 0), (21373, 0), (27, 0)], [(0, 19073), (0,
    65)]], 3, 4⟩, 17592186044416, 57485645,
    4329516359656107274209049810706833175809085692664577555866577155229562582627774239089017303743540171198659453822207907460776898,
    lc0⟩))) (.sx (.sy (.leaf ⟨298, 16, 560, 150, 16, 3698, ⟨[[(0, 19577952648122368), (0, 13762551906129154),
    (1038430684028, 0), (0, 40549038), (0, 13760)], [(40013976859205193, 0), (0, 12407604111309), (253110749, 0), (0,
    426978), (0, 288)], [(54214874170703, 0), (0, 2940861725), (1307375, 0), (806, 0)], [(31066777603, 0), (0,
    1760069), (0, 2599)]], 3, 4⟩, ⟨[[(0, 20133366474565632), (0, 20620962186060370), (1125474951888, 0), (0,
    14640674), (0, 14121)], [(0, 21846140276848832), (0, 2193398285029), (132299933, 0), (0, 387366), (0, 503)],
    [(19170067158415, 0), (0, 2040274060), (0, 1261476), (0, 1334), (0, 1)], [(9663736310, 0), (2358321, 0), (2103,
    0), (1, 0)]], 3, 4⟩, 72057594037927936, 432783530666, 53551087091, ⟨[[(9467024512916, 0), (3158608715, 0),
    (1697543, 0), (761, 0), (1, 0)], [(0, 4737755617), (0, 7839308), (0, 8059), (0, 8)], [(8465954, 0), (23845, 0),
    (33, 0)], [(0, 20976), (0, 76)]], 3, 4⟩, 17592186044416, 70230970,
    2732314347015390289803436122550314028304232164267931217331509004044169821185756220287525664632935573738535214523191794276367009,
    lc0⟩) (.leaf ⟨288, 16, 570, 128, 16, 3713, ⟨[[(0, 2140144806469632), (0, 13844208512555448), (1046679828051, 0),
    (0, 47286572), (0, 25063)], [(39744787060169006, 0), (0, 12597485588683), (144752861, 0), (0, 532263), (0, 334)],
    [(54958000024682, 0), (0, 2770754544), (1523788, 0), (830, 0)], [(31465467829, 0), (0, 2213683), (0, 2772), (0,
    1)]], 3, 4⟩, ⟨[[(802852481384448, 0), (0, 20528620901711865), (1125925585140, 0), (0, 21182068), (0, 27937)],
    [(0, 22105928732750295), (0, 2189695379809), (21701029, 0), (0, 568534), (0, 651)], [(19079673636524, 0), (0,
    2271803180), (0, 1603717), (0, 1547), (0, 1)], [(9900874539, 0), (2712732, 0), (2313, 0), (1, 0)]], 3, 4⟩,
    72057594037927936, 464434582835, 49045816621, ⟨[[(9467342129366, 0), (3188399837, 0), (1755233, 0), (786, 0), (1,
    0)], [(0, 4733884095), (0, 8038405), (0, 8276), (0, 9)], [(8595368, 0), (24947, 0), (34, 0)], [(0, 22144), (0,
    81)]], 3, 4⟩, 17592186044416, 87529108,
    1796786431087693259007090286016819172566142361337503077194988356426754540743356523186987060419875240152549323588734328520184730,
    lc0⟩)) (.sy (.leaf ⟨298, 16, 532, 143, 16, 3740, ⟨[[(13148033541308416, 0), (0, 13406689320330391),
    (994162561044, 0), (0, 49288273), (0, 20724)], [(40967830236755735, 0), (0, 11946987332775), (304365006, 0), (0,
    363728), (0, 273)], [(54031737140520, 0), (0, 2900350675), (1043684, 0), (733, 0)], [(30665956479, 0), (0,
    839241), (0, 2241)]], 3, 4⟩, ⟨[[(3576297209782272, 0), (0, 20918843705196665), (1141049359209, 0), (0, 26816497),
    (0, 28998)], [(0, 20985438434679346), (0, 2328401160580), (67207491, 0), (0, 465445), (0, 543)],
    [(20215192034514, 0), (0, 1870512498), (0, 1104978), (0, 1283), (0, 1)], [(9937384786, 0), (2233152, 0), (1956,
    0), (1, 0)]], 3, 4⟩, 72057594037927936, 410560570591, 74796708065, ⟨[[(9368665786238, 0), (2980366381, 0),
    (1527286, 0), (606, 0), (1, 0)], [(0, 4658735470), (0, 7308342), (0, 7187), (0, 6)], [(8187992, 0), (22140, 0),
    (27, 0)], [(0, 19756), (0, 68)]], 3, 4⟩, 17592186044416, 69042977,
    3130456797030091558764591562920474991596799046941367423593544707915457712531942012794142237788137822084964049630071978183790918,
    lc0⟩) (.leaf ⟨289, 16, 542, 121, 16, 3755, ⟨[[(6303705318682624, 0), (0, 13501651837378530), (1000197387480, 0),
    (0, 58527839), (0, 32701)], [(40790221111743365, 0), (0, 12130490045360), (212775765, 0), (0, 463134), (0, 316)],
    [(54823715074770, 0), (0, 2775360567), (1238144, 0), (748, 0)], [(31161639746, 0), (0, 1217597), (0, 2369)]], 3,
    4⟩, ⟨[[(0, 1073071798883328), (0, 20824579893334728), (1138054711784, 0), (0, 38727564), (0, 47239)], [(0,
    21251780795791319), (0, 2336845778611), (0, 63545586), (0, 660490), (0, 698)], [(20142399695150, 0), (0,
    2075791421), (0, 1434098), (0, 1491), (0, 1)], [(10164438548, 0), (2562640, 0), (2149, 0), (1, 0)]], 3, 4⟩,
    72057594037927936, 444722284754, 74449530218, ⟨[[(9368526679118, 0), (3005259303, 0), (1579145, 0), (607, 0), (1,
    0)], [(0, 4643451254), (0, 7466105), (0, 7376), (0, 6)], [(8247904, 0), (23033, 0), (27, 0)], [(0, 20572), (0,
    72)]], 3, 4⟩, 17592186044416, 83871389,
    1908072239368522455406342575558168865789103300777505574651334110703593636495194113685461004736168928301125880501594551100809795,
    lc0⟩)))) (.sy (.sx (.sy (.leaf ⟨318, 16, 490, 182, 16, 3756, ⟨[[(0, 30702754173853696), (0, 12950472826750134),
    (946653542332, 0), (0, 43096045), (0, 11221)], [(42336794392566811, 0), (0, 11275494290742), (434942015, 0), (0,
    158224), (0, 199)], [(52620388842910, 0), (0, 2900835272), (489679, 0), (666, 0)], [(29213573221, 0), (667758,
    0), (0, 1753)]], 3, 4⟩, ⟨[[(0, 20758279978104832), (0, 21435549253601487), (1161396555217, 0), (0, 23897509), (0,
    12463)], [(0, 19532334898427278), (0, 2472921869845), (190139669, 0), (0, 257794), (0, 334)], [(21394054037705,
    0), (0, 1476897417), (0, 452253), (0, 909)], [(9895563086, 0), (1691408, 0), (1577, 0), (1, 0)]], 3, 4⟩,
    72057594037927936, 312338279020, 85184459781, ⟨[[(9269166882966, 0), (2763003076, 0), (1279203, 0), (469, 0)],
    [(0, 4579830151), (0, 6491201), (0, 5956), (0, 4)], [(7772975, 0), (18948, 0), (22, 0)], [(0, 17375), (0, 56)]],
    3, 4⟩, 17592186044416, 45750287,
    6041938989517316342006165761289593538527832367436042240026939773698208841809194668755597107916326600428795457247133920476929508,
    lc0⟩) (.leaf ⟨309, 16, 498, 159, 16, 3771, ⟨[[(0, 29371101927776256), (0, 13012643882215229), (951372970271, 0),
    (0, 48292930), (0, 17770)], [(42136765238380901, 0), (0, 11393954931593), (396752877, 0), (0, 227556), (0, 227)],
    [(53252886169403, 0), (0, 2858244828), (655346, 0), (671, 0)], [(29732599575, 0), (399641, 0), (0, 1798)]], 3,
    4⟩, ⟨[[(17289770259159040, 0), (0, 21339721104522732), (1159798361935, 0), (0, 30058105), (0, 26924)], [(0,
    19802972238093611), (0, 2458428077515), (116798369, 0), (0, 380325), (0, 447)], [(21360622850915, 0), (0,
    1571164683), (0, 684665), (0, 1061), (0, 1)], [(10077458483, 0), (1956267, 0), (1728, 0), (1, 0)]], 3, 4⟩,
    72057594037927936, 342249366960, 88146214647, ⟨[[(9267910634184, 0), (2782635539, 0), (1320491, 0), (481, 0)],
    [(0, 4569905552), (0, 6613846), (0, 6184), (0, 4)], [(7806927, 0), (19591, 0), (23, 0)], [(0, 17801), (0, 58)]],
    3, 4⟩, 17592186044416, 54285544,
    4843813434138593298288981795365795874856586792979757414687056821057053917401736126926860328679987803368647442146160376368513781,
    lc0⟩)) (.sy (.leaf ⟨319, 16, 467, 177, 16, 3804, ⟨[[(0, 7167952148754432), (0, 12645637094731989), (914155897089,
    0), (0, 44798431), (0, 16018)], [(43224089319025307, 0), (0, 10898909495750), (436897966, 0), (0, 115277), (0,
    191)], [(52522129779401, 0), (0, 2676123112), (335280, 0), (636, 0)], [(28606941100, 0), (1479503, 0), (0,
    1458)]], 3, 4⟩, ⟨[[(0, 29824366594199552), (0, 21780747315787330), (1181306444187, 0), (0, 32222540), (0,
    22437)], [(0, 18544813872363714), (0, 2584192385096), (170656503, 0), (0, 311281), (0, 363)], [(22519285123749,
    0), (0, 1348021148), (0, 324773), (0, 872)], [(10259650151, 0), (1818311, 0), (1583, 0), (1, 0)]], 3, 4⟩,
    72057594037927936, 260398563766, 88223232511, ⟨[[(9175550633901, 0), (2609142713, 0), (1147042, 0), (395, 0)],
    [(0, 4502744782), (0, 6035743), (0, 5336), (0, 3)], [(7545706, 0), (17536, 0), (20, 0)], [(0, 16602), (0, 52)]],
    3, 4⟩, 17592186044416, 44601443,
    6331437495875106129038192539611963644373405429321973752532631307247841043924530703130044761840692149137620951520144325191452413,
    lc0⟩) (.leaf ⟨310, 16, 474, 154, 16, 3819, ⟨[[(0, 9729228838400000), (0, 12691303984939515), (916550189580, 0),
    (0, 51530323), (0, 22965)], [(43011765388769975, 0), (0, 10995612227568), (408731312, 0), (0, 180910), (0, 217)],
    [(53099908719885, 0), (0, 2651417416), (490381, 0), (637, 0)], [(29143903425, 0), (1272167, 0), (0, 1464)]], 3,
    4⟩, ⟨[[(0, 20723059409903616), (0, 21682264165501693), (1177367721415, 0), (0, 42053822), (0, 40343)], [(0,
    18819422166660402), (0, 2574102759515), (83548827, 0), (0, 443833), (0, 481)], [(22500107806000, 0), (0,
    1421026055), (0, 547423), (0, 1020)], [(10452447616, 0), (2084461, 0), (1733, 0), (1, 0)]], 3, 4⟩,
    72057594037927936, 289292830054, 93325120128, ⟨[[(9175196848369, 0), (2627066400, 0), (1184085, 0), (403, 0)],
    [(0, 4498670757), (0, 6151660), (0, 5563), (0, 3)], [(7586740, 0), (18170, 0), (20, 0)], [(0, 16957), (0, 54)]],
    3, 4⟩, 17592186044416, 52758660,
    5143793676062697648287189921189427766713943308552261393773964992698683212025569421224762413268232680197263462153069696350888963,
    lc0⟩))) (.sx (.sy (.leaf ⟨299, 16, 506, 137, 16, 3786, ⟨[[(22982391906541568, 0), (0, 13071817727962772),
    (954414304982, 0), (0, 56025668), (0, 26984)], [(41912989990686757, 0), (0, 11518772964429), (340275008, 0), (0,
    307530), (0, 260)], [(53886204016401, 0), (0, 2787862976), (824940, 0), (678, 0)], [(30230739953, 0), (119041,
    0), (0, 1855)]], 3, 4⟩, ⟨[[(0, 15851295510917120), (0, 21243566579144113), (1156154518654, 0), (0, 41341298), (0,
    45209)], [(0, 20073748480684050), (0, 2457795559636), (9968750, 0), (0, 542181), (0, 583)], [(21317843892396, 0),
    (0, 1705106268), (0, 956386), (0, 1237), (0, 1)], [(10281610024, 0), (2246932, 0), (1895, 0), (1, 0)]], 3, 4⟩,
    72057594037927936, 374150829991, 91128229796, ⟨[[(9272654962428, 0), (2810234701, 0), (1370653, 0), (490, 0), (1,
    0)], [(0, 4578983732), (0, 6790064), (0, 6454), (0, 4)], [(7913243, 0), (20518, 0), (23, 0)], [(0, 18581), (0,
    62)]], 3, 4⟩, 17592186044416, 66709954,
    3414667225672793203424215923265003494173552005392795746237762164257517861992210312930107236580719534913669185931514197902924208,
    lc0⟩) (.leaf ⟨290, 16, 515, 114, 16, 3800, ⟨[[(23269689323126784, 0), (0, 13153881726500802), (956907595684, 0),
    (0, 67384386), (0, 39489)], [(41745981547351470, 0), (0, 11675856704672), (263004614, 0), (0, 401044), (0, 301)],
    [(54628768141161, 0), (0, 2693910783), (1000456, 0), (685, 0)], [(30766321787, 0), (0, 176618), (0, 1932)]], 3,
    4⟩, ⟨[[(21832395055836160, 0), (0, 21141948303840430), (1148801837836, 0), (0, 59072098), (0, 68124)], [(0,
    20340614977898574), (0, 2476438446054), (0, 140557251), (0, 750987), (0, 745)], [(21256731469868, 0), (0,
    1884996062), (0, 1273267), (0, 1441), (0, 1)], [(10507458195, 0), (2565482, 0), (2079, 0), (1, 0)]], 3, 4⟩,
    72057594037927936, 409149484919, 94135543840, ⟨[[(9271337103068, 0), (2831722391, 0), (1419186, 0), (481, 0), (1,
    0)], [(0, 4562539841), (0, 6929835), (0, 6665), (0, 4)], [(7946963, 0), (21353, 0), (23, 0)], [(0, 19219), (0,
    66)]], 3, 4⟩, 17592186044416, 81010199,
    2049562733506369527154570146918899487365537146318342812676262716897693185770068968402409054110311151121023285623912341445339434,
    lc0⟩)) (.sy (.leaf ⟨301, 16, 482, 131, 16, 3834, ⟨[[(14650470238822400, 0), (0, 12761112951758251),
    (918800272789, 0), (0, 61067096), (0, 32652)], [(42868002402427456, 0), (0, 11120142756882), (364207004, 0), (0,
    257021), (0, 249)], [(53789149028486, 0), (0, 2606599909), (649319, 0), (640, 0)], [(29727647245, 0), (1062019,
    0), (0, 1482)]], 3, 4⟩, ⟨[[(0, 10583980723589120), (0, 21583892827985483), (1170377852742, 0), (0, 58205627), (0,
    62777)], [(0, 19094628397335637), (0, 2580241059172), (0, 39654395), (0, 617537), (0, 623)], [(22473357903829,
    0), (0, 1532026190), (0, 808510), (0, 1193), (0, 1)], [(10667632460, 0), (2376388, 0), (1900, 0), (1, 0)]], 3,
    4⟩, 72057594037927936, 320791016550, 98615384096, ⟨[[(9176507571616, 0), (2647661127, 0), (1226268, 0), (404,
    0)], [(0, 4491684116), (0, 6278289), (0, 5801), (0, 3)], [(7622750, 0), (18880, 0), (20, 0)], [(0, 17392), (0,
    57)]], 3, 4⟩, 17592186044416, 63258648,
    3585543630193101146842002927367432821513787672477017215125921069439331756241548429062798386076051117775482156339482358746953790,
    lc0⟩) (.leaf ⟨292, 16, 490, 108, 16, 3849, ⟨[[(17165520103899136, 0), (0, 12828405389085621), (918170151252, 0),
    (0, 74289862), (0, 45601)], [(42699856197542510, 0), (0, 11252214715299), (299477625, 0), (0, 345415), (0, 287)],
    [(54479549345283, 0), (0, 2535068189), (811305, 0), (642, 0)], [(30296098439, 0), (844555, 0), (0, 1509)]], 3,
    4⟩, ⟨[[(618109854790656, 0), (0, 21486242054142451), (1158663874746, 0), (0, 82259118), (0, 90669)], [(0,
    19371940447657024), (0, 2609124671342), (0, 209668221), (0, 840510), (0, 793)], [(22435787694008, 0), (0,
    1687639330), (0, 1114119), (0, 1392), (0, 1)], [(10907406947, 0), (2696839, 0), (2085, 0), (1, 0)]], 3, 4⟩,
    72057594037927936, 354595120776, 104281179657, ⟨[[(9176428817388, 0), (2666734956, 0), (1270551, 0), (392, 0),
    (1, 0)], [(0, 4481064186), (0, 6406194), (0, 6037), (0, 3)], [(7653815, 0), (19671, 0), (20, 0)], [(0, 17907),
    (0, 61)]], 3, 4⟩, 17592186044416, 76798067,
    2009716379906306352532794787429979087858288035149311618689723244297669193430617278689175229830544384495856330000190800011987436,
    lc0⟩))))
theorem c92 : checkR job con1 true ⟨7, 9, 7, 9, 13, 17⟩ 1 9016 t92 670 14 320 4117 39 4000 = true := by decide +kernel

def t93 : CTree :=
  .sx (.sy (.sx (.sy (.leaf ⟨320, 16, 445, 172, 16, 3856, ⟨[[(31341187122900992, 0), (0, 12342668098409638),
    (882968653919, 0), (0, 45286235), (0, 20375)], [(44055125934619346, 0), (0, 10524311878930), (431093913, 0), (0,
    75637), (0, 183)], [(52363619368160, 0), (0, 2397041483), (210936, 0), (617, 0)], [(27850169061, 0), (2232133,
    0), (0, 1201)]], 3, 4⟩, ⟨[[(0, 3823398187988992), (0, 22152862713960960), (1202075572482, 0), (0, 42177727), (0,
    33379)], [(0, 17495356270105915), (0, 2691579315649), (158336528, 0), (0, 363619), (0, 392)], [(23710387911768,
    0), (0, 1204788158), (0, 193871), (0, 834)], [(10624535369, 0), (2012959, 0), (1620, 0), (1, 0)]], 3, 4⟩,
    72057594037927936, 192826582654, 80139773346, ⟨[[(9083540127893, 0), (2463176428, 0), (1026570, 0), (335, 0)],
    [(0, 4431081148), (0, 5609597), (0, 4780), (0, 2)], [(7338424, 0), (16191, 0), (18, 0)], [(0, 15950), (0, 48)]],
    3, 4⟩, 17592186044416, 43575149,
    6315637637464409850779404994186668613518477304216159393358857942130933780027388878243970690082900463218620540286192983603753533,
    lc0⟩) (.leaf ⟨312, 16, 452, 149, 16, 3871, ⟨[[(0, 1426481499021312), (0, 12397794432983554), (885260402441, 0),
    (0, 53490915), (0, 27708)], [(43916939138136530, 0), (0, 10623320085723), (412841402, 0), (0, 138280), (0, 208)],
    [(52999006228305, 0), (0, 2389944400), (359748, 0), (617, 0)], [(28457770172, 0), (2080202, 0), (0, 1179)]], 3,
    4⟩, ⟨[[(0, 25625388014393344), (0, 22051630950661497), (1195373744692, 0), (0, 56019455), (0, 54942)], [(0,
    17773395376592830), (0, 2684717176669), (57755950, 0), (0, 506252), (0, 516)], [(23706685912329, 0), (0,
    1255943895), (0, 406676), (0, 979)], [(10833675941, 0), (2285885, 0), (1774, 0), (1, 0)]], 3, 4⟩,
    72057594037927936, 219541008153, 86729584797, ⟨[[(9082406254746, 0), (2477446750, 0), (1057628, 0), (340, 0)],
    [(0, 4418375977), (0, 5694055), (0, 4979), (0, 2)], [(7342223, 0), (16688, 0), (18, 0)], [(0, 16084), (0, 50)]],
    3, 4⟩, 17592186044416, 50333418,
    5209999754116897288184979864113551673722916239593846616068756614720810755613782994061080803366984300073058886694517250957662123,
    lc0⟩)) (.sy (.leaf ⟨322, 16, 424, 168, 16, 3911, ⟨[[(12628364998680576, 0), (0, 12042719263297347),
    (852934726063, 0), (0, 44701654), (0, 24333)], [(44832849142344430, 0), (0, 10149957931115), (419425604, 0), (0,
    38658), (0, 177)], [(52138739009163, 0), (0, 2073426525), (110603, 0), (606, 0)], [(26907921198, 0), (2873590,
    0), (0, 1021)]], 3, 4⟩, ⟨[[(0, 16632777155786752), (0, 22546191083952771), (1223600037880, 0), (0, 53755360), (0,
    45312)], [(0, 16372685986983712), (0, 2793449006903), (153462952, 0), (0, 414720), (0, 421)], [(24961497234584,
    0), (0, 1042450569), (0, 57900), (0, 794)], [(10946488377, 0), (2230788, 0), (1656, 0), (1, 0)]], 3, 4⟩,
    72057594037927936, 108064209000, 55658519295, ⟨[[(8991261342688, 0), (2322315853, 0), (914149, 0), (286, 0)],
    [(0, 4355680144), (0, 5193627), (0, 4251), (0, 2)], [(7116798, 0), (14802, 0), (16, 0)], [(0, 15319), (0, 45)]],
    3, 4⟩, 17592186044416, 41969953,
    6206714278202558522206256139760175844839744788999010970500978472566551279252077030392046152757456845225329290174384446527704144,
    lc0⟩) (.leaf ⟨314, 16, 431, 144, 16, 3926, ⟨[[(22770948836192256, 0), (0, 12107162663726380), (855398745295, 0),
    (0, 54232706), (0, 32009)], [(44770815395124663, 0), (0, 10252084840965), (410357150, 0), (0, 98484), (0, 201)],
    [(52836097864386, 0), (0, 2078940960), (255298, 0), (605, 0)], [(27573802783, 0), (2763718, 0), (0, 980)]], 3,
    4⟩, ⟨[[(1212755551322112, 0), (0, 22442132090992217), (1213714264506, 0), (0, 71955522), (0, 70749)], [(0,
    16653482283398087), (0, 2788588681350), (39726529, 0), (0, 567465), (0, 550)], [(24974862183172, 0), (0,
    1070884506), (0, 260577), (0, 936)], [(11173548181, 0), (2510102, 0), (1812, 0), (1, 0)]], 3, 4⟩,
    72057594037927936, 130431520478, 62162386495, ⟨[[(8991409773149, 0), (2336825226, 0), (943211, 0), (290, 0)],
    [(0, 4343822566), (0, 5271165), (0, 4450), (0, 2)], [(7121305, 0), (15278, 0), (16, 0)], [(0, 15356), (0, 47)]],
    3, 4⟩, 17592186044416, 48369211,
    5177981317817744540027855906810815696985376203559570382056201502877222614174626899139407963144963585302351718382858352234553923,
    lc0⟩))) (.sx (.sy (.leaf ⟨303, 16, 459, 125, 16, 3886, ⟨[[(18680253453090816, 0), (0, 12450605353311906),
    (885123526638, 0), (0, 64527663), (0, 37749)], [(43758093135232905, 0), (0, 10725416521996), (378340527, 0), (0,
    210507), (0, 239)], [(53633003209093, 0), (0, 2358600385), (510643, 0), (616, 0)], [(29056050538, 0), (1928602,
    0), (0, 1160)]], 3, 4⟩, ⟨[[(25841136908636160, 0), (0, 21951022377838421), (1184526014784, 0), (0, 77452420), (0,
    81772)], [(0, 18052394705203835), (0, 2696399898697), (0, 81542559), (0, 691898), (0, 664)], [(23697236414944,
    0), (0, 1343402894), (0, 657050), (0, 1148), (0, 1)], [(11065805703, 0), (2585135, 0), (1944, 0), (1, 0)]], 3,
    4⟩, 72057594037927936, 247997205911, 93642215525, ⟨[[(9082032268840, 0), (2493941169, 0), (1094216, 0), (339,
    0)], [(0, 4411464346), (0, 5800273), (0, 5215), (0, 2)], [(7367110, 0), (17330, 0), (19, 0)], [(0, 16375), (0,
    53)]], 3, 4⟩, 17592186044416, 60266210,
    3654146424556644418603947273065053164454445796431188946459750744267805284677806523594366480852449992065027213451326049867838588,
    lc0⟩) (.leaf ⟨294, 16, 466, 102, 16, 3901, ⟨[[(19932385196830720, 0), (0, 12501572866270585), (881748282024, 0),
    (0, 79370202), (0, 51043)], [(43578313376011630, 0), (0, 10833438993880), (324877675, 0), (0, 294254), (0, 275)],
    [(54267608822792, 0), (0, 2302347640), (663494, 0), (615, 0)], [(29644794580, 0), (1776734, 0), (0, 1147)]], 3,
    4⟩, ⟨[[(6438963432295424, 0), (0, 21851843795304865), (1167528588450, 0), (0, 108311197), (0, 114917)], [(0,
    18334061684262313), (0, 2733599033012), (0, 270753326), (0, 928982), (0, 841)], [(23678936765583, 0), (0,
    1473631841), (0, 950980), (0, 1343), (0, 1)], [(11323172755, 0), (2913516, 0), (2133, 0), (1, 0)]], 3, 4⟩,
    72057594037927936, 278353181783, 100952781276, ⟨[[(9082984024642, 0), (2511276428, 0), (1134259, 0), (329, 0)],
    [(0, 4407066487), (0, 5917066), (0, 5468), (0, 2)], [(7400923, 0), (18071, 0), (19, 0)], [(0, 16779), (0, 57)]],
    3, 4⟩, 17592186044416, 72976422,
    1893444920415648412290193878960574999832715402201907421592886595857613118992971179720001307683123260541045614649360607730462431,
    lc0⟩)) (.sy (.leaf ⟨305, 16, 437, 120, 16, 3941, ⟨[[(34330707307610112, 0), (0, 12141477527354506),
    (853143065787, 0), (0, 66583223), (0, 42326)], [(44585756471917120, 0), (0, 10332118417179), (384983352, 0), (0,
    167178), (0, 229)], [(53409084981620, 0), (0, 2056374463), (401061, 0), (602, 0)], [(28170299833, 0), (2651520,
    0), (0, 939)]], 3, 4⟩, ⟨[[(20445143802051584, 0), (0, 22339280597559289), (1198496534644, 0), (0, 99092101), (0,
    102233)], [(0, 16935500120101897), (0, 2804536174005), (0, 115358042), (0, 765115), (0, 705)], [(24984379302501,
    0), (0, 1133883256), (0, 499936), (0, 1101), (0, 1)], [(11424168512, 0), (2816155, 0), (1985, 0), (1, 0)]], 3,
    4⟩, 72057594037927936, 153677282968, 68943314439, ⟨[[(8991647047053, 0), (2351522737, 0), (975130, 0), (290, 0)],
    [(0, 4343070502), (0, 5367358), (0, 4681), (0, 2)], [(7158059, 0), (15883, 0), (17, 0)], [(0, 15572), (0, 49)]],
    3, 4⟩, 17592186044416, 57648443,
    3635968448150571262437454626665369507654362020565420526440253947108697944707828725759198585577098267359241316106476886151448423,
    lc0⟩) (.leaf ⟨297, 16, 444, 97, 16, 3956, ⟨[[(6419507790331904, 0), (0, 12202063326588194), (849260674917, 0),
    (0, 83011013), (0, 55999)], [(44483420636667904, 0), (0, 10440158073325), (342544213, 0), (0, 247211), (0, 264)],
    [(54104409616386, 0), (0, 2014653001), (549247, 0), (600, 0)], [(28825977820, 0), (2549359, 0), (0, 901)]], 3,
    4⟩, ⟨[[(0, 31068826493550592), (0, 22238657383980761), (1175593070057, 0), (0, 137266145), (0, 140929)], [(0,
    17220641892013429), (0, 2848718482936), (0, 323471336), (0, 1016404), (0, 889)], [(24987094834733, 0), (0,
    1237759150), (0, 781865), (0, 1292), (0, 1)], [(11700631985, 0), (3151797, 0), (2176, 0), (1, 0)]], 3, 4⟩,
    72057594037927936, 178614612892, 76019456043, ⟨[[(8991871750029, 0), (2365265159, 0), (1008746, 0), (282, 0)],
    [(0, 4330481947), (0, 5449424), (0, 4914), (0, 1)], [(7152194, 0), (16443, 0), (18, 0)], [(0, 15719), (0, 52)]],
    3, 4⟩, 17592186044416, 67913754,
    1746303755395108762321991488066716914115153023218968136592270473479507200355693764957837276856967644746182546002898164162786031,
    lc0⟩)))) (.sy (.sx (.sy (.leaf ⟨325, 16, 405, 164, 16, 3970, ⟨[[(0, 5169486606417920), (0, 11776021492916976),
    (825992978887, 0), (0, 43273109), (0, 27995)], [(45673350046849792, 0), (0, 9799071275951), (404292204, 0), (0,
    3920), (0, 171)], [(51967721613883, 0), (0, 1723269370), (25373, 0), (600, 0)], [(25806522757, 0), (3356835, 0),
    (0, 958)]], 3, 4⟩, ⟨[[(8727264474961920, 0), (0, 22966490654934036), (1246411352871, 0), (0, 66972279), (0,
    58283)], [(0, 15174537053735381), (0, 2889391778839), (156423554, 0), (0, 464688), (0, 450)], [(26275027430117,
    0), (0, 861252345), (81293, 0), (0, 755)], [(11173673151, 0), (2410428, 0), (1641, 0), (1, 0)]], 3, 4⟩,
    72057594037927936, 37005892842, 19541016774, ⟨[[(8899729237131, 0), (2188400482, 0), (811894, 0), (244, 0)], [(0,
    4271805052), (0, 4793508), (0, 3755), (0, 1)], [(6864491, 0), (13387, 0), (14, 0)], [(0, 14686), (0, 41)]], 3,
    4⟩, 17592186044416, 39558620,
    5732231987941418633049366357457633295679227412886253244665401093620451500185673909324431958983266388482651967727635026347303192,
    lc0⟩) (.leaf ⟨317, 16, 411, 140, 16, 3986, ⟨[[(0, 8901021820252160), (0, 11820575890112978), (826832594647, 0),
    (0, 53888206), (0, 35905)], [(45576829054182592, 0), (0, 9880649143378), (402795542, 0), (0, 61044), (0, 193)],
    [(52601651689143, 0), (0, 1733738943), (166880, 0), (597, 0)], [(26448759306, 0), (3259524, 0), (0, 913)]], 3,
    4⟩, ⟨[[(0, 5254835255554048), (0, 22865178456105909), (1233225332429, 0), (0, 89917487), (0, 87849)], [(0,
    15461258292867129), (0, 2885969963919), (29826234, 0), (0, 627783), (0, 585)], [(26313594650462, 0), (0,
    866627046), (0, 111326), (0, 894)], [(11417792123, 0), (2688440, 0), (1794, 0), (1, 0)]], 3, 4⟩,
    72057594037927936, 24168180338, 18909938750, ⟨[[(8900020747220, 0), (2200425328, 0), (835942, 0), (249, 0)], [(0,
    4265201910), (0, 4860043), (0, 3936), (0, 1)], [(6887581, 0), (13828, 0), (15, 0)], [(0, 14677), (0, 43)]], 3,
    4⟩, 17592186044416, 45512720,
    4984923186497552957574381603806340743246474465071193651130194909802047236263913232458837376268430873503895043934567956531775528,
    lc0⟩)) (.sy (.leaf ⟨328, 16, 387, 161, 16, 4033, ⟨[[(0, 455949138432000), (0, 11516040337432190), (800097692709,
    0), (0, 41000061), (0, 31347)], [(46482172479744494, 0), (0, 9447863088017), (385455392, 0), (28905, 0), (0,
    165)], [(51722822071744, 0), (0, 1358494260), (0, 57186), (592, 0)], [(24441663668, 0), (3617341, 0), (0,
    1055)]], 3, 4⟩, ⟨[[(2115619900366848, 0), (0, 23413764915420016), (1270740787213, 0), (0, 81841400), (0, 72332)],
    [(0, 13893942148602489), (0, 2978430471657), (167361081, 0), (0, 513658), (0, 480)], [(27642124212765, 0), (0,
    667166054), (217273, 0), (0, 719)], [(11235357293, 0), (2468646, 0), (1515, 0), (1, 0)]], 3, 4⟩,
    72057594037927936, 159781922488, 97879255221, ⟨[[(8812358766840, 0), (2064131221, 0), (721035, 0), (210, 0)],
    [(0, 4197835843), (0, 4437011), (0, 3311), (0, 1)], [(6633771, 0), (12093, 0), (12, 0)], [(0, 14242), (0, 37)]],
    3, 4⟩, 17592186044416, 37536636,
    4850340133451976027843014795222883316451120144245052401567173659294570613351175252303648897865161836089073703258033142454046155,
    lc0⟩) (.leaf ⟨320, 16, 392, 136, 16, 4050, ⟨[[(0, 23587448005677056), (0, 11539220146359567), (799471236307, 0),
    (0, 52575627), (0, 39434)], [(46338645898425829, 0), (0, 9508812312380), (390958260, 0), (0, 25798), (0, 186)],
    [(52283674644107, 0), (0, 1374214113), (80934, 0), (587, 0)], [(25036831659, 0), (3500691, 0), (0, 1027)]], 3,
    4⟩, ⟨[[(26216392327968768, 0), (0, 23315040963866089), (1253825436088, 0), (0, 109919426), (0, 106281)], [(0,
    14185046155848846), (0, 2975158946571), (28154599, 0), (0, 687230), (0, 621)], [(27707353127768, 0), (0,
    649909514), (33908, 0), (0, 856)], [(11485593395, 0), (2726255, 0), (1650, 0), (1, 0)]], 3, 4⟩,
    72057594037927936, 155360993525, 103853598214, ⟨[[(8810365417011, 0), (2072253640, 0), (739760, 0), (214, 0)],
    [(0, 4191413797), (0, 4485948), (0, 3467), (0, 1)], [(6666449, 0), (12465, 0), (13, 0)], [(0, 14163), (0, 39)]],
    3, 4⟩, 17592186044416, 42916879,
    4493236375486694647794282343784100272517553628562586165138601388181694251867666570425317390097445655863472511350848469175072839,
    lc0⟩))) (.sx (.sy (.leaf ⟨309, 16, 417, 116, 16, 4001, ⟨[[(0, 29494922338484224), (0, 11863341642725988),
    (824664601817, 0), (0, 67547251), (0, 46536)], [(45462692196739209, 0), (0, 9962652334113), (386741978, 0), (0,
    126811), (0, 221)], [(53233669511816, 0), (0, 1721645838), (309752, 0), (594, 0)], [(27087306912, 0), (3167054,
    0), (0, 869)]], 3, 4⟩, ⟨[[(0, 20639887009973248), (0, 22759947752867791), (1213110104382, 0), (0, 123210099), (0,
    124270)], [(0, 15745534174029822), (0, 2904848437718), (0, 140819746), (0, 837606), (0, 747)], [(26343642216572,
    0), (0, 904628099), (0, 339791), (0, 1055), (0, 1)], [(11682523065, 0), (2991900, 0), (1963, 0), (1, 0)]], 3, 4⟩,
    72057594037927936, 36190311731, 18966480278, ⟨[[(8899428013241, 0), (2211923540, 0), (861807, 0), (249, 0)], [(0,
    4256486856), (0, 4925599), (0, 4134), (0, 1)], [(6895835, 0), (14279, 0), (15, 0)], [(0, 14683), (0, 45)]], 3,
    4⟩, 17592186044416, 52774757,
    3617243702326304605229021251701379585993982965999385690576772369225151629620410131831988964449855806819077016763966243219787598,
    lc0⟩) (.leaf ⟨300, 16, 423, 92, 16, 4016, ⟨[[(5370404981239808, 0), (0, 11904884522513342), (818622417000, 0),
    (0, 85226466), (0, 60425)], [(45330880921726235, 0), (0, 10047586121208), (353688512, 0), (0, 202992), (0, 254)],
    [(53865597263061, 0), (0, 1686473291), (453830, 0), (590, 0)], [(27722384877, 0), (3079392, 0), (0, 827)]], 3,
    4⟩, ⟨[[(0, 34584716352350208), (0, 22657835321106557), (1183654599913, 0), (0, 169249310), (0, 168853)], [(0,
    16033280813264443), (0, 2954642800036), (0, 367654950), (0, 1103336), (0, 939)], [(26368982104045, 0), (0,
    981635354), (0, 609870), (0, 1243), (0, 1)], [(11972904627, 0), (3324188, 0), (2149, 0), (1, 0)]], 3, 4⟩,
    72057594037927936, 52518446904, 22390659601, ⟨[[(8902137773603, 0), (2227180117, 0), (893926, 0), (245, 0)], [(0,
    4259061861), (0, 5017612), (0, 4385), (0, 1)], [(6933992, 0), (14888, 0), (16, 0)], [(0, 14853), (0, 48)]], 3,
    4⟩, 17592186044416, 63390423,
    1796863413373149897863797106755405012755642909799941188580336113738229936369237044913662003451772735281949145376013156514780367,
    lc0⟩)) (.sy (.leaf ⟨311, 16, 397, 112, 16, 4065, ⟨[[(12102356506836992, 0), (0, 11561147934314135),
    (795634209803, 0), (0, 67239684), (0, 50215)], [(46180941778964654, 0), (0, 9569176383872), (382670136, 0), (0,
    88551), (0, 212)], [(52842781840641, 0), (0, 1368174026), (219707, 0), (582, 0)], [(25626465130, 0), (3386043,
    0), (0, 1003)]], 3, 4⟩, ⟨[[(0, 25717290490316800), (0, 23207306370309022), (1228281329654, 0), (0, 149833974),
    (0, 147932)], [(0, 14470684887474245), (0, 2995617220138), (0, 157832609), (0, 909378), (0, 789)],
    [(27758874119076, 0), (0, 663593294), (0, 184645), (0, 1014), (0, 1)], [(11751925254, 0), (3005618, 0), (1798,
    0), (1, 0)]], 3, 4⟩, 72057594037927936, 152066856050, 111344546154, ⟨[[(8814056682583, 0), (2086622212, 0),
    (764752, 0), (217, 0)], [(0, 4201786571), (0, 4568246), (0, 3673), (0, 1)], [(6739211, 0), (12998, 0), (14, 0)],
    [(0, 14255), (0, 41)]], 3, 4⟩, 17592186044416, 50810386,
    3462857006810277472922301412675277218276048498301308091198250067216108472406661538106724398170050441326716864461559680686605263,
    lc0⟩) (.leaf ⟨303, 16, 403, 87, 16, 4080, ⟨[[(16915988465410048, 0), (0, 11611229292468674), (789672957047, 0),
    (0, 86166297), (0, 64369)], [(46123526746131090, 0), (0, 9655262268230), (359224895, 0), (0, 161418), (0, 244)],
    [(53534718813203, 0), (0, 1343346630), (359865, 0), (578, 0)], [(26275746589, 0), (3281079, 0), (0, 985)]], 3,
    4⟩, ⟨[[(0, 4018339974831104), (0, 23103672449458770), (1191620527414, 0), (0, 204304405), (0, 198746)], [(0,
    14760030234349824), (0, 3049635587463), (0, 403208193), (0, 1189753), (0, 989)], [(27807723260859, 0), (0,
    714581247), (0, 443987), (0, 1198), (0, 1)], [(12041886894, 0), (3310379, 0), (1963, 0), (1, 0)]], 3, 4⟩,
    72057594037927936, 150452433886, 120693361364, ⟨[[(8813893329841, 0), (2097419371, 0), (790186, 0), (215, 0)],
    [(0, 4192173854), (0, 4623771), (0, 3885), (0, 1)], [(6739587, 0), (13421, 0), (15, 0)], [(0, 14182), (0, 44)]],
    3, 4⟩, 17592186044416, 59509678,
    2002720865556240472908866061782137521708795842657052162811649240368756346151638075193640066990781656020871161434587211617050030,
    lc0⟩))))
theorem c93 : checkR job con1 true ⟨7, 9, 7, 9, 13, 17⟩ 1 9016 t93 698 14 320 4117 39 4000 = true := by decide +kernel

def t94 : CTree :=
  .sx (.sy (.sx (.sy (.leaf ⟨331, 16, 369, 159, 16, 4101, ⟨[[(0, 35765233155026944), (0, 11233585106701486),
    (773108287188, 0), (0, 37875835), (0, 34330)], [(47136398556448037, 0), (0, 9072688618275), (361885173, 0),
    (59468, 0), (0, 160)], [(51252671755660, 0), (0, 997841936), (0, 151821), (573, 0)], [(22706938156, 0), (3582006,
    0), (0, 1353)]], 3, 4⟩, ⟨[[(0, 31429399397943296), (0, 23893821665840847), (1297137249784, 0), (0, 98408954), (0,
    87528)], [(0, 12527514912253301), (0, 3060847246861), (185952779, 0), (0, 562155), (0, 510)], [(29054057318475,
    0), (0, 474457802), (337454, 0), (0, 694)], [(11044358516, 0), (2297286, 0), (1195, 0)]], 3, 4⟩,
    72057594037927936, 304706145804, 214313480635, ⟨[[(8725139658715, 0), (1944451568, 0), (637619, 0), (180, 0)],
    [(0, 4132364604), (0, 4110811), (0, 2902), (0, 1)], [(6410385, 0), (10886, 0), (11, 0)], [(0, 13997), (0, 34)]],
    3, 4⟩, 17592186044416, 35843223,
    3844031735444005333817028408534264503129499046677525969812024861776485655142990648095741621565376516703175773157370908885525330,
    lc0⟩) (.leaf ⟨323, 16, 374, 133, 16, 4118, ⟨[[(0, 19948726678491136), (0, 11264332725365662), (773242327487, 0),
    (0, 50408581), (0, 42632)], [(47060098438836974, 0), (0, 9137621034334), (374773013, 0), (7025, 0), (0, 180)],
    [(51867603863591, 0), (0, 1024851879), (0, 19593), (567, 0)], [(23289460575, 0), (3416607, 0), (0, 1373)]], 3,
    4⟩, ⟨[[(25861732212948992, 0), (0, 23791664711314816), (1275741025321, 0), (0, 132000698), (0, 126106)], [(0,
    12818333190256695), (0, 3055747103536), (34248901, 0), (0, 746246), (0, 657)], [(29139051021958, 0), (0,
    437046569), (160857, 0), (0, 828)], [(11277545625, 0), (2500721, 0), (1288, 0)]], 3, 4⟩, 72057594037927936,
    313543619256, 230333964395, ⟨[[(8724501319661, 0), (1953266071, 0), (654555, 0), (185, 0)], [(0, 4126500729), (0,
    4154164), (0, 3044), (0, 1)], [(6461095, 0), (11226, 0), (12, 0)], [(0, 13854), (0, 35)]], 3, 4⟩, 17592186044416,
    40811357,
    3672662360216510891857487082300493399081257971211084563620361277195683924500074712443089714376622736351244035070463751233598796,
    lc0⟩)) (.leaf ⟨237, 16, 255, 77, 16, 2252, ⟨[[(11453173370834944, 0), (0, 15793990010155953), (2152060344639, 0),
    (0, 232817622), (0, 471722)], [(34348330426227721, 0), (0, 12566985654228), (992207540, 0), (361399, 0), (0,
    1891)], [(36688392127757, 0), (0, 1000441045), (0, 621431), (3059, 0), (0, 1)], [(15026803540, 0), (4410870, 0),
    (0, 5616), (0, 2)]], 3, 4⟩, ⟨[[(33370591787363328, 0), (0, 26225331074615545), (2829628195510, 0), (0,
    580557081), (0, 1073167)], [(0, 6037702459544175), (0, 3370678977700), (289780842, 0), (0, 3025762), (0, 5293)],
    [(16442393542125, 0), (0, 300237665), (727346, 0), (0, 3241), (0, 4)], [(5695915060, 0), (1944718, 0), (1256,
    0)]], 3, 4⟩, 72057594037927936, 407040453150, 400350196883, ⟨[[(8641229421679, 0), (3413173453, 0), (1973083, 0),
    (1007, 0)], [(0, 5662778420), (0, 9923185), (0, 12500), (0, 7)], [(12041132, 0), (35800, 0), (67, 0)], [(0,
    37220), (0, 156)]], 3, 4⟩, 17592186044416, 445347742,
    3266758352171152768026070740197094761990901713520025991620017943260523846521221483708986682306452625146960991634233666586505095,
    lc0⟩)) (.sx (.sy (.leaf ⟨315, 16, 379, 108, 16, 4134, ⟨[[(0, 18219669706993664), (0, 11293705898479158),
    (769930584502, 0), (0, 66119858), (0, 53641)], [(46969288234713664, 0), (0, 9200761990041), (374528863, 0), (0,
    53194), (0, 205)], [(52480164101193, 0), (0, 1031248304), (112956, 0), (560, 0)], [(23862395305, 0), (3244588,
    0), (0, 1401)]], 3, 4⟩, ⟨[[(9401966392088576, 0), (0, 23686995391336238), (1244527049413, 0), (0, 179067135), (0,
    173337)], [(0, 13107583604094304), (0, 3077259742366), (0, 167013343), (0, 981169), (0, 833)], [(29218615806078,
    0), (0, 429625769), (0, 50547), (0, 985), (0, 1)], [(11525233436, 0), (2719523, 0), (1390, 0)]], 3, 4⟩,
    72057594037927936, 325219861622, 249236063217, ⟨[[(8725111204719, 0), (1962988873, 0), (673403, 0), (187, 0)],
    [(0, 4123992340), (0, 4202549), (0, 3207), (0, 1)], [(6504854, 0), (11592, 0), (13, 0)], [(0, 13742), (0, 37)]],
    3, 4⟩, 17592186044416, 47045168,
    3116107471923275028255291270955786943884960425615025546094135074927146068399343727443800863135281387369212561199744407533258382,
    lc0⟩) (.leaf ⟨307, 16, 384, 83, 16, 4150, ⟨[[(0, 30369888912101376), (0, 11322337531807001), (762272884390, 0),
    (0, 85976728), (0, 67878)], [(46864083843433307, 0), (0, 9264336790325), (358962742, 0), (0, 122804), (0, 235)],
    [(53091980045935, 0), (0, 1016723852), (245609, 0), (553, 0)], [(24424946125, 0), (3064490, 0), (0, 1440)]], 3,
    4⟩, ⟨[[(0, 6229493579919360), (0, 23587411302878671), (1200269054284, 0), (0, 242634490), (0, 230814)], [(0,
    13400789530561058), (0, 3134981343926), (0, 431044141), (0, 1276842), (0, 1041)], [(29297263397164, 0), (0,
    458289076), (0, 302363), (0, 1167), (0, 1)], [(11791482310, 0), (2955872, 0), (1502, 0)]], 3, 4⟩,
    72057594037927936, 340115755161, 271486517072, ⟨[[(8724979976540, 0), (1971743416, 0), (693648, 0), (187, 0)],
    [(0, 4120225532), (0, 4247971), (0, 3391), (0, 1)], [(6531064, 0), (11958, 0), (13, 0)], [(0, 13629), (0, 39)]],
    3, 4⟩, 17592186044416, 54689303,
    2082702482803753214871319913364028311776942096199085609583690191656805253848974106979018873058919093339456773515239287549307523,
    lc0⟩)) (.sy (.leaf ⟨319, 16, 362, 105, 16, 4209, ⟨[[(0, 27811565542793216), (0, 11033899624310461),
    (745463426656, 0), (0, 64159993), (0, 56752)], [(47722398706411529, 0), (0, 8836181785012), (360087591, 0), (0,
    21221), (0, 199)], [(51997885374872, 0), (0, 739792418), (0, 34651), (516, 0)], [(21670635873, 0), (2649788, 0),
    (0, 2125)]], 3, 4⟩, ⟨[[(16838051816057856, 0), (0, 24204742607556966), (1262331294136, 0), (0, 211064987), (0,
    200635)], [(0, 11652440800027353), (0, 3151599658947), (0, 170149828), (0, 1054334), (0, 878)], [(30701450089698,
    0), (0, 235031068), (36355, 0), (0, 980), (0, 1)], [(10866440662, 0), (1956770, 0), (605, 0)]], 3, 4⟩,
    72057594037927936, 534151197671, 441011342019, ⟨[[(8639910354100, 0), (1847640915, 0), (592588, 0), (162, 0)],
    [(0, 4054617694), (0, 3879616), (0, 2788), (0, 1)], [(6281929, 0), (10332, 0), (11, 0)], [(0, 13463), (0, 33)]],
    3, 4⟩, 17592186044416, 43581006,
    2490511592483291408193732829011538913901932064585446058945068027594579234609274915214417814907592527716371456837888070129950206,
    lc0⟩) (.leaf ⟨311, 16, 367, 79, 16, 4224, ⟨[[(0, 2210186918367232), (0, 11069705484843530), (738282133435, 0),
    (0, 85046487), (0, 71201)], [(47685009227162587, 0), (0, 8902065466424), (352374467, 0), (0, 88288), (0, 228)],
    [(52657619749908, 0), (0, 746054714), (85100, 0), (504, 0)], [(22166169982, 0), (2341894, 0), (0, 2266), (0,
    1)]], 3, 4⟩, ⟨[[(30260046380922880, 0), (0, 24097654658391276), (1209175063574, 0), (0, 284272185), (0, 265079)],
    [(0, 11942243607902546), (0, 3210549576671), (0, 452988444), (0, 1365245), (0, 1094)], [(30792200707868, 0), (0,
    249182884), (0, 214161), (0, 1163), (0, 1)], [(11062056345, 0), (2059404, 0), (620, 0)]], 3, 4⟩,
    72057594037927936, 568677942604, 482039542452, ⟨[[(8641076845115, 0), (1857427362, 0), (610773, 0), (164, 0)],
    [(0, 4051734676), (0, 3919790), (0, 2954), (0, 1)], [(6326802, 0), (10656, 0), (12, 0)], [(0, 13274), (0, 35)]],
    3, 4⟩, 17592186044416, 50544908,
    1876746910419390057528684623544359888793916674665759180238505082316018771190200370922751227353775565834432958185311228449980529,
    lc0⟩)))) (.sy (.sx (.leaf ⟨242, 16, 246, 76, 16, 2271, ⟨[[(3890576786919424, 0), (0, 15576679418432620),
    (2102303668046, 0), (0, 212576580), (0, 506678)], [(35151354950175867, 0), (0, 12168176674688), (908835052, 0),
    (507841, 0), (0, 1865)], [(36566034103578, 0), (0, 647530937), (0, 1168069), (2696, 0), (0, 1)], [(13343425126,
    0), (3172934, 0), (0, 8327), (0, 5)]], 3, 4⟩, ⟨[[(0, 4838041563909120), (0, 26541968279183557), (2862275375756,
    0), (0, 673460226), (0, 1234570)], [(0, 5147075329764162), (0, 3412332316245), (334609681, 0), (0, 3235442), (0,
    5545)], [(17036544695810, 0), (0, 187131805), (746784, 0), (0, 3341), (0, 4)], [(5047883149, 0), (676667, 0), (0,
    1127), (0, 2)]], 3, 4⟩, 72057594037927936, 571328660119, 542065453337, ⟨[[(8559630148914, 0), (3248849457, 0),
    (1777432, 0), (888, 0)], [(0, 5530135012), (0, 9229711), (0, 10980), (0, 6)], [(11327034, 0), (31794, 0), (59,
    0)], [(0, 36301), (0, 136)]], 3, 4⟩, 17592186044416, 392382186,
    1879083017164828687183512224978312247646120620876255390505471694437487049269456433617955984922594057620408313677044772963656085,
    lc0⟩) (.leaf ⟨246, 16, 236, 75, 16, 2291, ⟨[[(0, 21353416607209472), (0, 15270769172603166), (2040182915012, 0),
    (0, 188381104), (0, 536927)], [(35715855971208087, 0), (0, 11702473536823), (787393668, 0), (618967, 0), (0,
    1847)], [(36091519246583, 0), (0, 439073850), (0, 1955111), (2065, 0), (0, 1)], [(11201654506, 0), (1127450, 0),
    (0, 12134), (0, 8)]], 3, 4⟩, ⟨[[(0, 16400679861788672), (0, 26872245061757906), (2897482063424, 0), (0,
    773487011), (0, 1405066)], [(0, 4218729141672319), (0, 3452820533113), (374482227, 0), (0, 3460123), (0, 5810)],
    [(17572760409584, 0), (0, 213374818), (514423, 0), (0, 3686), (0, 4)], [(4036349579, 0), (0, 1422103), (0, 4785),
    (0, 6)]], 3, 4⟩, 72057594037927936, 756841606157, 719501716073, ⟨[[(8476954241404, 0), (3089355972, 0), (1598295,
    0), (779, 0)], [(0, 5432115142), (0, 8637998), (0, 9637), (0, 6)], [(10649869, 0), (28425, 0), (52, 0)], [(0,
    36470), (0, 121)]], 3, 4⟩, 17592186044416, 359802526,
    2158029184598209352430194507740542048376616840797756383401140575987622136720633388083579589899104789687365664311656896590533029,
    lc0⟩)) (.sx (.leaf ⟨230, 16, 251, 48, 16, 2298, ⟨[[(0, 3658543884670976), (0, 15563694286512991), (2072751846231,
    0), (0, 413817066), (0, 766135)], [(34903218680716512, 0), (0, 12265194183414), (973796053, 0), (0, 145896), (0,
    2386)], [(37251732750131, 0), (0, 798150719), (0, 581924), (2457, 0), (0, 1)], [(13813100495, 0), (1819055, 0),
    (0, 9745), (0, 6)]], 3, 4⟩, ⟨[[(183757836205568, 0), (0, 26420938939590623), (2680085579757, 0), (0, 1219051515),
    (0, 2260649)], [(0, 5477318029974889), (0, 3471866448694), (0, 668306355), (0, 5499558), (0, 8837)],
    [(17227167759503, 0), (0, 140902500), (0, 187783), (0, 4750), (0, 5)], [(5153298919, 0), (464966, 0), (0, 1697),
    (0, 3)]], 3, 4⟩, 72057594037927936, 675358045966, 706253908364, ⟨[[(8558764942597, 0), (3261996546, 0), (1848784,
    0), (923, 0)], [(0, 5538031485), (0, 9368373), (0, 12042), (0, 6)], [(11726383, 0), (33651, 0), (67, 0)], [(0,
    35478), (0, 150)]], 3, 4⟩, 17592186044416, 528952812,
    2097124885528347416086485122111297080099519997191836063741769771656866896941948209021270683455506338874549590118957239075900164,
    lc0⟩) (.leaf ⟨235, 16, 242, 46, 16, 2319, ⟨[[(12614240966871040, 0), (0, 15337322493791695), (2024046592577, 0),
    (0, 401214089), (0, 803947)], [(35693026993820649, 0), (0, 11866247639221), (881578532, 0), (0, 25408), (0,
    2368)], [(36962739217939, 0), (0, 726925353), (0, 1559592), (1678, 0), (0, 2)], [(11496612015, 0), (0, 954086),
    (0, 14703), (0, 11)]], 3, 4⟩, ⟨[[(34879279022295040, 0), (0, 26760598667565072), (2685485026059, 0), (0,
    1389424083), (0, 2535069)], [(0, 4542496409818514), (0, 3512399396110), (0, 692327780), (0, 5827602), (0, 9210)],
    [(17771922558319, 0), (0, 211091045), (0, 514793), (0, 5189), (0, 5)], [(3941081456, 0), (0, 2306731), (0, 6327),
    (0, 7)]], 3, 4⟩, 72057594037927936, 902302433824, 928001559464, ⟨[[(8477222370066, 0), (3102731661, 0), (1658706,
    0), (819, 0)], [(0, 5408479576), (0, 8707719), (0, 10509), (0, 5)], [(11061376, 0), (29724, 0), (59, 0)], [(0,
    34822), (0, 130)]], 3, 4⟩, 17592186044416, 461258854,
    1571096323403730897959209300750088019654991270103534152733242130273883612753605674774074713681966674876000152812821963613104973,
    lc0⟩)))
theorem c94 : checkR job con1 true ⟨7, 9, 7, 9, 13, 17⟩ 1 9016 t94 726 14 320 4117 39 4000 = true := by decide +kernel

def t95 : CTree :=
  .sx (.sy (.sx (.leaf ⟨251, 16, 228, 74, 16, 2311, ⟨[[(11903094827515904, 0), (0, 15070000581908779),
    (1990557625854, 0), (0, 163890923), (0, 569823)], [(36481674047585403, 0), (0, 11329035040956), (623282562, 0),
    (686912, 0), (0, 1872)], [(35692425651497, 0), (0, 447321513), (0, 3098015), (1106, 0), (0, 2)], [(8700249382,
    0), (0, 1840695), (0, 17372), (0, 13)]], 3, 4⟩, ⟨[[(0, 2483984117051392), (0, 27204573447615179), (2933628373051,
    0), (0, 881032687), (0, 1584692)], [(0, 3254405422456249), (0, 3500653698686), (391665469, 0), (0, 3715478), (0,
    6098)], [(18008121367360, 0), (0, 461069606), (0, 95841), (0, 4394), (0, 4)], [(2558758911, 0), (0, 4617547), (0,
    10110), (0, 11)]], 3, 4⟩, 72057594037927936, 973876070253, 938611385311, ⟨[[(8399012865820, 0), (2944669724, 0),
    (1445671, 0), (685, 0)], [(0, 5325796225), (0, 8096462), (0, 8458), (0, 5)], [(9824839, 0), (25229, 0), (45, 0)],
    [(0, 36714), (0, 109)]], 3, 4⟩, 17592186044416, 320565949,
    3813615690481201947644737407158651109793499511000774924677256251275468087159647736327416936378551804590473352718252442236416002,
    lc0⟩) (.sy (.sy (.out ⟨377, 16, 354, 6392, 16, 7975, ⟨[[(501125394718720, 0), (0, 6018480112823195),
    (195508208096, 0)], [(60291018904839899, 0), (0, 4418419394402), (32102866, 0)], [(56405239190782, 0), (0,
    189023939), (0, 470783)]], 2, 2⟩, ⟨[[(10213113674792960, 0), (0, 24890879351866542), (684525056862, 0)], [(0,
    7744973164921010), (0, 3234930143203), (153232619, 0)], [(65836915459573, 0), (0, 878674453), (0, 175137)]], 2,
    2⟩, 72057594037927936, 27799394888239, 14077193862323, ⟨[], 0, 0⟩, 0, 0, 0, lc0⟩ 0 203 13) (.out ⟨373, 16, 356,
    6369, 16, 7980, ⟨[[(0, 28685530147225600), (0, 6021851308280362), (196056193096, 0)], [(60285269173377609, 0),
    (0, 4437949896314), (37218959, 0)], [(56706204873633, 0), (0, 263972227), (0, 473952)]], 2, 2⟩,
    ⟨[[(17755717337546752, 0), (0, 24800503639869348), (673520850897, 0)], [(0, 8001470643873235), (0,
    3216607463248), (106602301, 0)], [(65808410275609, 0), (0, 911845677), (0, 243816)]], 2, 2⟩, 72057594037927936,
    27680271654375, 13056896196618, ⟨[], 0, 0⟩, 0, 0, 0, lc0⟩ 0 1425 68)) (.leaf ⟨345, 16, 301, 129, 16, 4542,
    ⟨[[(23731824443715584, 0), (0, 10105684050358817), (658525302628, 0), (0, 32157725), (0, 55977)],
    [(50532968244411858, 0), (0, 7488690388713), (145331602, 0), (90992, 0), (0, 174)], [(47913806507682, 0), (0,
    634456401), (0, 1613758), (0, 91)], [(7603172746, 0), (0, 4696973), (0, 8681), (0, 4)]], 3, 4⟩, ⟨[[(0,
    15833185128042496), (0, 26718823979086704), (1416154617800, 0), (0, 279275247), (0, 250597)], [(0,
    4540759337899891), (0, 3470282868586), (53367899, 0), (0, 1109938), (0, 876)], [(35612817462544, 0), (0,
    1064475492), (0, 773434), (0, 1473), (0, 1)], [(607944709, 0), (0, 9671196), (0, 9075), (0, 5)]], 3, 4⟩,
    72057594037927936, 1594837071295, 1828828896781, ⟨[[(8321155404570, 0), (1445495695, 0), (348704, 0), (83, 0)],
    [(0, 3841342994), (0, 2883874), (0, 1470)], [(4898939, 0), (6247, 0), (5, 0)], [(0, 14731), (0, 21)]], 3, 4⟩,
    17592186044416, 28768464,
    4867608368660112502357138990278714686526217324524764810852018768386092738359706757949825504839007090096098187745056929198916592,
    lc0⟩))) (.sx (.leaf ⟨240, 16, 233, 45, 16, 2340, ⟨[[(12466295203563520, 0), (0, 15087412863061307),
    (1971014549647, 0), (0, 385974987), (0, 839232)], [(36382801902797696, 0), (0, 11469130645687), (726209980, 0),
    (36469, 0), (0, 2384)], [(36420697578576, 0), (0, 934275253), (0, 2977165), (466, 0), (0, 2)], [(8629404110, 0),
    (0, 4921506), (0, 21365), (0, 17)]], 3, 4⟩, ⟨[[(23064944243374592, 0), (0, 27102408883158416), (2689662692748,
    0), (0, 1570948433), (0, 2822621)], [(0, 3571345058232289), (0, 3564571703058), (0, 747496863), (0, 6194790), (0,
    9611)], [(18194805199652, 0), (0, 572451260), (0, 1320326), (0, 6081), (0, 6)], [(2158469447, 0), (0, 6485066),
    (0, 13062), (0, 13)]], 3, 4⟩, 72057594037927936, 1161088476144, 1201584404446, ⟨[[(8398009123082, 0),
    (2953161251, 0), (1489692, 0), (723, 0)], [(0, 5299247011), (0, 8139121), (0, 9150), (0, 5)], [(10371720, 0),
    (26355, 0), (51, 0)], [(0, 34930), (0, 113)]], 3, 4⟩, 17592186044416, 405798729,
    2092038292427119916846868502951515347443559150283331610999091813027455189425850974002219266577674218905360025692535564779096830,
    lc0⟩) (.leaf ⟨246, 16, 225, 45, 16, 2362, ⟨[[(0, 2605137603780608), (0, 14880338688388066), (1920221647175, 0),
    (0, 371794634), (0, 876913)], [(37120434920050546, 0), (0, 11141025390056), (484871064, 0), (14706, 0), (0,
    2459)], [(35743821079952, 0), (0, 1521182934), (0, 4986173), (0, 1307), (0, 3)], [(5179284396, 0), (0, 10294527),
    (0, 30096), (0, 26)]], 3, 4⟩, ⟨[[(0, 32736040182598656), (0, 27458590341521621), (2692442695931, 0), (0,
    1765955596), (0, 3125766)], [(0, 2573137029438836), (0, 3650111516430), (0, 866910037), (0, 6634889), (0,
    10065)], [(18448349240092, 0), (0, 1363149228), (0, 2811181), (0, 7622), (0, 7)], [(0, 340846379), (0, 12473247),
    (0, 22492), (0, 22)]], 3, 4⟩, 72057594037927936, 1459541378795, 1536134592338, ⟨[[(8320819556875, 0),
    (2810953815, 0), (1338981, 0), (634, 0)], [(0, 5190522132), (0, 7615954), (0, 7918), (0, 5)], [(9531835, 0),
    (23217, 0), (43, 0)], [(0, 35349), (0, 99)]], 3, 4⟩, 17592186044416, 349660218,
    2972411622160248364357987154538695263702646164316645708711829317430642293302321475664360863015622400543846598306718047413913967,
    lc0⟩))) (.sy (.out ⟨155, 16, 136, 1723, 16, 2164, ⟨[[(1218537996627968, 0), (0, 9464392266485586),
    (1199780947571, 0)], [(49593199483546459, 0), (0, 13687893510760), (0, 195446180)], [(87585983665919, 0), (0,
    5014714218), (0, 21431330)]], 2, 2⟩, ⟨[[(0, 20562461031006208), (0, 26993495319174948), (2905917368717, 0)], [(0,
    1419757338972860), (0, 7258337951616), (268005218, 0)], [(70571870100360, 0), (0, 10878196961), (0, 17129221)]],
    2, 2⟩, 72057594037927936, 33103387812541, 206723621120950, ⟨[], 0, 0⟩, 0, 0, 0, lc0⟩ 0 182 25) (.sx (.sy (.leaf
    ⟨344, 16, 292, 101, 16, 4662, ⟨[[(0, 15745270286499840), (0, 9908130660992208), (632305180270, 0), (0, 49031194),
    (0, 70364)], [(51068584382254537, 0), (0, 7307077993417), (41235194, 0), (12594, 0), (0, 207)], [(46801908498969,
    0), (0, 1544881972), (0, 2530197), (0, 572)], [(1825743969, 0), (0, 10557474), (0, 13135), (0, 6)]], 3, 4⟩,
    ⟨[[(6778994170072064, 0), (0, 27305131797801889), (1368054088636, 0), (0, 421429172), (0, 370814)], [(0,
    2901989736600704), (0, 3678190120785), (0, 341864612), (0, 1565257), (0, 1168)], [(36192016901737, 0), (0,
    2508293471), (0, 2287850), (0, 2297), (0, 1)], [(0, 6526918542), (0, 18967363), (0, 16299), (0, 8)]], 3, 4⟩,
    72057594037927936, 2128321559740, 2694883454687, ⟨[[(8241616829531, 0), (1362088021, 0), (311215, 0), (72, 0)],
    [(0, 3780858311), (0, 2698393), (0, 1304)], [(4582703, 0), (5562, 0), (5, 0)], [(0, 14983), (0, 20)]], 3, 4⟩,
    17592186044416, 29062608,
    7638089958069877738444295485706841481222573878847438718226582735287528963668349747520296029469923315254356874764309918876214898,
    lc0⟩) (.leaf ⟨337, 16, 295, 72, 16, 4679, ⟨[[(0, 33748609437745152), (0, 9911318808277829), (624452876233, 0),
    (0, 73836863), (0, 85216)], [(51017705429315465, 0), (0, 7375828427820), (36700208, 0), (0, 56425), (0, 235)],
    [(47145169563715, 0), (0, 1970869510), (0, 2706988), (0, 713)], [(928996335, 0), (0, 12845818), (0, 14703), (0,
    6)]], 3, 4⟩, ⟨[[(0, 6415716761006080), (0, 27198979281884990), (1259255032329, 0), (0, 555067309), (0, 477770)],
    [(0, 3203395114488783), (0, 3776146871782), (0, 756619339), (0, 1977092), (0, 1438)], [(36112528968882, 0), (0,
    2919678807), (0, 2873651), (0, 2637), (0, 1)], [(0, 8138981379), (0, 21739299), (0, 18326), (0, 9)]], 3, 4⟩,
    72057594037927936, 2320192226908, 2979682771479, ⟨[[(8241133793053, 0), (1367022459, 0), (316354, 0), (75, 0)],
    [(0, 3761377370), (0, 2701802), (0, 1348)], [(4784153, 0), (5735, 0), (5, 0)], [(0, 14484), (0, 19)]], 3, 4⟩,
    17592186044416, 32216984,
    2887856544478044772513349650048196025733965838374971354150236156847208144920890871949429992537790227896615746509503516611327725,
    lc0⟩)) (.out ⟨226, 16, 205, 1758, 16, 2246, ⟨[[(0, 31068120219682816), (0, 14132665547426951), (1754236846718,
    0)], [(37489200287467767, 0), (0, 10437671312012), (0, 396658564)], [(32702285731583, 0), (0, 4187644469), (0,
    11159022)]], 2, 2⟩, ⟨[[(0, 17276067251568640), (0, 27626806175021269), (2625944296734, 0)], [(0,
    530366770533018), (0, 3964641524369), (0, 1469451156)], [(17771720111036, 0), (0, 4880284165), (0, 8779675)]], 2,
    2⟩, 72057594037927936, 39074685532600, 173443824152400, ⟨[], 0, 0⟩, 0, 0, 0, lc0⟩ 0 164 17)))
theorem c95 : checkR job con1 true ⟨7, 9, 7, 9, 13, 17⟩ 1 9016 t95 754 14 320 4117 39 4000 = true := by decide +kernel

def t96 : CTree :=
  .sx (.sx (.out ⟨83, 16, 453, 205, 16, 160, ⟨[[(0, 28144377083479040), (0, 11349100433562493), (0, 1419581168428)],
    [(55268466621768494, 0), (0, 465391154355688), (0, 413450764818)], [(0, 2603197270811280), (0, 1683012289862),
    (0, 11237206631)]], 2, 2⟩, ⟨[[(24888656427522048, 0), (0, 8009857881247347), (0, 5535397821789)], [(0,
    97830411653359232), (0, 144115978318751), (0, 741635036678)], [(747297643664048, 0), (0, 1563076676793), (0,
    15072822093)]], 2, 2⟩, 72057594037927936, 21712504542592071, 7804463744626229, ⟨[], 0, 0⟩, 0, 0, 0, lc0⟩ 1 1
    486051583333749) (.out ⟨103, 16, 533, 194, 16, 165, ⟨[[(26020267930434560, 0), (0, 20999107022581173), (0,
    8560619860059)], [(7211248825549597, 0), (0, 512522071338703), (0, 291412358727)], [(0, 1180702674392612),
    (4743461672866, 0), (29860948122, 0)]], 2, 2⟩, ⟨[[(10633742165592064, 0), (0, 10459514604606200), (0,
    17983288492872)], [(0, 80695604394021120), (0, 149973113500218), (0, 877194420204)], [(706900253908575, 0),
    (1636400102142, 0), (7817810611, 0)]], 2, 2⟩, 72057594037927936, 23251722884668326, 9207696117550485, ⟨[], 0, 0⟩,
    0, 0, 0, lc0⟩ 1 1 272047787389110)) (.sy (.sx (.out ⟨198, 16, 958, 293, 16, 263, ⟨[[(0, 22220142895847424), (0,
    24086366846453025), (0, 246381154374)], [(0, 4145550882826842), (0, 314099663388660), (397412608255, 0)], [(0,
    468243595528978), (5713731153263, 0), (20537070712, 0)]], 2, 2⟩, ⟨[[(0, 35294437756825600), (0,
    8863373846160693), (0, 8372427409227)], [(0, 95548965971662281), (0, 43702682144155), (0, 132173725387)],
    [(968934409799091, 0), (2335821595343, 0), (7005706225, 0)]], 2, 2⟩, 72057594037927936, 11922314915982700,
    3233798838792645, ⟨[], 0, 0⟩, 0, 0, 0, lc0⟩ 1 1 144676080418868) (.sy (.sx (.out ⟨397, 16, 1866, 683, 16, 636,
    ⟨[[(21086064415227904, 0), (0, 26337207312997136), (3073460396995, 0)], [(0, 3661388451999746), (0,
    116910097201898), (176975292459, 0)], [(0, 43698876366095), (730776541378, 0), (1723037208, 0)]], 2, 2⟩, ⟨[[(0,
    6030074683932672), (0, 10561354698781217), (0, 4707641731219)], [(0, 93017448741362213), (2992295039239, 0),
    (5329530472, 0)], [(459769950630221, 0), (595293432875, 0), (933160026, 0)]], 2, 2⟩, 72057594037927936,
    961537089074309, 1053316521291577, ⟨[], 0, 0⟩, 0, 0, 0, lc0⟩ 1 1 62552185437700) (.sy (.sx (.out ⟨794, 16, 3664,
    1463, 16, 1383, ⟨[[(0, 26502475900059648), (0, 27194091461920351), (2479042819286, 0)], [(0, 2027791624096735),
    (0, 56118705178264), (48358356659, 0)], [(0, 10003573915352), (49762151632, 0), (125415899, 0)]], 2, 2⟩,
    ⟨[[(8521196958318592, 0), (0, 11194459834292475), (0, 2300835624566)], [(0, 91631243344757449), (7457919402156,
    0), (6104768122, 0)], [(211203280612909, 0), (129123977382, 0), (103377292, 0)]], 2, 2⟩, 72057594037927936,
    109623852672537, 280626200081618, ⟨[], 0, 0⟩, 0, 0, 0, lc0⟩ 1 1 29289606766836) (.sy (.sx (.out ⟨1586, 16, 7254,
    3029, 16, 2883, ⟨[[(0, 33150807626104832), (0, 27615032096595545), (1472512981674, 0)], [(0, 1076542511760557),
    (0, 28563576915221), (12204905001, 0)], [(0, 2873585674659), (0, 4906065416), (9724226, 0)]], 2, 2⟩,
    ⟨[[(5405375856476160, 0), (0, 11483258260069366), (0, 1117409404748)], [(0, 91270700178067584), (5057148175421,
    0), (2069114240, 0)], [(100042438713663, 0), (28880904690, 0), (11707306, 0)]], 2, 2⟩, 72057594037927936,
    22481505127626, 70552603859187, ⟨[], 0, 0⟩, 0, 0, 0, lc0⟩ 1 1 14318633901612) (.leaf ⟨2526, 16, 7290, 844, 16,
    3151, ⟨[[(22469129143386112, 0), (0, 28155653160734375), (1653207316695, 0), (136140663, 0), (29680, 0)], [(0,
    1143583290054228), (0, 29000841493335), (12486336076, 0), (2601317, 0), (491, 0)], [(0, 1535994431377), (0,
    16237857738), (5980600, 0), (1548, 0)], [(31515000074, 0), (0, 273259571), (0, 91791), (0, 23)]], 3, 4⟩,
    ⟨[[(3320885741568000, 0), (0, 11873665866227348), (0, 1130651782016), (0, 365423194), (0, 63574)], [(0,
    92174584483277678), (6066782942691, 0), (2480547987, 0), (598164, 0), (111, 0)], [(98025112898784, 0),
    (27249839624, 0), (11143899, 0), (2900, 0)], [(0, 145570406780), (0, 68721183), (0, 25591), (0, 6)]], 3, 4⟩,
    72057594037927936, 74050301533, 16299374982, ⟨[[(19730024608654, 0), (24464015665, 0), (8495738, 0), (0, 38709),
    (0, 446)], [(0, 10336064510), (0, 19820697), (23159, 0), (0, 58), (1, 0)], [(11190994, 0), (0, 8042), (0, 95),
    (1, 0)], [(0, 9697), (83, 0)]], 3, 4⟩, 17592186044416, 6008362,
    9217935741009588388916445479650790609749619271674381110965040128732566643059606087067864514022655492393264401392481908958613906,
    lc0⟩)) (.out ⟨679, 16, 694, 12514, 16, 12468, ⟨[[(0, 13060438919372800)], [(156274907069756197, 0)]], 2, 2⟩,
    ⟨[[(0, 29822836732461056), (28075440077027673, 0)]], 2, 2⟩, 72057594037927936, 1738, 13668, ⟨[], 0, 0⟩, 0, 0, 0,
    lc0⟩ 2 1 14081))) (.out ⟨332, 16, 347, 6280, 16, 6234, ⟨[[(0, 13060438919372800)], [(156274907069756197, 0)]], 2,
    2⟩, ⟨[[(0, 29822836732395520), (28075440077027673, 0)]], 2, 2⟩, 72057594037927936, 1738, 51942, ⟨[], 0, 0⟩, 0, 0,
    0, lc0⟩ 2 1 27673))) (.out ⟨158, 16, 173, 3163, 16, 3117, ⟨[[(0, 9907919180216320)], [(155824547107019154, 0)]],
    2, 2⟩, ⟨[[(0, 29822836732428288), (28075440077027673, 0)]], 2, 2⟩, 72057594037927936, 1282, 19174, ⟨[], 0, 0⟩, 0,
    0, 0, lc0⟩ 2 1 53343))) (.out ⟨71, 16, 86, 1604, 16, 1558, ⟨[[(0, 3602879701896192)], [(154923827181545051, 0)]],
    2, 2⟩, ⟨[[(0, 30876679045251072), (28066432877772931, 0)]], 2, 2⟩, 72057594037927936, 285, 1052, ⟨[], 0, 0⟩, 0,
    0, 0, lc0⟩ 2 1 98396))
theorem c96 : checkR job con2 true ⟨7, 9, 7, 9, 13, 17⟩ 1 9016 t96 13 7 20 2039 39 2000 = true := by decide +kernel

end PyX.Kron.V3a
