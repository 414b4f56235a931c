import Verif.Lemmas.T3aJob

/-!
# The temperature from pressure and enthalpy in subregion 3a, part D of the certificate
-/

namespace PyX.Kron.T3a

set_option Elab.async false

def t67 : CTree :=
  .sy (.sx (.sy (.leaf ⟨355, 16, 632, 395, 16, 2656, ⟨[[(24707084524126208, 0), (0, 12396345045653153),
    (1134490716942, 0), (59192968, 0), (68789, 0)], [(42112756857651977, 0), (0, 24242421924056), (0, 357792010), (0,
    1234869), (0, 458)], [(137222889036879, 0), (0, 12521709682), (6875298, 0), (3039, 0)], [(196537809509, 0), (0,
    1221857), (4775, 0), (7, 0)]], 3, 4⟩, ⟨[[(0, 5233995774959616), (0, 13844239059361702), (651313796959, 0), (0,
    78500199), (0, 3461)], [(0, 40639697627715584), (0, 1104123584229), (1273652434, 0), (856039, 0), (304, 0)],
    [(31180858108261, 0), (0, 11093181589), (0, 7135005), (0, 4433), (0, 2)], [(42482785112, 0), (29182705, 0),
    (25079, 0), (11, 0)]], 3, 4⟩, 72057594037927936, 4266696518173, 309233305209, ⟨[[(14941328504050, 0),
    (2593866418, 0), (0, 1992413), (0, 620)], [(2526757961, 0), (8472185, 0), (11912, 0), (12, 0)], [(0, 7109685),
    (0, 31042), (0, 78)], [(20972, 0), (149, 0), (1, 0)]], 3, 4⟩, 17592186044416, 37104477,
    5172154562254323692390279009114980948476752500692046051340750888288180111798045840748325850121104109905441265250685849121919566,
    lc0⟩) (.sx (.leaf ⟨501, 16, 937, 519, 16, 3589, ⟨[[(30352486559260672, 0), (0, 17862981332463360),
    (1713809273609, 0), (135721241, 0), (117124, 0)], [(28421164983006459, 0), (0, 17911317999582), (0, 570367585),
    (0, 1058857), (0, 379)], [(48997309960863, 0), (0, 4227900391), (2760236, 0), (1122, 0)], [(35886151869, 0),
    (312219, 0), (1568, 0), (1, 0)]], 3, 4⟩, ⟨[[(0, 10562606696923136), (0, 18564508794439506), (840577248070, 0),
    (0, 115975152), (0, 1689)], [(0, 27792341622553591), (0, 481199659261), (1083960826, 0), (689639, 0), (216, 0)],
    [(9907432195899, 0), (0, 4392773073), (0, 2981856), (0, 1769), (0, 1)], [(7572959115, 0), (5841212, 0), (4829,
    0), (2, 0)]], 3, 4⟩, 72057594037927936, 371728936781, 21263891709, ⟨[[(14869087052845, 0), (1840841478, 0), (0,
    1201279), (0, 358)], [(1811730742, 0), (4672425, 0), (5414, 0), (5, 0)], [(0, 3615129), (0, 12924), (0, 29)],
    [(8285, 0), (52, 0)]], 3, 4⟩, 17592186044416, 6670905,
    4955632920452039406396044842734029647167269535856222444152257909705540815340978512521139610257586263238042221202736983111847926,
    lc0⟩) (.leaf ⟨487, 16, 889, 511, 16, 3612, ⟨[[(0, 19520926195642368), (0, 17426876495170025), (1612945059632, 0),
    (101502780, 0), (101181, 0)], [(29649376268861586, 0), (0, 17218267730025), (0, 391567892), (0, 941970), (0,
    350)], [(49389348116171, 0), (0, 4016398253), (2713092, 0), (1169, 0)], [(35055523098, 0), (0, 411102), (755, 0),
    (1, 0)]], 3, 4⟩, ⟨[[(30305861808771072, 0), (0, 18700378164789018), (874261855206, 0), (0, 98634923), (3872, 0)],
    [(0, 27394128464014359), (0, 718370074558), (934061902, 0), (599222, 0), (182, 0)], [(10612205721771, 0), (0,
    3945609580), (0, 2604777), (0, 1608), (0, 1)], [(7642227563, 0), (5429219, 0), (4566, 0), (2, 0)]], 3, 4⟩,
    72057594037927936, 366993175713, 11693240507, ⟨[[(14869344106465, 0), (1909700398, 0), (0, 1114163), (0, 299)],
    [(1768313582, 0), (4471675, 0), (4841, 0), (4, 0)], [(0, 3567858), (0, 11884), (0, 23)], [(7641, 0), (42, 0)]],
    3, 4⟩, 17592186044416, 5835055,
    4468984477408535929088343582899824778145411641814513197478683015138543021442342677592098983352284938491199074056504763661108417,
    lc0⟩))) (.sy (.leaf ⟨331, 16, 560, 387, 16, 2712, ⟨[[(0, 18921731958603776), (0, 11594315278067464),
    (1001199914258, 0), (24039715, 0), (49910, 0)], [(44542262003927616, 0), (0, 22109051289536), (28766059, 0), (0,
    931397), (0, 383)], [(136678570431948, 0), (0, 11425796072), (6163667, 0), (3087, 0)], [(185264641823, 0), (0,
    6585314), (0, 2486), (4, 0)]], 3, 4⟩, ⟨[[(35247377471463424, 0), (0, 14175957198962737), (696292367731, 0), (0,
    58994499), (3905, 0)], [(0, 39611186670933083), (0, 1695662202377), (950078470, 0), (645491, 0), (224, 0)],
    [(35502020946673, 0), (0, 9042873801), (0, 5280296), (0, 3660), (0, 1)], [(43784435758, 0), (24453750, 0),
    (22012, 0), (9, 0)]], 3, 4⟩, 72057594037927936, 4099030479811, 170769075262, ⟨[[(14941601768234, 0), (2740500432,
    0), (0, 1699837), (0, 446)], [(2444356808, 0), (7903560, 0), (10018, 0), (7, 0)], [(0, 7275783), (0, 28526), (0,
    57)], [(21102, 0), (120, 0)]], 3, 4⟩, 17592186044416, 45810301,
    2395027751264727525312809269100889453029484867724188227028379045175802714157741591705948656417383126274641421928071066149511463,
    lc0⟩) (.leaf ⟨327, 16, 575, 373, 16, 2719, ⟨[[(0, 14642733547397120), (0, 11743956355741287), (1035724909493, 0),
    (41444291, 0), (56148, 0)], [(43964371232769737, 0), (0, 22714868855261), (0, 209045056), (0, 1084856), (0,
    432)], [(139464545250796, 0), (0, 10685821308), (7087587, 0), (3319, 0), (1, 0)], [(189685855186, 0), (0,
    7094008), (0, 1705), (4, 0)]], 3, 4⟩, ⟨[[(11763166049779712, 0), (0, 14104715460954521), (684437344490, 0), (0,
    57332631), (7886, 0)], [(0, 39839920495399607), (0, 1539215377100), (1111914950, 0), (713918, 0), (202, 0)],
    [(34852488430715, 0), (0, 9961786627), (0, 6205908), (0, 4135), (0, 2)], [(45948662185, 0), (28139233, 0),
    (24411, 0), (11, 0)]], 3, 4⟩, 72057594037927936, 4082983243951, 183846022993, ⟨[[(14869932089088, 0),
    (2684339175, 0), (0, 1800709), (0, 563)], [(2444453217, 0), (8100111, 0), (10860, 0), (10, 0)], [(0, 7258889),
    (0, 29882), (0, 65)], [(21198, 0), (133, 0), (1, 0)]], 3, 4⟩, 17592186044416, 51611274,
    3636622616168780848668004341597983382331166324700477680865633436326144182853573998286275307874196613560623269575006076242676964,
    lc0⟩))) (.sx (.sy (.sx (.leaf ⟨496, 16, 963, 501, 16, 3605, ⟨[[(0, 27973523783778304), (0, 18081093444455910),
    (1798526885779, 0), (178688348, 0), (130881, 0)], [(27769852425383648, 0), (0, 18520391821460), (0, 855573003),
    (0, 1216359), (0, 432)], [(50035780136279, 0), (0, 3881275717), (3113446, 0), (1212, 0)], [(36917482050, 0),
    (600218, 0), (1973, 0), (2, 0)]], 3, 4⟩, ⟨[[(3743749116084224, 0), (0, 18517681957173622), (817093050898, 0), (0,
    115848233), (6150, 0)], [(0, 27946981728395237), (0, 300442955958), (1258679847, 0), (758750, 0), (206, 0)],
    [(9588345578135, 0), (0, 4913326032), (0, 3436087), (0, 1996), (0, 1)], [(8094901033, 0), (6663718, 0), (5370,
    0), (2, 0)]], 3, 4⟩, 72057594037927936, 361207169580, 10832242981, ⟨[[(14798560629888, 0), (1794659421, 0), (0,
    1271860), (0, 465)], [(1801397942, 0), (4791987, 0), (6028, 0), (7, 0)], [(0, 3630734), (0, 14035), (0, 35)],
    [(9186, 0), (64, 0)]], 3, 4⟩, 17592186044416, 8505372,
    4713684306301273895474641939425983025279422982806432578721355962535695456640569818414274751445606379158063306185660003622017099,
    lc0⟩) (.leaf ⟨480, 16, 912, 493, 16, 3627, ⟨[[(7927054480162816, 0), (0, 17617509462421117), (1682938651215, 0),
    (137902384, 0), (112638, 0)], [(29035770604289445, 0), (0, 17744736809951), (0, 641390329), (0, 1084333), (0,
    398)], [(50363263368098, 0), (0, 3663859944), (3071083, 0), (1262, 0)], [(35934836592, 0), (0, 279756), (1048,
    0), (1, 0)]], 3, 4⟩, ⟨[[(20988690139512832, 0), (0, 18642883374945516), (854944134846, 0), (0, 96704257), (11413,
    0)], [(0, 27558158393228603), (0, 563712588129), (1085225962, 0), (656333, 0), (167, 0)], [(10330537939578, 0),
    (0, 4400696649), (0, 3016649), (0, 1817), (0, 1)], [(8128063498, 0), (6204542, 0), (5075, 0), (2, 0)]], 3, 4⟩,
    72057594037927936, 357827570626, 21866423587, ⟨[[(14797252621378, 0), (1860149683, 0), (0, 1182813), (0, 389)],
    [(1770567292, 0), (4610272, 0), (5382, 0), (6, 0)], [(0, 3599031), (0, 12883), (0, 29)], [(8362, 0), (52, 0)]],
    3, 4⟩, 17592186044416, 7594217,
    4721532494853933432005974867078916520821558474336358869786891942530613740596870913153367969460484749120226727406015683776481147,
    lc0⟩)) (.sx (.leaf ⟨490, 16, 990, 483, 16, 3621, ⟨[[(0, 32866158445236224), (0, 18295990035957163),
    (1896978905437, 0), (227327187, 0), (145059, 0)], [(27057391842895854, 0), (0, 19200557157771), (0, 1188995702),
    (0, 1396923), (0, 495)], [(51147497618464, 0), (0, 3467624563), (3500313, 0), (1315, 0)], [(38013815398, 0),
    (964151, 0), (2426, 0), (2, 0)]], 3, 4⟩, ⟨[[(15171347079266304, 0), (0, 18473944077270863), (793830690853, 0),
    (0, 112939720), (16125, 0)], [(0, 28086495821504014), (0, 90255496307), (1449959599, 0), (824115, 0), (190, 0)],
    [(9223983119354, 0), (0, 5511604702), (0, 3949027), (0, 2254), (0, 1)], [(8686863958, 0), (7579078, 0), (5973,
    0), (3, 0)]], 3, 4⟩, 72057594037927936, 346319080023, 24305905491, ⟨[[(14727530872174, 0), (1744113726, 0), (0,
    1354141), (0, 613)], [(1797314241, 0), (4959575, 0), (6877, 0), (10, 0)], [(0, 3713930), (0, 15792), (0, 46)],
    [(10827, 0), (83, 0)]], 3, 4⟩, 17592186044416, 11326812,
    4773708059683140614094403961565552265241637428308782568192915148208094624822502521733266863515902066183738870461506441992218751,
    lc0⟩) (.leaf ⟨474, 16, 937, 475, 16, 3643, ⟨[[(0, 12627342745468928), (0, 17827900540431495), (1766556559439, 0),
    (179147929, 0), (124344, 0)], [(28405123442248037, 0), (0, 18355091636191), (0, 935141191), (0, 1248786), (0,
    456)], [(51470040595705, 0), (0, 3247976557), (3467044, 0), (1370, 0)], [(36904614522, 0), (0, 96616), (1373, 0),
    (1, 0)]], 3, 4⟩, ⟨[[(19447997602533376, 0), (0, 18592911065494180), (836514427310, 0), (0, 92131497), (20914,
    0)], [(0, 27716940345334555), (0, 383816605122), (1250137609, 0), (708186, 0), (145, 0)], [(10012014680107, 0),
    (0, 4927441010), (0, 3483226), (0, 2054), (0, 1)], [(8682098458, 0), (7068928, 0), (5643, 0), (2, 0)]], 3, 4⟩,
    72057594037927936, 345061636664, 38487088254, ⟨[[(14726869895599, 0), (1812713805, 0), (0, 1252669), (0, 503)],
    [(1765260160, 0), (4743502, 0), (6001, 0), (8, 0)], [(0, 3636011), (0, 14111), (0, 37)], [(9494, 0), (66, 0)]],
    3, 4⟩, 17592186044416, 10016648,
    4452827448823505382278299847342728509634904421435302329804112048514991460302715545182242171465502301231254956234571218657165019,
    lc0⟩))) (.sy (.leaf ⟨323, 16, 592, 359, 16, 2726, ⟨[[(33193909734727680, 0), (0, 11923928123109061),
    (1078499713792, 0), (61450231, 0), (62514, 0)], [(43438188919234121, 0), (0, 23441266195493), (0, 493381907), (0,
    1262951), (0, 492)], [(142775745695907, 0), (0, 9799996206), (8116802, 0), (3592, 0), (1, 0)], [(194715375601,
    0), (0, 7508667), (0, 869), (4, 0)]], 3, 4⟩, ⟨[[(0, 9057076255162368), (0, 14035012481012621), (673095849402, 0),
    (0, 54252685), (12972, 0)], [(0, 40055726055068014), (0, 1355838697390), (1289285033, 0), (774059, 0), (170, 0)],
    [(34123313945378, 0), (0, 11036827935), (0, 7252519), (0, 4674), (0, 2)], [(48421510415, 0), (32229171, 0),
    (27077, 0), (12, 0)]], 3, 4⟩, 72057594037927936, 4044406689019, 377146787260, ⟨[[(14797348978060, 0),
    (2622393903, 0), (0, 1915441), (0, 722)], [(2445843567, 0), (8328358, 0), (11869, 0), (14, 0)], [(0, 7245162),
    (0, 31650), (0, 78)], [(21896, 0), (154, 0), (1, 0)]], 3, 4⟩, 17592186044416, 59026567,
    4702983969236544933076488424121730008335358707659945961359486141508430036909045562921294149351235936277642258388844602082324033,
    lc0⟩) (.sx (.leaf ⟨460, 16, 888, 468, 16, 3667, ⟨[[(3469451856576512, 0), (0, 17385084879940933), (1651960370744,
    0), (137684863, 0), (105937, 0)], [(29734262322850405, 0), (0, 17568533220735), (0, 699861946), (0, 1108156), (0,
    418)], [(51755054750884, 0), (0, 3124303920), (3358396, 0), (1387, 0)], [(35907461807, 0), (0, 996740), (432, 0),
    (1, 0)]], 3, 4⟩, ⟨[[(0, 23626250436288512), (0, 18729954088772861), (874633454231, 0), (0, 74346272), (24541,
    0)], [(0, 27314683850521157), (0, 647841151768), (1075068477, 0), (602743, 0), (104, 0)], [(10808423385712, 0),
    (0, 4387944462), (0, 3046298), (0, 1868), (0, 1)], [(8647814175, 0), (6494030, 0), (5262, 0), (2, 0)]], 3, 4⟩,
    72057594037927936, 347520118931, 48235154757, ⟨[[(14727618673501, 0), (1876403842, 0), (0, 1160595), (0, 413)],
    [(1732305250, 0), (4550781, 0), (5301, 0), (6, 0)], [(0, 3590022), (0, 12856), (0, 29)], [(8507, 0), (53, 0)]],
    3, 4⟩, 17592186044416, 8890666,
    4444403762337383372774353984091735383458311517637327336987353796067177237794497897173047845122909623914232661032016980454881808,
    lc0⟩) (.leaf ⟨447, 16, 841, 460, 16, 3692, ⟨[[(13333011074650112, 0), (0, 16933155997024446), (1548464754243, 0),
    (102058527, 0), (89425, 0)], [(30986086255246034, 0), (0, 16807216622616), (0, 484373028), (0, 974164), (0,
    383)], [(51911674976996, 0), (0, 3071587297), (3181297, 0), (1372, 0)], [(34954962757, 0), (0, 1722379), (0,
    387), (1, 0)]], 3, 4⟩, ⟨[[(21278573979934720, 0), (0, 18879233611918402), (908612713333, 0), (0, 59286072),
    (27084, 0)], [(0, 26871112696280626), (0, 884796396219), (922749289, 0), (506804, 0), (66, 0)], [(11608826221329,
    0), (0, 3896424236), (0, 2641073), (0, 1696), (0, 1)], [(8593517282, 0), (5871833, 0), (4840, 0), (2, 0)]], 3,
    4⟩, 72057594037927936, 352165727198, 53400928750, ⟨[[(14726294095867, 0), (1940279719, 0), (0, 1074543), (0,
    341)], [(1692483535, 0), (4363290, 0), (4735, 0), (5, 0)], [(0, 3556577), (0, 11903), (0, 22)], [(7804, 0), (42,
    0)]], 3, 4⟩, 17592186044416, 8016224,
    3920966310696018044070015240337101075790917881150908662356087941633514188032915282277628621156618621679333435614448790141205777,
    lc0⟩))))
theorem c67 : checkR job con1 false ⟨7, 9, 7, 9, 13, 17⟩ 1 30400 t67 586 14 320 4039 39 4000 = true := by decide +kernel

def t68 : CTree :=
  .sy (.sx (.sy (.leaf ⟨310, 16, 497, 381, 16, 2777, ⟨[[(18814969820741632, 0), (0, 10847464734044728),
    (893488748214, 0), (395572, 0), (35088, 0)], [(46719175929209655, 0), (0, 20206411831496), (322236181, 0), (0,
    667411), (0, 318)], [(135560378540751, 0), (0, 10786707092), (5049651, 0), (2919, 0)], [(175226860822, 0), (0,
    9223703), (0, 7680), (1, 0)]], 3, 4⟩, ⟨[[(30593864084226048, 0), (0, 14571078840570654), (736453961233, 0), (0,
    44636910), (9368, 0)], [(0, 38419198476382706), (0, 2200571126367), (719861845, 0), (472456, 0), (156, 0)],
    [(40127244118338, 0), (0, 7404483197), (0, 3686828), (0, 3011), (0, 1)], [(45026883465, 0), (19117330, 0),
    (18377, 0), (8, 0)]], 3, 4⟩, 72057594037927936, 3963946796211, 164516057024, ⟨[[(14940762726994, 0), (2853349208,
    0), (0, 1447168), (0, 343)], [(2361388894, 0), (7397111, 0), (8703, 0), (4, 0)], [(0, 7491836), (0, 27085), (0,
    45)], [(22666, 0), (110, 0)]], 3, 4⟩, 17592186044416, 65109790,
    4908404296439629253190835412605910718069770511643918281913109346754410878812106306568603353501400432681364960066729998311547241,
    lc0⟩) (.leaf ⟨306, 16, 509, 367, 16, 2783, ⟨[[(0, 14118294071033856), (0, 10966548410286379), (916511215843, 0),
    (12159551, 0), (39347, 0)], [(46234720633652489, 0), (0, 20655919088916), (157805405, 0), (0, 789998), (0, 357)],
    [(138004685170861, 0), (0, 10185085332), (5885427, 0), (3115, 0)], [(178673587358, 0), (0, 10651819), (0, 7597),
    (1, 0)]], 3, 4⟩, ⟨[[(0, 35746956094033920), (0, 14488223355097756), (727957651215, 0), (0, 41314628), (12657,
    0)], [(0, 38669603220751634), (0, 2083859585524), (837557654, 0), (517449, 0), (123, 0)], [(39611189376663, 0),
    (0, 8054279950), (0, 4446301), (0, 3414), (0, 1)], [(46734406509, 0), (22179689, 0), (20347, 0), (9, 0)]], 3, 4⟩,
    72057594037927936, 4003289505780, 198102827040, ⟨[[(14872043777921, 0), (2806376686, 0), (0, 1526148), (0, 415)],
    [(2364352622, 0), (7562660, 0), (9310, 0), (6, 0)], [(0, 7492387), (0, 28154), (0, 49)], [(22388, 0), (116, 0)]],
    3, 4⟩, 17592186044416, 70465758,
    4382048025768699010122160275806168169813496086192022767194663243652138471123570406306265815326278548320922078471081277299279657,
    lc0⟩)) (.sy (.sx (.leaf ⟨440, 16, 674, 498, 16, 3732, ⟨[[(27170779848904704, 0), (0, 15292673762769444),
    (1223781953892, 0), (0, 16713402), (38727, 0)], [(35699180434451822, 0), (0, 14017221971237), (354333147, 0), (0,
    368684), (0, 206)], [(49795071892275, 0), (0, 3867965627), (1509850, 0), (1003, 0)], [(31192928366, 0), (0,
    1742726), (0, 1888)]], 3, 4⟩, ⟨[[(0, 8231318299635712), (0, 19648286959286712), (1008067431308, 0), (0,
    48345366), (16326, 0)], [(0, 24643160904897211), (0, 1671936346179), (395064291, 0), (239021, 0), (74, 0)],
    [(14436899109983, 0), (0, 2129018343), (0, 882942), (0, 861)], [(7602265063, 0), (2491082, 0), (2563, 0), (1,
    0)]], 3, 4⟩, 72057594037927936, 355836393611, 20320273039, ⟨[[(14942407371012, 0), (2219343161, 0), (0, 731268),
    (0, 127)], [(1540719518, 0), (3578486, 0), (3042, 0), (1, 0)], [(0, 3454043), (0, 8935), (0, 11)], [(7341, 0),
    (25, 0)]], 3, 4⟩, 17592186044416, 6088669,
    4967614469427472814450906231561542930559644724049719123865195340256030451792541996442035224385367665133089019096396301755321713,
    lc0⟩) (.leaf ⟨433, 16, 642, 493, 16, 3764, ⟨[[(14948687527485440, 0), (0, 14943385142601446), (1176216121696, 0),
    (0, 25003964), (31465, 0)], [(36731050811464434, 0), (0, 13561944425124), (413569014, 0), (0, 297706), (0, 191)],
    [(49968275578520, 0), (0, 3823455066), (1273969, 0), (953, 0)], [(30707680009, 0), (0, 1632372), (0, 2101)]], 3,
    4⟩, ⟨[[(0, 24661913465798656), (0, 19865607454567608), (1027224478832, 0), (0, 42667881), (18274, 0)], [(0,
    24020999171564558), (0, 1800966363528), (354399172, 0), (194864, 0), (55, 0)], [(15206531136560, 0), (0,
    1955155110), (0, 687440), (0, 784)], [(7713071502, 0), (2068818, 0), (2254, 0), (1, 0)]], 3, 4⟩,
    72057594037927936, 353222734304, 26735799866, ⟨[[(14943242995263, 0), (2262934445, 0), (0, 674160), (0, 118)],
    [(1484563603, 0), (3416939, 0), (2826, 0), (1, 0)], [(0, 3394081), (0, 8469), (0, 10)], [(7305, 0), (24, 0)]], 3,
    4⟩, 17592186044416, 6633700,
    5098949688862108126145696877773575061321737322154590656153147426621898358612309210179188470120753652489181774356553203452694529,
    lc0⟩)) (.sx (.leaf ⟨433, 16, 688, 479, 16, 3747, ⟨[[(0, 19305629534625792), (0, 15415684737108890),
    (1246700422592, 0), (0, 4123002), (43285, 0)], [(35326666749719534, 0), (0, 14259234017784), (265719252, 0), (0,
    444967), (0, 230)], [(50531289582433, 0), (0, 3688976528), (1784991, 0), (1061, 0)], [(31690376067, 0), (0,
    2079514), (0, 1929)]], 3, 4⟩, ⟨[[(0, 27529966748184576), (0, 19570221923647504), (1001397979748, 0), (0,
    42919169), (19759, 0)], [(0, 24870614502930619), (0, 1612269812286), (455202870, 0), (259060, 0), (47, 0)],
    [(14322377228146, 0), (0, 2292340831), (0, 1102264), (0, 982)], [(7844089678, 0), (2922965, 0), (2839, 0), (1,
    0)]], 3, 4⟩, 72057594037927936, 361740551241, 9901748562, ⟨[[(14871621843881, 0), (2184176588, 0), (0, 766709),
    (0, 150)], [(1543924702, 0), (3649329, 0), (3239, 0), (1, 0)], [(0, 3471540), (0, 9299), (0, 11)], [(7298, 0),
    (26, 0)]], 3, 4⟩, 17592186044416, 6371833,
    4891677913006083810431800381282708049483405358398469500999894471046484945448661776305278410299923409577105070244386115091260912,
    lc0⟩) (.leaf ⟨426, 16, 655, 473, 16, 3779, ⟨[[(0, 30446854824906752), (0, 15059174930577464), (1195275620594, 0),
    (0, 14996545), (35167, 0)], [(36397989675986181, 0), (0, 13776661927100), (343545458, 0), (0, 367255), (0, 213)],
    [(50684198378884, 0), (0, 3680193360), (1530672, 0), (1002, 0)], [(31186497255, 0), (0, 2001607), (0, 2169)]], 3,
    4⟩, ⟨[[(8523247513239552, 0), (0, 19784634595478439), (1021993847248, 0), (0, 36721209), (20949, 0)], [(0,
    24255501528009307), (0, 1748973827800), (403276247, 0), (208497, 0), (26, 0)], [(15109436188339, 0), (0,
    2085623176), (0, 886874), (0, 897)], [(7920041567, 0), (2447714, 0), (2493, 0), (1, 0)]], 3, 4⟩,
    72057594037927936, 361881013084, 15881119521, ⟨[[(14870811484854, 0), (2230446347, 0), (0, 705818), (0, 138)],
    [(1485485523, 0), (3475928, 0), (3008, 0), (1, 0)], [(0, 3410173), (0, 8807), (0, 10)], [(7284, 0), (25, 0)]], 3,
    4⟩, 17592186044416, 6977485,
    5243994792361356756049116081969491407332512029787510725181500824034129718830663140561635011586841091660866273667494676394169167,
    lc0⟩)))) (.sx (.sy (.leaf ⟨302, 16, 523, 352, 16, 2789, ⟨[[(7015360946556928, 0), (0, 11120967772200806),
    (946157707138, 0), (25594771, 0), (43460, 0)], [(45851513414052544, 0), (0, 21214293669407), (0, 41652787), (0,
    932139), (0, 406)], [(141022531708842, 0), (0, 9462560612), (6813143, 0), (3349, 0), (1, 0)], [(182687292546, 0),
    (0, 12144055), (0, 7578), (1, 0)]], 3, 4⟩, ⟨[[(0, 26044329892777984), (0, 14406382772639847), (720348783700, 0),
    (0, 36831149), (16766, 0)], [(0, 38910507256446085), (0, 1947731462374), (964714972, 0), (550485, 0), (79, 0)],
    [(39038215748860, 0), (0, 8831878885), (0, 5308353), (0, 3874), (0, 2)], [(48697200408, 0), (25572699, 0),
    (22532, 0), (10, 0)]], 3, 4⟩, 72057594037927936, 4033135306825, 399168632903, ⟨[[(14799218111560, 0),
    (2756231950, 0), (0, 1615659), (0, 509)], [(2362620883, 0), (7738108, 0), (9971, 0), (7, 0)], [(0, 7449892), (0,
    29301), (0, 54)], [(22057, 0), (124, 0)]], 3, 4⟩, 17592186044416, 77279340,
    3279443201409504897496903002851227198282567780322436166145100425209444927534580967448220141546644086434130639954591621543807634,
    lc0⟩) (.leaf ⟨297, 16, 536, 337, 16, 2796, ⟨[[(25308530526978048, 0), (0, 11245563140805340), (977472198647, 0),
    (40532461, 0), (47018, 0)], [(45294651722288265, 0), (0, 21766514747124), (0, 281952328), (0, 1092107), (0,
    462)], [(143815575777858, 0), (0, 8544843824), (7805320, 0), (3605, 0), (1, 0)], [(186210639060, 0), (0,
    13642670), (0, 7586), (1, 0)]], 3, 4⟩, ⟨[[(0, 3726452854247424), (0, 14330524126144185), (714187720572, 0), (0,
    30930664), (21754, 0)], [(0, 39154323074131246), (0, 1791549767451), (1098489915, 0), (567771, 0), (20, 0)],
    [(38411301537281, 0), (0, 9758157598), (0, 6289642), (0, 4400), (0, 2)], [(50961231405, 0), (29343084, 0),
    (24967, 0), (11, 0)]], 3, 4⟩, 72057594037927936, 4026216418672, 624561422042, ⟨[[(14726699243058, 0),
    (2705269041, 0), (0, 1707870), (0, 626)], [(2364068479, 0), (7940104, 0), (10663, 0), (10, 0)], [(0, 7427823),
    (0, 30747), (0, 60)], [(22246, 0), (137, 0), (1, 0)]], 3, 4⟩, 17592186044416, 89877091,
    3012274499126931717324983050066248850883134709745661006208719170489240443748399528411943852401489497448437101908279673165506947,
    lc0⟩)) (.sy (.sx (.leaf ⟨425, 16, 703, 459, 16, 3762, ⟨[[(16098149390700544, 0), (0, 15553048391400560),
    (1274549686066, 0), (10082376, 0), (47256, 0)], [(34961828247964055, 0), (0, 14536518170810), (156258977, 0), (0,
    531657), (0, 259)], [(51350591493595, 0), (0, 3464840769), (2082453, 0), (1127, 0)], [(32203541952, 0), (0,
    2433479), (0, 1988)]], 3, 4⟩, ⟨[[(25193695477694464, 0), (0, 19492469016485845), (996095598692, 0), (0,
    36277158), (23965, 0)], [(0, 25093531604624347), (0, 1542606520947), (519212513, 0), (269584, 0), (12, 0)],
    [(14192977900720, 0), (0, 2492950294), (0, 1352842), (0, 1121)], [(8122322266, 0), (3402005, 0), (3146, 0), (1,
    0)]], 3, 4⟩, 72057594037927936, 367353875207, 25979489705, ⟨[[(14797570217492, 0), (2146240761, 0), (0, 807423),
    (0, 179)], [(1549918516, 0), (3736823, 0), (3459, 0), (1, 0)], [(0, 3489343), (0, 9739), (0, 12)], [(7231, 0),
    (28, 0)]], 3, 4⟩, 17592186044416, 6986151,
    4308211246463039277700657685482951762639290559531901579380189588871353186535531936332403957719342791772405110975335991651514320,
    lc0⟩) (.leaf ⟨418, 16, 668, 454, 16, 3794, ⟨[[(0, 35864334334623744), (0, 15168105395048300), (1216759342257, 0),
    (0, 3728010), (38114, 0)], [(36026431050385723, 0), (0, 14002692896143), (254547085, 0), (0, 445539), (0, 239)],
    [(51407378391658, 0), (0, 3490849758), (1804258, 0), (1058, 0)], [(31632710731, 0), (0, 2389365), (0, 2253)]], 3,
    4⟩, ⟨[[(0, 30163022404337664), (0, 19703733518265209), (1018227788283, 0), (0, 29831100), (24152, 0)], [(0,
    24486177142168855), (0, 1688902760799), (454357115, 0), (211570, 0), (0, 13)], [(15000227116229, 0), (0,
    2249974037), (0, 1115443), (0, 1026)], [(8158892149, 0), (2867510, 0), (2759, 0), (1, 0)]], 3, 4⟩,
    72057594037927936, 369274856367, 16107432186, ⟨[[(14800432379566, 0), (2194536660, 0), (0, 741422), (0, 161)],
    [(1494633754, 0), (3557409, 0), (3209, 0), (1, 0)], [(0, 3443392), (0, 9244), (0, 11)], [(7270, 0), (27, 0)]], 3,
    4⟩, 17592186044416, 7580122,
    5030528933170737294914705595195201800305887183802554819782255591358185053515189858867175482643447528245160105377001889839530849,
    lc0⟩)) (.sx (.leaf ⟨417, 16, 718, 440, 16, 3777, ⟨[[(15244601132072960, 0), (0, 15681552847249434),
    (1305944779384, 0), (25705466, 0), (50311, 0)], [(34550474998965056, 0), (0, 14832215664496), (22527126, 0), (0,
    630028), (0, 294)], [(52183733542296, 0), (0, 3185665198), (2402090, 0), (1202, 0)], [(32684400555, 0), (0,
    2804486), (0, 2063)]], 3, 4⟩, ⟨[[(5857391660343296, 0), (0, 19414796571562988), (992480194493, 0), (0, 28170346),
    (28958, 0)], [(0, 25311088563141093), (0, 1462494251944), (584536921, 0), (267619, 0), (0, 33)],
    [(14045528164610, 0), (0, 2736222460), (0, 1639223), (0, 1280), (0, 1)], [(8440985023, 0), (3933388, 0), (3486,
    0), (1, 0)]], 3, 4⟩, 72057594037927936, 371128454187, 44058107360, ⟨[[(14727112845286, 0), (2108309906, 0), (0,
    848892), (0, 212)], [(1556539333, 0), (3830494, 0), (3670, 0), (2, 0)], [(0, 3499257), (0, 10212), (0, 13)],
    [(7174, 0), (29, 0)]], 3, 4⟩, 17592186044416, 7846137,
    3225536003919187446006143431799680604490654075129661588113128198022413854566348344037715897670784862317260080309011177857148509,
    lc0⟩) (.leaf ⟨410, 16, 682, 434, 16, 3809, ⟨[[(0, 29246615799996416), (0, 15292202084976190), (1242808234983, 0),
    (8551049, 0), (40093, 0)], [(35667731383990309, 0), (0, 14264398201742), (144228899, 0), (0, 535002), (0, 271)],
    [(52218510031622, 0), (0, 3256692207), (2099560, 0), (1122, 0)], [(32091286612, 0), (0, 2802778), (0, 2361)]], 3,
    4⟩, ⟨[[(3447234994135040, 0), (0, 19622661829249168), (1016173062006, 0), (0, 21832578), (27855, 0)], [(0,
    24712365986881989), (0, 1620589789764), (504814906, 0), (200940, 0), (0, 62)], [(14876021830543, 0), (0,
    2453219528), (0, 1377450), (0, 1175)], [(8433110090, 0), (3332651, 0), (3053, 0), (1, 0)]], 3, 4⟩,
    72057594037927936, 375783798466, 32818388847, ⟨[[(14728243900637, 0), (2159338110, 0), (0, 778947), (0, 188)],
    [(1499768450, 0), (3638653, 0), (3406, 0), (1, 0)], [(0, 3453822), (0, 9691), (0, 11)], [(7169, 0), (28, 0)]], 3,
    4⟩, 17592186044416, 8280607,
    4300797661626300264565793201086378538334837971825017489350117379265160371845002289400335745349207479851029327499825428376662736,
    lc0⟩))))
theorem c68 : checkR job con1 false ⟨7, 9, 7, 9, 13, 17⟩ 1 30400 t68 614 14 320 4039 39 4000 = true := by decide +kernel

def t69 : CTree :=
  .sx (.sy (.sy (.sx (.leaf ⟨426, 16, 611, 488, 16, 3798, ⟨[[(28781162273402880, 0), (0, 14586104519890458),
    (1131346720656, 0), (0, 31020619), (24911, 0)], [(37690039616377385, 0), (0, 13114421850408), (456601444, 0), (0,
    232747), (0, 178)], [(50051339138926, 0), (0, 3764021260), (1034435, 0), (899, 0)], [(30205213974, 0), (0,
    1406111), (0, 2228)]], 3, 4⟩, ⟨[[(0, 10169497356214272), (0, 20097438071279278), (1046020512626, 0), (0,
    38147980), (19745, 0)], [(0, 23360367725934587), (0, 1923125573432), (323857626, 0), (154438, 0), (38, 0)],
    [(16000344585523, 0), (0, 1814595989), (0, 515747), (0, 718)], [(7851210547, 0), (1688849, 0), (1967, 0), (1,
    0)]], 3, 4⟩, 72057594037927936, 347446448060, 34641739360, ⟨[[(14942527538746, 0), (2302203362, 0), (0, 620468),
    (0, 110)], [(1429259128, 0), (3265955, 0), (2626, 0), (1, 0)], [(0, 3338518), (0, 8016), (0, 9)], [(7242, 0),
    (23, 0)]], 3, 4⟩, 17592186044416, 7260662,
    5200829598892435702765303097823880971107213085223216259203789652522977286088665095724395671317754275758302492837587047756740986,
    lc0⟩) (.leaf ⟨421, 16, 582, 483, 16, 3834, ⟨[[(0, 26005116625985536), (0, 14246415930013888), (1090552411045, 0),
    (0, 35087429), (19030, 0)], [(38639409561269239, 0), (0, 12695718426289), (484983771, 0), (0, 174057), (0, 166)],
    [(50132612961482, 0), (0, 3687674800), (800152, 0), (845, 0)], [(29728238689, 0), (0, 1075378), (0, 2276)]], 3,
    4⟩, ⟨[[(35878571088248832, 0), (0, 20343693717166310), (1064723215611, 0), (0, 34695250), (20763, 0)], [(0,
    22658570092275099), (0, 2040205376823), (302220519, 0), (117135, 0), (21, 0)], [(16821577227333, 0), (0,
    1703377975), (0, 365576), (0, 662)], [(8021137348, 0), (1363832, 0), (1713, 0), (1, 0)]], 3, 4⟩,
    72057594037927936, 338168569936, 43402003356, ⟨[[(14942056341297, 0), (2341284805, 0), (0, 566956), (0, 103)],
    [(1363952347, 0), (3101104, 0), (2412, 0)], [(0, 3250943), (0, 7465), (0, 8)], [(7023, 0), (22, 0)]], 3, 4⟩,
    17592186044416, 7728700,
    4989309180834630604575820006757714952290806637355277366428090417440704243845636797340774443025455468091104360670738845265757766,
    lc0⟩)) (.sx (.leaf ⟨419, 16, 623, 468, 16, 3813, ⟨[[(0, 16429055949000704), (0, 14693146128481388),
    (1147124466496, 0), (0, 23300700), (27855, 0)], [(37389967524729760, 0), (0, 13304042318988), (403232615, 0), (0,
    296305), (0, 197)], [(50741838883122, 0), (0, 3656547047), (1271766, 0), (939, 0)], [(30672723122, 0), (0,
    1790818), (0, 2309)]], 3, 4⟩, ⟨[[(2401365591617536, 0), (0, 20013648781290207), (1041933863069, 0), (0,
    31848420), (21572, 0)], [(0, 23601171593408891), (0, 1877111759681), (362433799, 0), (162039, 0), (5, 0)],
    [(15917935734352, 0), (0, 1916294776), (0, 698188), (0, 824)], [(8026876499, 0), (2018808, 0), (2173, 0), (1,
    0)]], 3, 4⟩, 72057594037927936, 359442171225, 25149703481, ⟨[[(14870723181128, 0), (2270862248, 0), (0, 648938),
    (0, 128)], [(1431351441, 0), (3319238, 0), (2798, 0), (1, 0)], [(0, 3360855), (0, 8348), (0, 10)], [(7277, 0),
    (25, 0)]], 3, 4⟩, 17592186044416, 7822328,
    5094757839716791231514641157924227025646110933342680152819331406819813002533205881106396494547703457428888927235130988631130370,
    lc0⟩) (.leaf ⟨413, 16, 593, 463, 16, 3849, ⟨[[(0, 2149174262960128), (0, 14342951149785410), (1103532343106, 0),
    (0, 29379193), (21309, 0)], [(38363641146375877, 0), (0, 12862149750091), (446292861, 0), (0, 232446), (0, 184)],
    [(50792431954876, 0), (0, 3614384074), (1018532, 0), (877, 0)], [(30190461349, 0), (0, 1460544), (0, 2361)]], 3,
    4⟩, ⟨[[(26807082069516288, 0), (0, 20257134770698726), (1061508977393, 0), (0, 28202183), (21655, 0)], [(0,
    22905075001608105), (0, 1998685064375), (331299205, 0), (119002, 0), (0, 14)], [(16751446773771, 0), (0,
    1779996167), (0, 533652), (0, 762)], [(8170110040, 0), (1650382, 0), (1889, 0), (1, 0)]], 3, 4⟩,
    72057594037927936, 353213011482, 35613478338, ⟨[[(14869633266458, 0), (2308072378, 0), (0, 594672), (0, 119)],
    [(1373441666, 0), (3162959, 0), (2589, 0), (1, 0)], [(0, 3298250), (0, 7845), (0, 9)], [(7183, 0), (24, 0)]], 3,
    4⟩, 17592186044416, 8491641,
    5163472967330973757167388093145728527857426212999234130158452761739494738290895524627991988353520769274020981935574120359964764,
    lc0⟩))) (.sy (.sx (.leaf ⟨411, 16, 636, 448, 16, 3828, ⟨[[(26835688133242880, 0), (0, 14817438415492313),
    (1166555437376, 0), (0, 14642405), (30009, 0)], [(37113159761207730, 0), (0, 13523350197169), (333279684, 0), (0,
    368352), (0, 221)], [(51517852215138, 0), (0, 3512652059), (1525795, 0), (986, 0)], [(31155719251, 0), (0,
    2200050), (0, 2413)]], 3, 4⟩, ⟨[[(15369782322937856, 0), (0, 19929741125685386), (1039365252912, 0), (0,
    24908637), (23669, 0)], [(0, 23838716350928576), (0, 1824773115314), (401642823, 0), (158072, 0), (0, 37)],
    [(15825826066761, 0), (0, 2048969084), (0, 907993), (0, 945)], [(8230245791, 0), (2383878, 0), (2401, 0), (1,
    0)]], 3, 4⟩, 72057594037927936, 371297003724, 14326865788, ⟨[[(14797813605157, 0), (2235418592, 0), (0, 682697),
    (0, 148)], [(1440545862, 0), (3394244, 0), (2996, 0), (1, 0)], [(0, 3397194), (0, 8782), (0, 10)], [(7296, 0),
    (26, 0)]], 3, 4⟩, 17592186044416, 8333782,
    5205808439211121284407667495418160154198060201232399439708144063209402600220978931204226459763886549121540838866019312530756421,
    lc0⟩) (.leaf ⟨406, 16, 605, 443, 16, 3864, ⟨[[(0, 30120833381752832), (0, 14458066854044029), (1119658442564, 0),
    (0, 23010228), (22716, 0)], [(38119072236560110, 0), (0, 13056091957433), (392763008, 0), (0, 298506), (0, 206)],
    [(51539393987251, 0), (0, 3508976274), (1250719, 0), (914, 0)], [(30670402134, 0), (0, 1870342), (0, 2469)]], 3,
    4⟩, ⟨[[(18338205626449920, 0), (0, 20170313530056057), (1059824290718, 0), (0, 21402585), (22541, 0)], [(0,
    23148764378253783), (0, 1952456084158), (359516820, 0), (108322, 0), (0, 59)], [(16673713042165, 0), (0,
    1885133595), (0, 727638), (0, 878)], [(8343085452, 0), (1966901, 0), (2083, 0), (1, 0)]], 3, 4⟩,
    72057594037927936, 368650331425, 26682525563, ⟨[[(14798831537474, 0), (2277157350, 0), (0, 622254), (0, 137)],
    [(1377141411, 0), (3214064, 0), (2759, 0), (1, 0)], [(0, 3319625), (0, 8191), (0, 10)], [(7204, 0), (25, 0)]], 3,
    4⟩, 17592186044416, 9090290,
    5038024432412703177351795378236638922264195237336548749395494504808588324159338491504719368884952255062614247291322602931267413,
    lc0⟩)) (.sx (.leaf ⟨403, 16, 648, 428, 16, 3843, ⟨[[(0, 7752676894261248), (0, 14911810316550075),
    (1186200127661, 0), (0, 5279550), (30997, 0)], [(36740563766107566, 0), (0, 13732824300856), (243229084, 0), (0,
    449381), (0, 250)], [(52220669519268, 0), (0, 3317875616), (1793540, 0), (1038, 0)], [(31553617681, 0), (0,
    2630818), (0, 2535)]], 3, 4⟩, ⟨[[(28804098527657984, 0), (0, 19845469679584673), (1038480284401, 0), (0,
    17253024), (25960, 0)], [(0, 24072491528987666), (0, 1766218624859), (438396589, 0), (139228, 0), (0, 90)],
    [(15721381807233, 0), (0, 2217326256), (0, 1149257), (0, 1086)], [(8464310301, 0), (2787822, 0), (2653, 0), (1,
    0)]], 3, 4⟩, 72057594037927936, 381828239356, 18160924008, ⟨[[(14727098754470, 0), (2203571806, 0), (0, 715039),
    (0, 171)], [(1445482689, 0), (3463388, 0), (3178, 0), (1, 0)], [(0, 3414676), (0, 9209), (0, 11)], [(7219, 0),
    (27, 0)]], 3, 4⟩, 17592186044416, 9151139,
    4850050324069589669373256491785065398631689470928396618564489003184353813302097294982699038599026926961207384768782519608411808,
    lc0⟩) (.leaf ⟨397, 16, 616, 423, 16, 3879, ⟨[[(8458133201387520, 0), (0, 14543481959235965), (1135379061539, 0),
    (0, 16214434), (22890, 0)], [(37777536054693970, 0), (0, 13237046129244), (320864040, 0), (0, 372792), (0, 232)],
    [(52205989660840, 0), (0, 3356980988), (1494087, 0), (955, 0)], [(31064056668, 0), (0, 2302611), (0, 2595)]], 3,
    4⟩, ⟨[[(10551919371001856, 0), (0, 20082988884182302), (1059745677398, 0), (0, 14315639), (23298, 0)], [(0,
    23389265560508713), (0, 1901886580553), (383531142, 0), (81619, 0), (0, 116)], [(16585951952672, 0), (0,
    2023247125), (0, 951456), (0, 1011)], [(8542615858, 0), (2316545, 0), (2297, 0), (1, 0)]], 3, 4⟩,
    72057594037927936, 383650362369, 16398924235, ⟨[[(14727371243298, 0), (2243253521, 0), (0, 654166), (0, 157)],
    [(1390300119, 0), (3292806, 0), (2956, 0), (1, 0)], [(0, 3368540), (0, 8685), (0, 10)], [(7246, 0), (27, 0)]], 3,
    4⟩, 17592186044416, 10031955,
    4850241470578597733942812181932174227026887891599714498962585950532949405782422600436826736614980470567476092871107569633611207,
    lc0⟩)))) (.sy (.sx (.sy (.leaf ⟨416, 16, 555, 480, 16, 3872, ⟨[[(0, 2042358953807872), (0, 13927266171139019),
    (1053459341976, 0), (0, 37478321), (13731, 0)], [(39591444118452023, 0), (0, 12305814072594), (500030690, 0), (0,
    121170), (0, 157)], [(50226919630329, 0), (0, 3587889531), (576725, 0), (795, 0)], [(29271565518, 0), (0,
    651375), (0, 2255)]], 3, 4⟩, ⟨[[(0, 29872082607648768), (0, 20604338582212280), (1083569243044, 0), (0,
    32236239), (21346, 0)], [(0, 21912656575467241), (0, 2153750136592), (288418092, 0), (82411, 0), (6, 0)],
    [(17673798424969, 0), (0, 1616544887), (0, 233974), (0, 615)], [(8225474228, 0), (1104697, 0), (1498, 0), (1,
    0)]], 3, 4⟩, 72057594037927936, 324868362856, 52410033241, ⟨[[(14943672936367, 0), (2371563173, 0), (0, 519480),
    (0, 96)], [(1308083305, 0), (2964202, 0), (2221, 0)], [(0, 3191565), (0, 6997), (0, 8)], [(6831, 0), (21, 0)]],
    3, 4⟩, 17592186044416, 8261631,
    4343049783656151568123508813626757047170391886270663015739122246166847440879372120765716532603004323362769495663040010503993722,
    lc0⟩) (.leaf ⟨408, 16, 565, 459, 16, 3887, ⟨[[(15095902151237632, 0), (0, 14011576202177958), (1064043285442, 0),
    (0, 33542711), (15428, 0)], [(39330687777877307, 0), (0, 12450690630333), (474193577, 0), (0, 175171), (0, 173)],
    [(50850968244043, 0), (0, 3546129407), (777435, 0), (818, 0)], [(29733223155, 0), (0, 1023991), (0, 2334)]], 3,
    4⟩, ⟨[[(10452061327523840, 0), (0, 20515017514343086), (1080974736782, 0), (0, 25703002), (21215, 0)], [(0,
    22164388050554720), (0, 2115422353638), (308662805, 0), (78776, 0), (0, 32)], [(17613954670595, 0), (0,
    1671261203), (0, 389967), (0, 711)], [(8353272990, 0), (1354615, 0), (1648, 0), (1, 0)]], 3, 4⟩,
    72057594037927936, 342222411948, 46699833941, ⟨[[(14869773682738, 0), (2340798834, 0), (0, 543628), (0, 111)],
    [(1315127414, 0), (3014190, 0), (2384, 0), (1, 0)], [(0, 3232752), (0, 7330), (0, 9)], [(7020, 0), (22, 0)]], 3,
    4⟩, 17592186044416, 9139215,
    4767384138308906154826197294178411106083176929881151801471964870428995777912519869911572198178728928726685233381630810503441499,
    lc0⟩)) (.leaf ⟨274, 16, 359, 269, 16, 2261, ⟨[[(28654004353413120, 0), (0, 18359508077654528), (2751015883458,
    0), (0, 200458539), (103572, 0)], [(27158969867118565, 0), (0, 16128718644474), (1336516323, 0), (0, 526468), (0,
    1676)], [(34013593573101, 0), (0, 4642927048), (1236528, 0), (4070, 0)], [(19520974565, 0), (0, 430055), (0,
    5924), (0, 1)]], 3, 4⟩, ⟨[[(0, 23712373633662976), (0, 24035837422917602), (2541591129806, 0), (0, 126701783),
    (193349, 0)], [(0, 12257089139723717), (0, 2592544218082), (664070888, 0), (216516, 0), (0, 266)],
    [(10692439453673, 0), (0, 1803424437), (0, 432809), (0, 2858), (0, 3)], [(4914104214, 0), (1185824, 0), (3209,
    0), (2, 0)]], 3, 4⟩, 72057594037927936, 225723348380, 44513859701, ⟨[[(14906960152408, 0), (4132338593, 0), (0,
    1458884), (0, 504), (1, 0)], [(1864784337, 0), (7361378, 0), (9432, 0), (3, 0)], [(0, 6973948), (0, 25619), (0,
    51)], [(22061, 0), (115, 0)]], 3, 4⟩, 17592186044416, 149976725,
    4110864791427640623208240459721120651462585586787426099146931922000210057871477772439529383215444115667280224856653747181258310,
    lc0⟩)) (.sx (.sy (.leaf ⟨401, 16, 576, 439, 16, 3902, ⟨[[(0, 15424087606161408), (0, 14115739431490105),
    (1077340439414, 0), (0, 29188511), (16180, 0)], [(39109206466005111, 0), (0, 12621280684424), (435007787, 0), (0,
    236115), (0, 193)], [(51564223126520, 0), (0, 3476231708), (989168, 0), (847, 0)], [(30216092409, 0), (0,
    1419271), (0, 2436)]], 3, 4⟩, ⟨[[(0, 20476790244659200), (0, 20425333213119324), (1079880867226, 0), (0,
    19227299), (20788, 0)], [(0, 22413639358555401), (0, 2073888548131), (326612253, 0), (61634, 0), (0, 81)],
    [(17548333331165, 0), (0, 1752432100), (0, 570694), (0, 821)], [(8501956733, 0), (1630154, 0), (1814, 0), (1,
    0)]], 3, 4⟩, 72057594037927936, 360869378086, 40040367201, ⟨[[(14799734918127, 0), (2311056868, 0), (0, 568057),
    (0, 127)], [(1319829596, 0), (3058557, 0), (2543, 0), (1, 0)], [(0, 3258653), (0, 7652), (0, 9)], [(7103, 0),
    (24, 0)]], 3, 4⟩, 17592186044416, 9818365,
    4812531187507152341215451186164194456641424459656488027914821455937930131869390055419536792222587084003867159962244775387657871,
    lc0⟩) (.leaf ⟨392, 16, 586, 418, 16, 3918, ⟨[[(20989546525773824, 0), (0, 14190332387483525), (1089690780174, 0),
    (0, 24650314), (15644, 0)], [(38789205661237861, 0), (0, 12776127262394), (378940080, 0), (0, 304625), (0, 217)],
    [(52190115000404, 0), (0, 3363779179), (1209716, 0), (877, 0)], [(30612831762, 0), (0, 1836161), (0, 2554)]], 3,
    4⟩, ⟨[[(29239569336840192, 0), (0, 20340247457129886), (1080542966683, 0), (0, 12931921), (19892, 0)], [(0,
    22665951035968265), (0, 2030283967728), (338761711, 0), (27353, 0), (0, 142)], [(17479147730588, 0), (0,
    1864786989), (0, 780131), (0, 949)], [(8675920365, 0), (1934449, 0), (1997, 0), (1, 0)]], 3, 4⟩,
    72057594037927936, 379709099255, 32398561982, ⟨[[(14726541357049, 0), (2279243605, 0), (0, 595745), (0, 145)],
    [(1330622253, 0), (3121864, 0), (2729, 0), (1, 0)], [(0, 3306183), (0, 8097), (0, 10)], [(7188, 0), (26, 0)]], 3,
    4⟩, 17592186044416, 11004169,
    4682628786038013658992769407946527428862541059366373832822613391305736842047358345059857310130903402031617895225747702333765525,
    lc0⟩)) (.sy (.leaf ⟨396, 16, 548, 435, 16, 3943, ⟨[[(21914401762172928, 0), (0, 13768394633922563),
    (1037244638210, 0), (0, 33433605), (10280, 0)], [(40023673374006277, 0), (0, 12195774202092), (461093540, 0), (0,
    180128), (0, 182)], [(51513573061958, 0), (0, 3401224569), (745705, 0), (785, 0)], [(29728442947, 0), (0,
    863746), (0, 2322)]], 3, 4⟩, ⟨[[(0, 20161530212245504), (0, 20699983836997094), (1100055610269, 0), (0,
    18320645), (18424, 0)], [(0, 21635824396896274), (0, 2191198323399), (301866212, 0), (17432, 0), (0, 102)],
    [(18459122694363, 0), (0, 1644210537), (0, 432906), (0, 774)], [(8710818419, 0), (1384488, 0), (1601, 0), (1,
    0)]], 3, 4⟩, 72057594037927936, 346751830545, 53456666256, ⟨[[(14798989871162, 0), (2340394340, 0), (0, 517342),
    (0, 118)], [(1262594096, 0), (2914819, 0), (2336, 0), (1, 0)], [(0, 3203758), (0, 7127), (0, 9)], [(6961, 0),
    (22, 0)]], 3, 4⟩, 17592186044416, 10674128,
    4256090125018383544614653254199154498472293813356821693560427906815148279167879742543334179764429491594651754221577217457723301,
    lc0⟩) (.leaf ⟨388, 16, 558, 414, 16, 3959, ⟨[[(32361060638748672, 0), (0, 13855481728840527), (1048576585740, 0),
    (0, 30946934), (9143, 0)], [(39788165499396343, 0), (0, 12348789343319), (419607691, 0), (0, 244081), (0, 204)],
    [(52188464816090, 0), (0, 3330207305), (947221, 0), (808, 0)], [(30187826281, 0), (0, 1253065), (0, 2428)]], 3,
    4⟩, ⟨[[(5720179183865856, 0), (0, 20611977499061199), (1100859664884, 0), (0, 13028004), (15747, 0)], [(0,
    21893377705823744), (0, 2152711886890), (302692318, 0), (0, 24259), (0, 167)], [(18402230990843, 0), (0,
    1733571618), (0, 630127), (0, 897)], [(8864674922, 0), (1652546, 0), (1759, 0), (1, 0)]], 3, 4⟩,
    72057594037927936, 368812144743, 48542596107, ⟨[[(14727047872766, 0), (2310694188, 0), (0, 540972), (0, 134)],
    [(1270185317, 0), (2960316, 0), (2502, 0), (1, 0)], [(0, 3238957), (0, 7487), (0, 9)], [(7059, 0), (24, 0)]], 3,
    4⟩, 17592186044416, 11725809,
    4182988709995424431861496595050023142236069105677344872746218999100842743009317265520091230608099959891811309404754122860741786,
    lc0⟩))))
theorem c69 : checkR job con1 false ⟨7, 9, 7, 9, 13, 17⟩ 1 30400 t69 642 14 320 4039 39 4000 = true := by decide +kernel

def t70 : CTree :=
  .sx (.sy (.sx (.leaf ⟨274, 16, 345, 265, 16, 2273, ⟨[[(14421500060463104, 0), (0, 18081034421419202),
    (2680504021175, 0), (0, 203753439), (54493, 0)], [(27974898753586062, 0), (0, 15750006138766), (1337606944, 0),
    (0, 288177), (0, 1609)], [(34286976677720, 0), (0, 4465312532), (713603, 0), (3870, 0)], [(19327579336, 0),
    (355883, 0), (0, 5585)]], 3, 4⟩, ⟨[[(30784189702967296, 0), (0, 24237777579887550), (2573500686310, 0), (0,
    123479977), (184811, 0)], [(0, 11708492128501346), (0, 2705160937137), (650533870, 0), (62310, 0), (0, 414)],
    [(11168300320742, 0), (0, 1719638763), (0, 178874), (0, 2679), (0, 3)], [(5041052291, 0), (1047490, 0), (2895,
    0), (2, 0)]], 3, 4⟩, 72057594037927936, 210437696169, 53457995934, ⟨[[(14904085471405, 0), (4203506044, 0), (0,
    1338087), (0, 478), (1, 0)], [(1749004054, 0), (6977814, 0), (8569, 0), (3, 0)], [(0, 6690445), (0, 23360), (0,
    47)], [(20422, 0), (102, 0)]], 3, 4⟩, 17592186044416, 148684742,
    2974576960635157321022210206197806515438542714670668440328055073498783424865064788107101803465201169842504499530992835596794234,
    lc0⟩) (.leaf ⟨274, 16, 331, 262, 16, 2284, ⟨[[(0, 9649309694320640), (0, 17773762468422581), (2608083305842, 0),
    (0, 200320401), (8993, 0)], [(28725865358793957, 0), (0, 15349323611408), (1309221167, 0), (0, 68985), (0,
    1550)], [(34475161001230, 0), (0, 4219681184), (243348, 0), (3703, 0)], [(19058261882, 0), (1213438, 0), (0,
    5130)]], 3, 4⟩, ⟨[[(19001729916153856, 0), (0, 24432517440272899), (2604179617114, 0), (0, 124388252), (172063,
    0)], [(0, 11124702053430526), (0, 2812597448827), (650269231, 0), (0, 83175), (0, 557)], [(11652536870348, 0),
    (0, 1642146007), (54884, 0), (0, 2517), (0, 2)], [(5178629029, 0), (1006799, 0), (2697, 0), (2, 0)]], 3, 4⟩,
    72057594037927936, 189261725250, 61316416448, ⟨[[(14905217644981, 0), (4271300718, 0), (0, 1227116), (0, 449),
    (1, 0)], [(1640814392, 0), (6649233, 0), (7768, 0), (3, 0)], [(0, 6469733), (0, 21452), (0, 43)], [(18946, 0),
    (90, 0)]], 3, 4⟩, 17592186044416, 147560350,
    1782637386228037268663763859039818124751932308798794568286730831836257381168995777143126137976527859104586511920669742401147929,
    lc0⟩)) (.sx (.sy (.leaf ⟨393, 16, 522, 431, 16, 3986, ⟨[[(0, 10203806573035520), (0, 13442984679608624),
    (1000838946711, 0), (0, 36070113), (4955, 0)], [(40939966805459090, 0), (0, 11800068544788), (473828855, 0), (0,
    130190), (0, 172)], [(51487314853260, 0), (0, 3284899770), (526697, 0), (732, 0)], [(29245914738, 0), (0,
    228838), (0, 2149)]], 3, 4⟩, ⟨[[(12093671925649408, 0), (0, 20989021581701612), (1120287978794, 0), (0,
    18626982), (15449, 0)], [(0, 20805958326352082), (0, 2305030681230), (284311828, 0), (0, 24776), (0, 123)],
    [(19406579609033, 0), (0, 1552166205), (0, 309271), (0, 733)], [(8965760392, 0), (1235908, 0), (1448, 0), (1,
    0)]], 3, 4⟩, 72057594037927936, 326451563644, 65161483743, ⟨[[(14798386329271, 0), (2369301834, 0), (0, 467739),
    (0, 109)], [(1195381420, 0), (2762564, 0), (2114, 0)], [(0, 3121079), (0, 6528), (0, 8)], [(6664, 0), (21, 0)]],
    3, 4⟩, 17592186044416, 11118283,
    3308923557453689956742203027841375307753269122191894730519921614830801750617460261277898277543596402062177126468909670172746562,
    lc0⟩) (.leaf ⟨385, 16, 531, 410, 16, 4002, ⟨[[(0, 6121111858622464), (0, 13516598255224057), (1009675820960, 0),
    (0, 35356699), (3273, 0)], [(40712416910712105, 0), (0, 11931084479725), (444397175, 0), (0, 189875), (0, 193)],
    [(52118000518671, 0), (0, 3244356283), (710205, 0), (747, 0)], [(29718614380, 0), (0, 577069), (0, 2230)]], 3,
    4⟩, ⟨[[(13134906711920640, 0), (0, 20898120023915129), (1120922397421, 0), (0, 14552170), (10864, 0)], [(0,
    21068268712792635), (0, 2270471734313), (274329515, 0), (0, 73737), (0, 192)], [(19360671903715, 0), (0,
    1620956050), (0, 496066), (0, 852)], [(9107648995, 0), (1477995, 0), (1588, 0), (1, 0)]], 3, 4⟩,
    72057594037927936, 350502489656, 63094254469, ⟨[[(14727390272596, 0), (2340800019, 0), (0, 488078), (0, 123)],
    [(1203786537, 0), (2800252, 0), (2266, 0), (1, 0)], [(0, 3158847), (0, 6837), (0, 9)], [(6824, 0), (22, 0)]], 3,
    4⟩, 17592186044416, 12405670,
    3514835051656421562461385338607370994652609412396437258979863663837084487303320392515198822428412139456341477865336098117060087,
    lc0⟩)) (.leaf ⟨263, 16, 341, 239, 16, 2311, ⟨[[(0, 32806343639085056), (0, 17895331213090737), (2638872765018,
    0), (0, 204818876), (0, 8302)], [(28368409669416896, 0), (0, 15607090285491), (1270665635, 0), (0, 611775), (0,
    1891)], [(35180956967371, 0), (0, 4238750079), (1137445, 0), (3769, 0)], [(19699375492, 0), (424112, 0), (0,
    5326)]], 3, 4⟩, ⟨[[(0, 12559848220166144), (0, 24312292737019149), (2610882588521, 0), (0, 84822876), (80375,
    0)], [(0, 11474251815222805), (0, 2746252895371), (606092813, 0), (0, 414467), (0, 1631)], [(11659715269404, 0),
    (0, 1704488053), (0, 641024), (0, 3449), (0, 3)], [(5336906745, 0), (1483395, 0), (3244, 0), (2, 0)]], 3, 4⟩,
    72057594037927936, 232017427939, 76135647757, ⟨[[(14764452428629, 0), (4160115965, 0), (0, 1315211), (0, 569),
    (1, 0)], [(1666001717, 0), (6783789, 0), (8837, 0), (4, 0)], [(0, 6628618), (0, 23038), (0, 50)], [(20485, 0),
    (107, 0)]], 3, 4⟩, 17592186044416, 194836865,
    2680783455050710455238974485090877303072894328021445523406534084831069609501915948770291394551621691129937102840954991812313714,
    lc0⟩))) (.sy (.sx (.leaf ⟨274, 16, 318, 260, 16, 2297, ⟨[[(14400088272101376, 0), (0, 17491748408966174),
    (2540946150919, 0), (0, 191515130), (0, 33235)], [(29495869607246565, 0), (0, 14970036847108), (1259529773, 0),
    (133493, 0), (0, 1503)], [(34678331146312, 0), (0, 3916968796), (0, 167753), (3583, 0)], [(18755969612, 0),
    (2111541, 0), (0, 4621), (1, 0)]], 3, 4⟩, ⟨[[(0, 33281545166237696), (0, 24652055084955064), (2637415246663, 0),
    (0, 129379900), (155419, 0)], [(0, 10519422592596558), (0, 2918688958343), (663338518, 0), (0, 220801), (0,
    697)], [(12161332594994, 0), (0, 1565101596), (277916, 0), (0, 2368), (0, 2)], [(5327107430, 0), (1058741, 0),
    (2607, 0), (2, 0)]], 3, 4⟩, 72057594037927936, 161957270919, 68973936409, ⟨[[(14907719419272, 0), (4326518899,
    0), (0, 1127929), (0, 420), (1, 0)], [(1541719242, 0), (6367699, 0), (7052, 0), (3, 0)], [(0, 6306522), (0,
    19923), (0, 39)], [(17688, 0), (79, 0)]], 3, 4⟩, 17592186044416, 146467480,
    1234347824519654771866678472217132478293418370740896068997456894672498458652442945178801517004469023488852647184152547511923344,
    lc0⟩) (.leaf ⟨275, 16, 306, 257, 16, 2310, ⟨[[(18029821981687808, 0), (0, 17237931175617372), (2478775050965, 0),
    (0, 177974341), (0, 72722)], [(30294269046547081, 0), (0, 14610663131299), (1192762765, 0), (323112, 0), (0,
    1465)], [(34901430586542, 0), (0, 3557522968), (0, 520922), (3510, 0)], [(18407288877, 0), (3016525, 0), (0,
    4111), (1, 0)]], 3, 4⟩, ⟨[[(2230390756835328, 0), (0, 24874970622276811), (2671296888081, 0), (0, 138154683),
    (134792, 0)], [(0, 9881376308259702), (0, 3020761123662), (688881006, 0), (0, 350927), (0, 834)],
    [(12685083381977, 0), (0, 1479789881), (498385, 0), (0, 2222), (0, 2)], [(5472551915, 0), (1188578, 0), (2601,
    0), (2, 0)]], 3, 4⟩, 72057594037927936, 129353115843, 73378052493, ⟨[[(14905459706783, 0), (4383418347, 0), (0,
    1032962), (0, 393), (1, 0)], [(1427660336, 0), (6069483, 0), (6344, 0), (3, 0)], [(0, 6110184), (0, 18421), (0,
    35)], [(16282, 0), (67, 0)]], 3, 4⟩, 17592186044416, 141346134,
    1920290219499004933138421433159268671247755742774183873069259511737511735439698767439849768357758420856372637188040262967312220,
    lc0⟩)) (.sx (.leaf ⟨264, 16, 328, 236, 16, 2324, ⟨[[(0, 35108002503127040), (0, 17636625313600197),
    (2573240410395, 0), (0, 210651278), (0, 59020)], [(29226941008299831, 0), (0, 15238670798155), (1271770199, 0),
    (0, 386012), (0, 1828)], [(35454403909429, 0), (0, 4000223427), (681571, 0), (3612, 0)], [(19486875829, 0),
    (1442013, 0), (0, 4685)]], 3, 4⟩, ⟨[[(0, 13355849975728128), (0, 24527694703037394), (2642200874385, 0), (0,
    99636980), (32328, 0)], [(0, 10869462538682393), (0, 2854179416710), (580949002, 0), (0, 605427), (0, 1823)],
    [(12181248269125, 0), (0, 1588312721), (0, 376965), (0, 3270), (0, 3)], [(5490282227, 0), (1520022, 0), (3131,
    0), (2, 0)]], 3, 4⟩, 72057594037927936, 209320091775, 89308718401, ⟨[[(14764390449161, 0), (4221770052, 0), (0,
    1199736), (0, 530), (1, 0)], [(1553842686, 0), (6438219, 0), (7942, 0), (4, 0)], [(0, 6374314), (0, 20849), (0,
    46)], [(18939, 0), (92, 0)]], 3, 4⟩, 17592186044416, 188576835,
    1451082345628997807197780607184376947860567662484956210613183046712291551446537713106149495997432856616306251451541408847065412,
    lc0⟩) (.leaf ⟨264, 16, 315, 233, 16, 2337, ⟨[[(25342561235505152, 0), (0, 17350359969746274), (2505867368853, 0),
    (0, 209956536), (0, 106036)], [(30019697235989499, 0), (0, 14845743913240), (1247800075, 0), (0, 175697), (0,
    1771)], [(35640733699973, 0), (0, 3680552144), (296111, 0), (3504, 0)], [(19165580766, 0), (2461491, 0), (0,
    4033), (1, 0)]], 3, 4⟩, ⟨[[(1546187081000960, 0), (0, 24746479994019390), (2673110020238, 0), (0, 119769001), (0,
    21337)], [(0, 10231213295572094), (0, 2955913640927), (570337601, 0), (0, 787580), (0, 2012)], [(12718486602962,
    0), (0, 1464254121), (0, 116333), (0, 3096), (0, 3)], [(5647271259, 0), (1650110, 0), (3121, 0), (2, 0)]], 3, 4⟩,
    72057594037927936, 176978289422, 99202986814, ⟨[[(14762137786403, 0), (4275220556, 0), (0, 1099576), (0, 496),
    (1, 0)], [(1453214790, 0), (6165442, 0), (7189, 0), (3, 0)], [(0, 6209350), (0, 19218), (0, 42)], [(17761, 0),
    (80, 0)]], 3, 4⟩, 17592186044416, 187435692,
    1953501837465180862146225499594955076190674868743464955206275490229566539002091997620989396129479523667737966678736492172710960,
    lc0⟩)))
theorem c70 : checkR job con1 false ⟨7, 9, 7, 9, 13, 17⟩ 1 30400 t70 670 14 320 4039 39 4000 = true := by decide +kernel

def t71 : CTree :=
  .sx (.sy (.sx (.leaf ⟨276, 16, 294, 255, 16, 2324, ⟨[[(9828168671342592, 0), (0, 16957600108699497),
    (2413178491474, 0), (0, 159635692), (0, 109572)], [(31025905895015008, 0), (0, 14221522677323), (1108917236, 0),
    (501825, 0), (0, 1429)], [(35029596257559, 0), (0, 3133508273), (0, 819209), (3468, 0)], [(17935430007, 0),
    (3877372, 0), (0, 3648), (1, 0)]], 3, 4⟩, ⟨[[(0, 9634296880908288), (0, 25111961970081890), (2707342794176, 0),
    (0, 150587944), (110301, 0)], [(0, 9213561928042627), (0, 3119494721643), (727306631, 0), (0, 473730), (0, 968)],
    [(13228762727829, 0), (0, 1381091973), (722228, 0), (0, 2074), (0, 2)], [(5604428930, 0), (1374168, 0), (2645,
    0), (2, 0)]], 3, 4⟩, 72057594037927936, 88635937056, 72779777860, ⟨[[(14906313653903, 0), (4435104873, 0), (0,
    944724), (0, 363), (1, 0)], [(1316422263, 0), (5799973, 0), (5694, 0), (2, 0)], [(0, 5964116), (0, 17265), (0,
    31)], [(15129, 0), (57, 0)]], 3, 4⟩, 17592186044416, 136398854,
    2601590508748799288560516735123990002642843085921624844450164394049840263116480899802053666936459386265742705994782000740891067,
    lc0⟩) (.leaf ⟨278, 16, 283, 253, 16, 2338, ⟨[[(0, 15722126167175168), (0, 16708713647956683), (2352083447910, 0),
    (0, 137490556), (0, 144318)], [(31794060009254473, 0), (0, 13848823307060), (1015190030, 0), (673240, 0), (0,
    1399)], [(35175093237504, 0), (0, 2663557164), (0, 1074263), (3458, 0)], [(17381878672, 0), (4658082, 0), (0,
    3314), (2, 0)]], 3, 4⟩, ⟨[[(0, 3862067313313792), (0, 25352168741262517), (2744767580957, 0), (0, 166433138),
    (81950, 0)], [(0, 8510471258503480), (0, 3212686179252), (778659709, 0), (0, 588900), (0, 1098)],
    [(13785109852373, 0), (0, 1264902184), (951340, 0), (0, 1924), (0, 2)], [(5703497428, 0), (1582027, 0), (2685,
    0), (2, 0)]], 3, 4⟩, 72057594037927936, 38523413202, 65611502068, ⟨[[(14906372067058, 0), (4485784775, 0), (0,
    862591), (0, 334)], [(1196595259, 0), (5523101, 0), (5082, 0), (2, 0)], [(0, 5804761), (0, 16283), (0, 27)],
    [(14050, 0), (47, 0)]], 3, 4⟩, 17592186044416, 128203911,
    3020186233624544583186311082903082953901222861729604278598168122968131549422325113546216717160978897545483204413560784395728552,
    lc0⟩)) (.sx (.leaf ⟨265, 16, 302, 231, 16, 2351, ⟨[[(211087782109184, 0), (0, 17035547954718441), (2436087207090,
    0), (0, 203357118), (0, 149461)], [(30737803964327022, 0), (0, 14424284427033), (1203447230, 0), (21639, 0), (0,
    1717)], [(35728273562353, 0), (0, 3285816092), (0, 22917), (3437, 0)], [(18711960066, 0), (3422033, 0), (0,
    3451), (1, 0)]], 3, 4⟩, ⟨[[(0, 31784617555486720), (0, 24979104784216704), (2705165937641, 0), (0, 145062261),
    (0, 80561)], [(0, 9562546727311094), (0, 3052070129222), (574605041, 0), (0, 961307), (0, 2196)],
    [(13276836247006, 0), (0, 1326116584), (147876, 0), (0, 2921), (0, 3)], [(5795211656, 0), (1845103, 0), (3172,
    0), (2, 0)]], 3, 4⟩, 72057594037927936, 133978113270, 103441560812, ⟨[[(14764553084573, 0), (4329810023, 0), (0,
    999727), (0, 456), (1, 0)], [(1343021202, 0), (5889623, 0), (6408, 0), (3, 0)], [(0, 6039391), (0, 17706), (0,
    37)], [(16490, 0), (68, 0)]], 3, 4⟩, 17592186044416, 181271469,
    2724888834376372786719257146963511997589732558366736454029155173167869778763454572392780022572751760081333954857243010777268236,
    lc0⟩) (.leaf ⟨267, 16, 291, 228, 16, 2366, ⟨[[(17263252588748800, 0), (0, 16806621294791706), (2379736209383, 0),
    (0, 192743254), (0, 190647)], [(31588712672665687, 0), (0, 14067655751726), (1150806089, 0), (209237, 0), (0,
    1676)], [(35950762104672, 0), (0, 2847112605), (0, 288564), (3421, 0)], [(18226851394, 0), (4286524, 0), (0,
    3050), (1, 0)]], 3, 4⟩, ⟨[[(31531169487355904, 0), (0, 25225485679467704), (2738804161549, 0), (0, 175329531),
    (0, 145329)], [(0, 8861521610607936), (0, 3141749800388), (594141732, 0), (0, 1126564), (0, 2378)],
    [(13855203717458, 0), (0, 1169907343), (418364, 0), (0, 2743), (0, 3)], [(5914181071, 0), (2062758, 0), (3218,
    0), (2, 0)]], 3, 4⟩, 72057594037927936, 80071112785, 99977580778, ⟨[[(14760366705199, 0), (4378835765, 0), (0,
    910010), (0, 421)], [(1224071651, 0), (5608694, 0), (5692, 0), (3, 0)], [(0, 5840687), (0, 16370), (0, 32)],
    [(15201, 0), (55, 0)]], 3, 4⟩, 17592186044416, 170096525,
    3200285426577945022626535373442195126280134663005901371243377976211491534316858215848680517131852335957678582019714909882703116,
    lc0⟩))) (.sy (.sx (.leaf ⟨279, 16, 272, 252, 16, 2354, ⟨[[(16705092786774016, 0), (0, 16433857320206484),
    (2287101193234, 0), (0, 111389173), (0, 176708)], [(32490783336162075, 0), (0, 13442701844420), (910472804, 0),
    (836801, 0), (0, 1370)], [(35210667176583, 0), (0, 2148982462), (0, 1297925), (3453, 0)], [(16664765881, 0),
    (5291539, 0), (0, 3173), (2, 0)]], 3, 4⟩, ⟨[[(0, 35987022477533184), (0, 25617198467497013), (2786313168503, 0),
    (0, 185650533), (49855, 0)], [(0, 7777935473862565), (0, 3302097332930), (843970559, 0), (0, 696878), (0, 1226)],
    [(14362737171272, 0), (0, 1132011622), (1183721, 0), (0, 1776), (0, 2)], [(5753216331, 0), (1768715, 0), (2656,
    0), (2, 0)]], 3, 4⟩, 72057594037927936, 68953949914, 67434955600, ⟨[[(14907866512271, 0), (4524641404, 0), (0,
    790592), (0, 306)], [(1088416653, 0), (5289088, 0), (4583, 0), (2, 0)], [(0, 5722094), (0, 15747), (0, 24)],
    [(13456, 0), (39, 0)]], 3, 4⟩, 17592186044416, 124179869,
    3208547671839266913891119032780309594739294448639819880982136080705308705830971198894834479095559296162650988612561746298353451,
    lc0⟩) (.leaf ⟨282, 16, 262, 250, 16, 2370, ⟨[[(0, 35964754438205440), (0, 16193736123509494), (2226524414848, 0),
    (0, 82084772), (0, 207501)], [(33233189882482843, 0), (0, 13051877173494), (799657195, 0), (995738, 0), (0,
    1345)], [(35256377815032, 0), (0, 1613607198), (0, 1515704), (3446, 0)], [(15822589177, 0), (5738389, 0), (0,
    3321), (1, 0)]], 3, 4⟩, ⟨[[(23507314720075776, 0), (0, 25885257964651005), (2830035602064, 0), (0, 207919102),
    (13989, 0)], [(0, 7007434546028125), (0, 3384080908232), (922611531, 0), (0, 797463), (0, 1351)],
    [(14944631473607, 0), (0, 985374342), (1409069, 0), (0, 1638), (0, 2)], [(5722060111, 0), (1874354, 0), (2465,
    0), (2, 0)]], 3, 4⟩, 72057594037927936, 139791272265, 107751559145, ⟨[[(14904843018657, 0), (4568880025, 0), (0,
    718734), (0, 277)], [(955361415, 0), (4997488, 0), (4082, 0), (2, 0)], [(0, 5556019), (0, 15206), (0, 20)],
    [(12832, 0), (32, 0)]], 3, 4⟩, 17592186044416, 113967890,
    3247762807657840945871098622756386216263029070487913113028437617801355478019362809450373088231981406098249955037515363771267121,
    lc0⟩)) (.sx (.leaf ⟨268, 16, 279, 227, 16, 2382, ⟨[[(26534926154543104, 0), (0, 16493261065883113),
    (2312216121611, 0), (0, 176574522), (0, 228107)], [(32257464005522642, 0), (0, 13630056548034), (1081061852, 0),
    (387731, 0), (0, 1630)], [(35938453947719, 0), (0, 2348183185), (0, 518889), (3404, 0)], [(17497946221, 0),
    (4948532, 0), (0, 2893), (1, 0)]], 3, 4⟩, ⟨[[(0, 23830160485005312), (0, 25485512891410498), (2774474891298, 0),
    (0, 210386227), (0, 215633)], [(0, 8126271689086542), (0, 3223923103457), (629340124, 0), (0, 1283358), (0,
    2556)], [(14450580616508, 0), (0, 995774717), (691470, 0), (0, 2567), (0, 3)], [(5978538292, 0), (2245634, 0),
    (3171, 0), (2, 0)]], 3, 4⟩, 72057594037927936, 65304374616, 96672220782, ⟨[[(14763580495595, 0), (4420982559, 0),
    (0, 829280), (0, 383)], [(1117420236, 0), (5384375, 0), (5078, 0), (3, 0)], [(0, 5743851), (0, 15599), (0, 28)],
    [(14413, 0), (46, 0)]], 3, 4⟩, 17592186044416, 164856635,
    3572729842439030439115440105089792535845284829588437617099169811604080189669038234123670859357595148380402959164896253145187943,
    lc0⟩) (.leaf ⟨271, 16, 269, 225, 16, 2399, ⟨[[(15616417064116224, 0), (0, 16271733927100304), (2258071203528, 0),
    (0, 157174777), (0, 264271)], [(33081281221901925, 0), (0, 13256559811594), (1007560863, 0), (560849, 0), (0,
    1596)], [(36061311354039, 0), (0, 1835813533), (0, 745511), (3393, 0)], [(16684739757, 0), (5382702, 0), (0,
    3122), (1, 0)]], 3, 4⟩, ⟨[[(19235704122443776, 0), (0, 25759049563471803), (2812638238857, 0), (0, 250056511),
    (0, 291473)], [(0, 7355128285021328), (0, 3297699075023), (680179602, 0), (0, 1432138), (0, 2732)],
    [(15057508207724, 0), (0, 809415915), (955069, 0), (0, 2405), (0, 3)], [(5956070107, 0), (2318695, 0), (2920, 0),
    (2, 0)]], 3, 4⟩, 72057594037927936, 144350615816, 146065668126, ⟨[[(14761094539169, 0), (4462462860, 0), (0,
    752840), (0, 349)], [(991859763, 0), (5114093, 0), (4479, 0), (2, 0)], [(0, 5564971), (0, 14848), (0, 24)],
    [(13518, 0), (36, 0)]], 3, 4⟩, 17592186044416, 150771619,
    3871572929945856486637034385901765498166928760865542486065388424616259459602721121206548127823841347379142810007835110098166805,
    lc0⟩)))
theorem c71 : checkR job con1 false ⟨7, 9, 7, 9, 13, 17⟩ 1 30400 t71 698 14 320 4039 39 4000 = true := by decide +kernel

def t72 : CTree :=
  .sx (.sx (.sy (.sx (.leaf ⟨284, 16, 252, 250, 16, 2387, ⟨[[(0, 32358019055452160), (0, 15928251597539850),
    (2161862492888, 0), (0, 49512657), (0, 236159)], [(33899239304516352, 0), (0, 12627282939748), (679566039, 0),
    (1145821, 0), (0, 1320)], [(35172007984387, 0), (0, 1069871651), (0, 1750063), (3395, 0), (0, 1)], [(14769954636,
    0), (5915867, 0), (0, 3839), (1, 0)]], 3, 4⟩, ⟨[[(0, 32796080299530240), (0, 26167103406901790), (2877518884741,
    0), (0, 233159200), (0, 25603)], [(0, 6201360078888560), (0, 3459502306468), (1014229166, 0), (0, 892027), (0,
    1474)], [(15529141032956, 0), (0, 835103447), (1609814, 0), (0, 1530), (0, 2)], [(5579849644, 0), (1825402, 0),
    (2001, 0), (1, 0)]], 3, 4⟩, 72057594037927936, 221022429223, 164946663746, ⟨[[(14908320879297, 0), (4601952974,
    0), (0, 656938), (0, 248)], [(838206619, 0), (4744667, 0), (3703, 0), (2, 0)], [(0, 5459171), (0, 15081), (0,
    16)], [(12766, 0), (27, 0)]], 3, 4⟩, 17592186044416, 107673255,
    3302639833127136919527921730442998837521780786770401732720363442276125710439406583008363557652973826728643890428486289845440709,
    lc0⟩) (.leaf ⟨286, 16, 243, 249, 16, 2405, ⟨[[(35991329341386752, 0), (0, 15701004712595108), (2101591797810, 0),
    (0, 14232798), (0, 263770)], [(34620845503771150, 0), (0, 12220536188648), (551307510, 0), (1288860, 0), (0,
    1303)], [(35084776086245, 0), (0, 546831993), (0, 2042221), (3281, 0), (0, 1)], [(13539004794, 0), (5778744, 0),
    (0, 4842), (0, 1)]], 3, 4⟩, ⟨[[(12299059902652416, 0), (0, 26462642532698959), (2929142121351, 0), (0,
    261270031), (0, 68949)], [(0, 5358940490600355), (0, 3528567915524), (1116841645, 0), (0, 982993), (0, 1597)],
    [(16105618141345, 0), (0, 697838641), (1757169, 0), (0, 1480), (0, 2)], [(5287143379, 0), (1529566, 0), (1123,
    0)]], 3, 4⟩, 72057594037927936, 320270760199, 239139431217, ⟨[[(14904687653043, 0), (4627963359, 0), (0, 601579),
    (0, 221)], [(719807053, 0), (4484908, 0), (3409, 0), (2, 0)], [(0, 5331654), (0, 15073), (0, 13)], [(13000, 0),
    (23, 0)]], 3, 4⟩, 17592186044416, 101958027,
    3377517588845805129163201380672091904417456730314190320321088740909763407801226060554789613754136128021733627180968180505228837,
    lc0⟩)) (.sx (.leaf ⟨274, 16, 259, 224, 16, 2417, ⟨[[(0, 7656664655732736), (0, 16025491607165095),
    (2200658664387, 0), (0, 133629489), (0, 297814)], [(33833354356186304, 0), (0, 12850247285659), (922305709, 0),
    (725062, 0), (0, 1562)], [(36053933738959, 0), (0, 1317474121), (0, 1000856), (3331, 0)], [(15630745251, 0),
    (5474390, 0), (0, 3833)]], 3, 4⟩, ⟨[[(17621258404767744, 0), (0, 26045939810091064), (2853745975700, 0), (0,
    294192325), (0, 372877)], [(0, 6546776637919777), (0, 3362682065968), (745680592, 0), (0, 1574318), (0, 2905)],
    [(15667458416781, 0), (0, 623717538), (1186139, 0), (0, 2280), (0, 3)], [(5807045640, 0), (2186648, 0), (2319,
    0), (1, 0)]], 3, 4⟩, 72057594037927936, 236413228086, 216010825090, ⟨[[(14761479744464, 0), (4499202893, 0), (0,
    683326), (0, 313)], [(867490075, 0), (4853285, 0), (3962, 0), (2, 0)], [(0, 5413057), (0, 14458), (0, 20)],
    [(12990, 0), (28, 0)]], 3, 4⟩, 17592186044416, 138284638,
    3993436455686510709248402737531084773252554340872828972542950275938868830867548158386506579936281863065024049679668229803387195,
    lc0⟩) (.leaf ⟨276, 16, 249, 224, 16, 2436, ⟨[[(24474342126358528, 0), (0, 15753538939847966), (2139676565336, 0),
    (0, 106440897), (0, 328759)], [(34502956610158066, 0), (0, 12412658147890), (823145820, 0), (876195, 0), (0,
    1531)], [(35896202269572, 0), (0, 826566521), (0, 1327878), (3175, 0), (0, 1)], [(14304672699, 0), (5134478, 0),
    (0, 5150), (0, 1)]], 3, 4⟩, ⟨[[(0, 27600966102394880), (0, 26346028225825040), (2898205662425, 0), (0,
    342709253), (0, 459915)], [(0, 5700451476556505), (0, 3419431352405), (823205325, 0), (0, 1712947), (0, 3079)],
    [(16268121529959, 0), (0, 460656738), (1347931, 0), (0, 2227), (0, 3)], [(5483170242, 0), (1730991, 0), (1191,
    0)]], 3, 4⟩, 72057594037927936, 355084477551, 306356082216, ⟨[[(14763962429554, 0), (4526916635, 0), (0, 623379),
    (0, 280)], [(753502480, 0), (4619105, 0), (3560, 0), (2, 0)], [(0, 5311831), (0, 14456), (0, 17)], [(12959, 0),
    (22, 0)]], 3, 4⟩, 17592186044416, 130727346,
    3990444218035666403073017375061960424527252393940244241554168286390677262207354094062380850506965997052133228432973992753105801,
    lc0⟩))) (.sy (.sx (.leaf ⟨289, 16, 234, 249, 16, 2424, ⟨[[(15458389240614912, 0), (0, 15449279645157980),
    (2036967370496, 0), (23503549, 0), (0, 289612)], [(35260523413238295, 0), (0, 11784495640212), (408561851, 0),
    (1415663, 0), (0, 1291)], [(34841161316505, 0), (0, 69928062), (0, 2426802), (3050, 0), (0, 1)], [(12043091731,
    0), (5230204, 0), (0, 6420), (0, 2)]], 3, 4⟩, ⟨[[(15749660022857728, 0), (0, 26771803929696794), (2985207923199,
    0), (0, 292246510), (0, 116143)], [(0, 4480078399990073), (0, 3592649029186), (1226481340, 0), (0, 1074754), (0,
    1723)], [(16659664194864, 0), (0, 598991614), (1808986, 0), (0, 1529), (0, 2)], [(4796768613, 0), (873941, 0),
    (0, 339), (0, 1)]], 3, 4⟩, 72057594037927936, 438906985140, 332875959289, ⟨[[(14904669119287, 0), (4653728109,
    0), (0, 545843), (0, 190)], [(590822412, 0), (4182968, 0), (3181, 0), (2, 0)], [(0, 5146362), (0, 15166), (0,
    8)], [(13621, 0), (20, 0)]], 3, 4⟩, 17592186044416, 94090073,
    3410318405268464890892814729334049035390574912553599937928740040054998204259206304683877664958187287955173479928493656943142863,
    lc0⟩) (.leaf ⟨293, 16, 226, 250, 16, 2444, ⟨[[(0, 5082848243597312), (0, 15239729854145713), (1976390075456, 0),
    (63233248, 0), (0, 315251)], [(35965829503119986, 0), (0, 11374052262904), (246958916, 0), (1525372, 0), (0,
    1295)], [(34574047150304, 0), (325635852, 0), (0, 2964069), (2666, 0), (0, 1)], [(10302492955, 0), (4212571, 0),
    (0, 8720), (0, 5)]], 3, 4⟩, ⟨[[(0, 21344810114088960), (0, 27094577158577405), (3045874688209, 0), (0,
    326246290), (0, 167399)], [(0, 3565589759286830), (0, 3654839816711), (1336341748, 0), (0, 1174493), (0, 1857)],
    [(17172387761604, 0), (0, 574702233), (1706820, 0), (0, 1735), (0, 2)], [(4052821134, 0), (0, 277794), (0, 2591),
    (0, 3)]], 3, 4⟩, 72057594037927936, 575178827693, 449665797187, ⟨[[(14907210101847, 0), (4673260782, 0), (0,
    492816), (0, 155)], [(463135872, 0), (3853936, 0), (3067, 0), (2, 0)], [(0, 4882690), (0, 15234), (0, 3)],
    [(14649, 0), (20, 0)]], 3, 4⟩, 17592186044416, 85034771,
    3359238934391691308194992335100698319916000391318319126648076064468219626549125901758162914609603836039521219064787101646083555,
    lc0⟩)) (.sx (.leaf ⟨280, 16, 240, 223, 16, 2456, ⟨[[(0, 24893205553770496), (0, 15519644728270349),
    (2083430617951, 0), (0, 76581475), (0, 358700)], [(35225068032065216, 0), (0, 11997380431727), (708456573, 0),
    (1011869, 0), (0, 1514)], [(35715242903769, 0), (0, 404377967), (0, 1785254), (2886, 0), (0, 1)], [(12729047370,
    0), (4289656, 0), (0, 7230), (0, 3)]], 3, 4⟩, ⟨[[(28804036286896128, 0), (0, 26659194119433508), (2946322293927,
    0), (0, 395643822), (0, 552749)], [(0, 4816178008244953), (0, 3470040779668), (907579907, 0), (0, 1853543), (0,
    3257)], [(16842590006661, 0), (0, 353493466), (1386714, 0), (0, 2299), (0, 3)], [(4926430591, 0), (806739, 0),
    (0, 681), (0, 2)]], 3, 4⟩, 72057594037927936, 493882506398, 421035863229, ⟨[[(14760877447142, 0), (4556737447,
    0), (0, 563590), (0, 246)], [(617839655, 0), (4316693, 0), (3182, 0), (2, 0)], [(0, 5100564), (0, 14484), (0,
    13)], [(13058, 0), (17, 0)]], 3, 4⟩, 17592186044416, 117274261,
    3956039532705789706195114850647530194768593186270667305776538048268424452395010863310564535233321982039635867959068766397016436,
    lc0⟩) (.leaf ⟨283, 16, 231, 224, 16, 2476, ⟨[[(0, 20209133020438528), (0, 15261207908041925), (2022879108663, 0),
    (0, 44346464), (0, 386721)], [(35856955333943803, 0), (0, 11560441832444), (566987948, 0), (1119849, 0), (0,
    1509)], [(35347743362233, 0), (0, 92039889), (0, 2430595), (2390, 0), (0, 1)], [(10809620781, 0), (2819751, 0),
    (0, 10198), (0, 6)]], 3, 4⟩, ⟨[[(0, 34699620917178368), (0, 26974509907125727), (2997001339015, 0), (0,
    453054694), (0, 651416)], [(0, 3893492754455587), (0, 3517437104149), (989609475, 0), (0, 2004314), (0, 3444)],
    [(17361415029306, 0), (0, 349145938), (1227546, 0), (0, 2567), (0, 3)], [(4066179916, 0), (0, 760868), (0, 3557),
    (0, 4)]], 3, 4⟩, 72057594037927936, 651821904298, 563917710881, ⟨[[(14764840045905, 0), (4578040336, 0), (0,
    512335), (0, 212)], [(497781232, 0), (4034528, 0), (2936, 0), (2, 0)], [(0, 4920462), (0, 14827), (0, 9)],
    [(13739, 0), (14, 0)]], 3, 4⟩, 17592186044416, 108517056,
    3837040107515711972808578338596343414712980790026909086035602169039070062071613155919563953238093666362217646131544700174336519,
    lc0⟩)))) (.sx (.sy (.out ⟨163, 16, 141, 1675, 16, 2033, ⟨[[(0, 33866331925045248), (0, 9805483824078267),
    (1235805880794, 0)], [(48563954148601381, 0), (0, 14135100719560), (0, 71374866)], [(89104338398424, 0),
    (1783033807, 0), (0, 10978634)]], 2, 2⟩, ⟨[[(9047542202875904, 0), (0, 26066765620048647), (2970015362827, 0)],
    [(0, 4026234013433585), (0, 7096302254413), (2789072366, 0)], [(67268770687372, 0), (0, 2982617448), (4108546,
    0)]], 2, 2⟩, 72057594037927936, 120357644137532, 84515220888360, ⟨[], 0, 0⟩, 0, 0, 0, lc0⟩ 0 94 15) (.sx (.leaf
    ⟨287, 16, 223, 224, 16, 2498, ⟨[[(0, 17769566081335296), (0, 15045183359248148), (1966070963457, 0), (0,
    10886075), (0, 415088)], [(36549248305792014, 0), (0, 11160114504050), (389618164, 0), (1192939, 0), (0, 1531)],
    [(34924807083355, 0), (58363953, 0), (0, 3348610), (1628, 0), (0, 2)], [(8552387497, 0), (628402, 0), (0, 14255),
    (0, 10)]], 3, 4⟩, ⟨[[(12238338413256704, 0), (0, 27313854571658394), (3052457504808, 0), (0, 515848381), (0,
    756929)], [(0, 2938483073105922), (0, 3571932976267), (1056329433, 0), (0, 2180599), (0, 3652)],
    [(17809477005626, 0), (0, 511567573), (772175, 0), (0, 3127), (0, 3)], [(2824818846, 0), (0, 3180614), (0, 7750),
    (0, 9)]], 3, 4⟩, 72057594037927936, 833335241091, 740530493774, ⟨[[(14761849233639, 0), (4593770026, 0), (0,
    462614), (0, 177)], [(371131205, 0), (3704516, 0), (2772, 0), (2, 0)], [(0, 4629188), (0, 15159), (0, 5)],
    [(14758, 0), (13, 0)]], 3, 4⟩, 17592186044416, 97976093,
    3589564046710573861871223259431721147142678906126876071224447671659394119819646508990604229646222763534901538986083418754277820,
    lc0⟩) (.out ⟨234, 16, 211, 1741, 16, 2149, ⟨[[(34771631823544320, 0), (0, 14531203182999711), (1867787107564,
    0)], [(36450337361499488, 0), (0, 10557189601391), (155370075, 0)], [(33631355296821, 0), (0, 11612622), (0,
    4528189)]], 2, 2⟩, ⟨[[(0, 20081424375431168), (0, 27121885649934648), (3049556142075, 0)], [(0,
    1915115894744663), (0, 3572026974230), (1065682904, 0)], [(17785795937983, 0), (0, 906066886), (0, 107035)]], 2,
    2⟩, 72057594037927936, 20537149895969, 43158512641035, ⟨[], 0, 0⟩, 0, 0, 0, lc0⟩ 0 121 13))) (.out ⟨123, 16, 98,
    875, 16, 1071, ⟨[[(0, 4214604615413760), (0, 14045037318339246), (3440427380162, 0)], [(36887241462507099, 0),
    (0, 19597662358620), (0, 1835986385)], [(63333740016376, 0), (0, 430417822), (0, 55312015)]], 2, 2⟩, ⟨[[(0,
    30550396069969920), (0, 27428617339198933), (6308156846378, 0)], [(0, 274519414006431), (0, 7539433910176),
    (5011022595, 0)], [(35465597560731, 0), (0, 8018478972), (0, 14400067)]], 2, 2⟩, 72057594037927936,
    82162061598068, 209887903297224, ⟨[], 0, 0⟩, 0, 0, 0, lc0⟩ 0 44 11))
theorem c72 : checkR job con1 false ⟨7, 9, 7, 9, 13, 17⟩ 1 30400 t72 370 14 160 4039 39 4000 = true := by decide +kernel

def t73 : CTree :=
  .out ⟨101, 16, 86, 1604, 16, 1558, ⟨[[(3602879701896192, 0)], [(77461913590772526, 0)]], 2, 2⟩, ⟨[[(0,
    30876679045251072), (28066432877772931, 0)]], 2, 2⟩, 72057594037927936, 278, 1052, ⟨[], 0, 0⟩, 0, 0, 0, lc0⟩ 2 1
    98396
theorem c73 : checkR job con1 false ⟨7, 9, 7, 9, 13, 17⟩ 1 30400 t73 94 14 80 4117 39 4000 = true := by decide +kernel

def t74 : CTree :=
  .sy (.sx (.sy (.out ⟨396, 16, 2275, 6355, 16, 10037, ⟨[[(13721237048184832, 0), (0, 21901134458068667),
    (6625383668007, 0)], [(0, 9212210420761808), (0, 102349123593540), (711003264, 0)], [(211642572906094, 0), (0,
    505703608811), (0, 266759063)]], 2, 2⟩, ⟨[[(34531906379120640, 0), (0, 28008106049624556), (1712929242837, 0)]],
    2, 2⟩, 72057594037927936, 7389139477298482, 6229110480973, ⟨[], 0, 0⟩, 0, 0, 0, lc0⟩ 3 1 12460) (.out ⟨353, 16,
    2152, 6386, 16, 10133, ⟨[[(0, 8037197794107392), (0, 19697914557223431), (6809007603540, 0)], [(0,
    16262747009798235), (0, 96752423176275), (133461342, 0)], [(161287649412290, 0), (0, 520241240050), (0,
    285149922)]], 2, 2⟩, ⟨[[(0, 14095340839370752), (0, 28008138059855652), (1704798713242, 0)]], 2, 2⟩,
    72057594037927936, 7149977456695908, 6170040004487, ⟨[], 0, 0⟩, 0, 0, 0, lc0⟩ 3 1 15984)) (.sy (.out ⟨337, 16,
    1940, 6355, 16, 10037, ⟨[[(33732362066681856, 0), (0, 21445222636119572), (5501904872257, 0)],
    [(7865251102613255, 0), (0, 109942685116837), (0, 10592614573)], [(392121345917253, 0), (0, 370383611173), (0,
    166045174)]], 2, 2⟩, ⟨[[(34531906379120640, 0), (0, 28008106049624556), (1712929242837, 0)]], 2, 2⟩,
    72057594037927936, 8516653923531773, 6229110480973, ⟨[], 0, 0⟩, 0, 0, 0, lc0⟩ 3 1 12815) (.out ⟨360, 16, 2220,
    6386, 16, 10133, ⟨[[(11270790297632768, 0), (0, 23518613898571257), (6814367874285, 0)], [(0, 891050842495683),
    (0, 127876448310676), (0, 14396052193)], [(414448013089268, 0), (0, 455522043372), (0, 216636666)]], 2, 2⟩,
    ⟨[[(0, 14095340839370752), (0, 28008138059855652), (1704798713242, 0)]], 2, 2⟩, 72057594037927936,
    10057963027732072, 6170040004487, ⟨[], 0, 0⟩, 0, 0, 0, lc0⟩ 3 1 17855))) (.sx (.out ⟨484, 16, 347, 3223, 16,
    3117, ⟨[[(0, 26571237801484288)], [(78137453534878098, 0)]], 2, 2⟩, ⟨[[(26490173008183296, 0),
    (28075440077027673, 0)]], 2, 2⟩, 72057594037927936, 1745, 9998, ⟨[], 0, 0⟩, 0, 0, 0, lc0⟩ 2 1 48477) (.out ⟨161,
    16, 1106, 3208, 16, 5127, ⟨[[(5523132604063744, 0), (0, 21742925013650750), (15377672223286, 0)], [(0,
    8004305458851144), (0, 131207618190198), (0, 36308783921)], [(178348021660903, 0), (0, 509579080343), (0,
    522850822)]], 2, 2⟩, ⟨[[(13113175619207168, 0), (0, 27943173558478425), (3377634903720, 0)]], 2, 2⟩,
    72057594037927936, 6057442198838429, 24333000373303, ⟨[], 0, 0⟩, 0, 0, 0, lc0⟩ 3 1 24833))
theorem c74 : checkR job con1 false ⟨7, 9, 7, 9, 13, 17⟩ 1 30400 t74 230 14 160 4117 39 4000 = true := by decide +kernel

def t75 : CTree :=
  .sy (.sx (.sy (.out ⟨520, 16, 2892, 12712, 16, 20051, ⟨[[(24087557492039680, 0), (0, 17970088258144604),
    (1909104335423, 0)], [(22982087433535017, 0), (0, 46014579365172), (0, 2898821342)], [(222838091533135, 0), (0,
    55392568684), (0, 8973063)]], 2, 2⟩, ⟨[[(0, 32110397578674176), (0, 28042862719669396), (858551349223, 0)]], 2,
    2⟩, 72057594037927936, 1794850057246398, 1561071853446, ⟨[], 0, 0⟩, 0, 0, 0, lc0⟩ 3 1 8586) (.out ⟨532, 16, 3068,
    12742, 16, 20147, ⟨[[(0, 33306920632254464), (0, 18742000111184318), (2099901957873, 0)], [(20553915308855038,
    0), (0, 49315207812067), (0, 3340871601)], [(231756496212944, 0), (0, 60306417723), (0, 10267381)]], 2, 2⟩,
    ⟨[[(0, 973685364752384), (0, 28043031353529613), (856511143628, 0)]], 2, 2⟩, 72057594037927936, 1931593840156314,
    1553647728358, ⟨[], 0, 0⟩, 0, 0, 0, lc0⟩ 3 1 11542)) (.sy (.sx (.sy (.out ⟨927, 16, 5023, 25423, 16, 40078,
    ⟨[[(0, 12815988271857664), (0, 16527503481876319), (794265202913, 0)], [(29646445476997221, 0), (0,
    20875001150557), (0, 681797153)], [(115103668321253, 0), (0, 10505779821), (0, 605864)]], 2, 2⟩,
    ⟨[[(5145729176436736, 0), (0, 28059573252797929), (429788062751, 0)]], 2, 2⟩, 72057594037927936, 408930375090343,
    390734164234, ⟨[], 0, 0⟩, 0, 0, 0, lc0⟩ 3 1 4648) (.out ⟨933, 16, 5154, 25454, 16, 40174, ⟨[[(0,
    21197525543870464), (0, 16830320631732217), (828950988653, 0)], [(28744594017783849, 0), (0, 21530890054849), (0,
    729620687)], [(117260914150884, 0), (0, 10878954920), (0, 650068)]], 2, 2⟩, ⟨[[(0, 31846826266853376), (0,
    28059697878301092), (429277103623, 0)]], 2, 2⟩, 72057594037927936, 422343291880699, 389803326388, ⟨[], 0, 0⟩, 0,
    0, 0, lc0⟩ 3 1 6486)) (.sy (.leaf ⟨1970, 16, 4612, 1038, 16, 6536, ⟨[[(0, 26316367291514880), (0,
    15719168454557932), (711367565882, 0), (49303841, 0), (5272, 0)], [(33459302985060512, 0), (0, 19682316898567),
    (0, 651118906), (0, 118808), (0, 9)], [(117195618587309, 0), (0, 8762582488), (0, 340655), (0, 82)],
    [(139592991926, 0), (10422808, 0), (2556, 0)]], 3, 4⟩, ⟨[[(0, 25662024690401280), (0, 8542490479574489), (0,
    37167139), (0, 14872185), (0, 667)], [(0, 55815555810562734), (2145871563284, 0), (567946113, 0), (74675, 0), (6,
    0)], [(4757925800423, 0), (0, 5718446181), (0, 1052787), (0, 130)], [(11450604613, 0), (3419563, 0), (607, 0)]],
    3, 4⟩, 72057594037927936, 1740080507854, 490873326077, ⟨[[(14683694796178, 0), (461243788, 0), (0, 852403), (0,
    285)], [(792011684, 0), (1788175, 0), (2238, 0), (1, 0)], [(0, 866440), (0, 3453), (0, 5)], [(1493, 0), (7, 0)]],
    3, 4⟩, 17592186044416, 278447,
    4842070872060716145917207634210342306896236568258224805753753185567425581572375680721276997780304986358992498414131243591338186,
    lc0⟩) (.sy (.out ⟨1185, 16, 6427, 50907, 16, 80324, ⟨[[(0, 32745698951151616), (0, 10894286196920248),
    (250881976713, 0)], [(45019149571704649, 0), (0, 13767969691485), (0, 234170127)], [(162600626780111, 0), (0,
    6133859460), (0, 123743)]], 2, 2⟩, ⟨[[(6984781532233728, 0), (0, 28068060726984487), (214766592397, 0)]], 2, 2⟩,
    72057594037927936, 540231430050067, 97509048413, ⟨[], 0, 0⟩, 0, 0, 0, lc0⟩ 3 1 3532) (.out ⟨1191, 16, 6526,
    50938, 16, 80420, ⟨[[(0, 11584720207708160), (0, 11022194683052431), (256855992009, 0)], [(44620713401513874, 0),
    (0, 14017533664712), (0, 242814983)], [(164618706335079, 0), (0, 6248217414), (0, 129147)]], 2, 2⟩, ⟨[[(0,
    33282762885562368), (0, 28068092914536993), (214638736356, 0)]], 2, 2⟩, 72057594037927936, 550213346883231,
    97392807772, ⟨[], 0, 0⟩, 0, 0, 0, lc0⟩ 3 1 4571)))) (.sy (.out ⟨616, 16, 3448, 25484, 16, 40270, ⟨[[(0,
    31152153545695232), (0, 11376300497305520), (557013758690, 0)], [(40688461876435241, 0), (0, 29365039210700), (0,
    1040459287)], [(328768649352288, 0), (0, 27959755436), (0, 1477031)]], 2, 2⟩, ⟨[[(0, 2018401002192896), (0,
    28059742188798700), (428766135244, 0)]], 2, 2⟩, 72057594037927936, 2311220083989070, 388875024753, ⟨[], 0, 0⟩, 0,
    0, 0, lc0⟩ 3 1 7134) (.out ⟨624, 16, 3565, 25514, 16, 40366, ⟨[[(0, 16420062974238720), (0, 11671710792331679),
    (585914088641, 0)], [(39694301750599497, 0), (0, 30532766837647), (0, 1120468868)], [(337660358921313, 0), (0,
    29152469242), (0, 1600962)]], 2, 2⟩, ⟨[[(22592112838311936, 0), (0, 28059706756559445), (428255166383, 0)]], 2,
    2⟩, 72057594037927936, 2405303751378077, 387948962700, ⟨[], 0, 0⟩, 0, 0, 0, lc0⟩ 3 1 9052)))) (.out ⟨229, 16,
    1394, 6386, 16, 10133, ⟨[[(33277799649116160, 0), (0, 17221140739302840), (3936950072499, 0)],
    [(19483147642576359, 0), (0, 94191122324500), (0, 14714998698)], [(462504957573653, 0), (0, 207564704878), (0,
    64296579)]], 2, 2⟩, ⟨[[(0, 14095340839370752), (0, 28008138059855652), (1704798713242, 0)]], 2, 2⟩,
    72057594037927936, 7643063658045180, 6170040004487, ⟨[], 0, 0⟩, 0, 0, 0, lc0⟩ 3 1 15742)
theorem c75 : checkR job con1 false ⟨7, 9, 7, 9, 13, 17⟩ 1 30400 t75 502 14 320 8195 39 8000 = true := by decide +kernel

def t76 : CTree :=
  .sx (.sy (.sx (.leaf ⟨1179, 16, 2752, 783, 16, 5063, ⟨[[(0, 29831218811731968), (0, 19360256987214329),
    (1666818162504, 0), (222954056, 0), (48345, 0)], [(23610181143703918, 0), (0, 24108196966837), (0, 1619842771),
    (0, 592869), (0, 93)], [(76867448466368, 0), (0, 9441521779), (0, 321606), (0, 276)], [(86441864163, 0),
    (12230927, 0), (6047, 0), (1, 0)]], 3, 4⟩, ⟨[[(34383044408221696, 0), (0, 13146598516749707), (41959868928, 0),
    (0, 80319959), (0, 6229)], [(0, 42952478227671726), (2903458652993, 0), (1606360007, 0), (423647, 0), (65, 0)],
    [(4308946885640, 0), (0, 8513243502), (0, 3140114), (0, 781)], [(9981930464, 0), (5898942, 0), (2121, 0)]], 3,
    4⟩, 72057594037927936, 979061022875, 330644139783, ⟨[[(14674859355840, 0), (666915238, 0), (0, 1358899), (0,
    663), (1, 0)], [(1233539758, 0), (3530616, 0), (5875, 0), (4, 0)], [(0, 2117218), (0, 11080), (0, 24)], [(5931,
    0), (38, 0)]], 3, 4⟩, 17592186044416, 1795564,
    3761221928171045013248024918860201507115420294315960836132588824643951235277691988169392146850567692656985411754589833054265798,
    lc0⟩) (.leaf ⟨1099, 16, 2544, 772, 16, 5094, ⟨[[(0, 15457921145274368), (0, 18527589244521505), (1498798727596,
    0), (190586316, 0), (42240, 0)], [(25994872242486757, 0), (0, 22748697287784), (0, 1501069596), (0, 559239), (0,
    89)], [(77876913043144, 0), (0, 7803654201), (163583, 0), (0, 145)], [(82428231438, 0), (10662503, 0), (5368, 0),
    (1, 0)]], 3, 4⟩, ⟨[[(0, 33723737455616000), (0, 13151881146819646), (85041195036, 0), (0, 69482931), (0, 4555)],
    [(0, 42948372308152841), (2455872326372, 0), (1444434457, 0), (383333, 0), (57, 0)], [(5215759286009, 0), (0,
    8049200296), (0, 2972616), (0, 746)], [(10892375427, 0), (6332649, 0), (2303, 0)]], 3, 4⟩, 72057594037927936,
    854864679080, 274687932486, ⟨[[(14675498342519, 0), (736604346, 0), (0, 1257513), (0, 644)], [(1236061130, 0),
    (3392279, 0), (5616, 0), (4, 0)], [(0, 2105038), (0, 10873), (0, 24)], [(6098, 0), (40, 0)]], 3, 4⟩,
    17592186044416, 1988085,
    4632326406483774769171704940235423913194990331135145305764977621148910137245775988497009251466191426740255303143030043851972910,
    lc0⟩)) (.sx (.sy (.sx (.out ⟨1042, 16, 5729, 25484, 16, 40270, ⟨[[(0, 26208329902260224), (0, 19769685168765621),
    (894641300769, 0)], [(22002705287585993, 0), (0, 12578621674740), (0, 447500769)], [(38767836335877, 0), (0,
    2538590691), (0, 65599)]], 2, 2⟩, ⟨[[(0, 2018401002192896), (0, 28059742188798700), (428766135244, 0)]], 2, 2⟩,
    72057594037927936, 65905605000159, 388875024753, ⟨[], 0, 0⟩, 0, 0, 0, lc0⟩ 3 1 3906) (.leaf ⟨2376, 16, 5611,
    1545, 16, 10178, ⟨[[(0, 27722953587261440), (0, 19709349653375465), (863900944683, 0), (58651542, 0), (6276, 0)],
    [(23727916770370025, 0), (0, 12454876855993), (0, 440934578), (0, 78876), (0, 6)], [(39835630038193, 0), (0,
    2347678285), (0, 30517), (0, 17)], [(22393659888, 0), (1630596, 0), (398, 0)]], 3, 4⟩, ⟨[[(14439443368296448, 0),
    (0, 13188663200029553), (19777504103, 0), (0, 19775372), (0, 674)], [(0, 42941703696108315), (1493767568020, 0),
    (411213601, 0), (53723, 0), (4, 0)], [(2020072736331, 0), (0, 2200829359), (0, 406245), (0, 51)], [(2655391449,
    0), (787588, 0), (141, 0)]], 3, 4⟩, 72057594037927936, 120354747806, 40067405368, ⟨[[(14648399082896, 0),
    (327218624, 0), (0, 349391), (0, 92)], [(608423786, 0), (895032, 0), (775, 0)], [(0, 529255), (0, 1435), (0, 2)],
    [(737, 0), (2, 0)]], 3, 4⟩, 17592186044416, 170628,
    4191972462019014830454748564663076478761758390720627253330981957022587411491050122944964096707230908716614466470265945011158441,
    lc0⟩)) (.out ⟨780, 16, 4362, 25514, 16, 40366, ⟨[[(3224787797663744, 0), (0, 15080511339943299), (687442928897,
    0)], [(33671842851546423, 0), (0, 19370105731082), (0, 712745871)], [(120372784252868, 0), (0, 7538665751), (0,
    160861)]], 2, 2⟩, ⟨[[(22592112838311936, 0), (0, 28059706756559445), (428255166383, 0)]], 2, 2⟩,
    72057594037927936, 387495919257253, 387948962700, ⟨[], 0, 0⟩, 0, 0, 0, lc0⟩ 3 1 5270)) (.leaf ⟨1113, 16, 2624,
    760, 16, 5109, ⟨[[(0, 15554648381636608), (0, 18865381080983582), (1593543514504, 0), (210464616, 0), (45446,
    0)], [(24972427117467662, 0), (0, 23716300390484), (0, 1686659823), (0, 606248), (0, 97)], [(79699000536625, 0),
    (0, 8025540305), (132168, 0), (0, 163)], [(85912466735, 0), (11886202, 0), (5856, 0), (1, 0)]], 3, 4⟩, ⟨[[(0,
    33707875789176832), (0, 13178583551891280), (68825129193, 0), (0, 71019936), (0, 3959)], [(0, 42873719322533440),
    (2696226258998, 0), (1540766895, 0), (402606, 0), (59, 0)], [(4582932717921, 0), (0, 8551910201), (0, 3161440),
    (0, 791)], [(11434144307, 0), (6720899, 0), (2429, 0), (1, 0)]], 3, 4⟩, 72057594037927936, 861606095924,
    285432879727, ⟨[[(14640240793133, 0), (701089156, 0), (0, 1340161), (0, 751)], [(1235159767, 0), (3566847, 0),
    (6259, 0), (5, 0)], [(0, 2188058), (0, 11941), (0, 28)], [(6349, 0), (44, 0)]], 3, 4⟩, 17592186044416, 2010499,
    4603622048685211856574810351830195116021611216398819858304862834450118650756335048363574403718786673149736956156310781280739205,
    lc0⟩))) (.sy (.leaf ⟨699, 16, 1593, 489, 16, 3334, ⟨[[(0, 16451758864875520), (0, 12208011188230827),
    (899463814449, 0), (104532521, 0), (24076, 0)], [(41301628518390683, 0), (0, 29242549388634), (0, 1828093326),
    (0, 707218), (0, 114)], [(221636427866086, 0), (0, 16384160188), (2029812, 0), (32, 0)], [(430557168153, 0),
    (46584695, 0), (24381, 0), (6, 0)]], 3, 4⟩, ⟨[[(0, 23694554861805568), (0, 8549318466421164), (92046951448, 0),
    (0, 35775565), (0, 1556)], [(0, 55567623769017893), (2374511194908, 0), (1580292255, 0), (423291, 0), (61, 0)],
    [(17418235698025, 0), (0, 18917639420), (0, 6992528), (0, 1782)], [(62137349601, 0), (35005666, 0), (12918, 0),
    (3, 0)]], 3, 4⟩, 72057594037927936, 8008219883004, 2060939307007, ⟨[[(14675868406485, 0), (1297437818, 0), (0,
    2622710), (0, 2128), (1, 0)], [(1749497673, 0), (6871188, 0), (16948, 0), (24, 0)], [(0, 4097729), (0, 31253),
    (0, 116)], [(17253, 0), (178, 0), (1, 0)]], 3, 4⟩, 17592186044416, 11120557,
    5440634792906399287367828567013685907584269733713499286979994859334735158417485296800733135180644888664992181418141823314289858,
    lc0⟩) (.sx (.leaf ⟨1037, 16, 2422, 747, 16, 5140, ⟨[[(0, 7093720304779264), (0, 18031599266721963),
    (1427491648365, 0), (178504424, 0), (39411, 0)], [(27357832173178578, 0), (0, 22280244471688), (0, 1537499765),
    (0, 565022), (0, 91)], [(80318028378802, 0), (0, 6521019007), (563596, 0), (0, 45)], [(81496800381, 0),
    (10105886, 0), (5095, 0), (1, 0)]], 3, 4⟩, ⟨[[(31251080487182336, 0), (0, 13189190274862709), (110206821673, 0),
    (0, 60721918), (0, 2437)], [(0, 42848012192810194), (2246930451416, 0), (1377860706, 0), (361730, 0), (51, 0)],
    [(5608329137175, 0), (0, 8022716324), (0, 2969538), (0, 751)], [(12220340567, 0), (7050746, 0), (2573, 0), (1,
    0)]], 3, 4⟩, 72057594037927936, 749268330978, 226820840068, ⟨[[(14639668483065, 0), (776595094, 0), (0, 1225193),
    (0, 706)], [(1229343522, 0), (3375663, 0), (5845, 0), (5, 0)], [(0, 2137014), (0, 11418), (0, 28)], [(6363, 0),
    (45, 0)]], 3, 4⟩, 17592186044416, 2179347,
    4227883835645214802701087073021622537005860979618983910883861958696047470948530779417112346433910270678291694100617288554989818,
    lc0⟩) (.leaf ⟨969, 16, 2238, 735, 16, 5172, ⟨[[(0, 15746237643407360), (0, 17242710985663560), (1279775005788,
    0), (150317088, 0), (34035, 0)], [(29614199929871717, 0), (0, 20903815833295), (0, 1380730073), (0, 521771), (0,
    85)], [(80623044224983, 0), (0, 5281274413), (901455, 0), (52, 0)], [(77220236284, 0), (8355602, 0), (4344, 0),
    (1, 0)]], 3, 4⟩, ⟨[[(28730618091044864, 0), (0, 13214168385265859), (147427968826, 0), (0, 51488085), (0, 1111)],
    [(0, 42769360542748635), (1825684332548, 0), (1225271672, 0), (323028, 0), (44, 0)], [(6700581355424, 0), (0,
    7469264414), (0, 2766826), (0, 707)], [(12851250512, 0), (7249904, 0), (2669, 0), (1, 0)]], 3, 4⟩,
    72057594037927936, 658427844017, 170375665972, ⟨[[(14639938003908, 0), (847097993, 0), (0, 1114352), (0, 642)],
    [(1224670902, 0), (3180706, 0), (5337, 0), (5, 0)], [(0, 2073884), (0, 10672), (0, 27)], [(6250, 0), (45, 0)]],
    3, 4⟩, 17592186044416, 2390809,
    4292314708245425851352832708290774045270383704186190048278459662056484146624873679479603053006356548957371139030316699418231851,
    lc0⟩)))
theorem c76 : checkR job con1 false ⟨7, 9, 7, 9, 13, 17⟩ 1 30400 t76 530 14 320 16351 39 16000 = true := by decide +kernel

def t77 : CTree :=
  .sx (.sy (.sx (.out ⟨501, 16, 2890, 12772, 16, 20243, ⟨[[(0, 23414018053918720), (0, 19767077084327710),
    (1867606437763, 0)], [(20800832479512992, 0), (0, 25894827374548), (0, 2007280494)], [(79165899518604, 0), (0,
    10042519880), (0, 483296)]], 2, 2⟩, ⟨[[(19739587158736896, 0), (0, 28042881581997450), (854470933971, 0)]], 2,
    2⟩, 72057594037927936, 274861235602884, 1546258888554, ⟨[], 0, 0⟩, 0, 0, 0, lc0⟩ 3 1 8228) (.sy (.sy (.out ⟨963,
    16, 5373, 51089, 16, 80900, ⟨[[(2309443792461824, 0), (0, 9577049404615127), (207960293110, 0)],
    [(48758701841821934, 0), (0, 12227013729571), (0, 227380382)], [(162394113843528, 0), (0, 4102358542), (13776,
    0)]], 2, 2⟩, ⟨[[(14475467938070528, 0), (0, 28067954904136497), (213999457941, 0)]], 2, 2⟩, 72057594037927936,
    489180583010801, 96814316671, ⟨[], 0, 0⟩, 0, 0, 0, lc0⟩ 3 1 3620) (.out ⟨966, 16, 5446, 51120, 16, 80997, ⟨[[(0,
    26921519027519488), (0, 9674154333519447), (212464804698, 0)], [(48453083145090322, 0), (0, 12429460510762), (0,
    235246231)], [(164276224354045, 0), (0, 4156019379), (12643, 0)]], 2, 2⟩, ⟨[[(4064800083017728, 0), (0,
    28068214543299220), (213874246922, 0)]], 2, 2⟩, 72057594037927936, 497234225628473, 96699698584, ⟨[], 0, 0⟩, 0,
    0, 0, lc0⟩ 3 1 4647)) (.out ⟨714, 16, 4096, 25575, 16, 40558, ⟨[[(34242201508978688, 0), (0, 14476852454131231),
    (646923709087, 0)], [(35345925020437102, 0), (0, 18780764726499), (0, 729622308)], [(123188466516992, 0), (0,
    6247487011), (31917, 0)]], 2, 2⟩, ⟨[[(0, 15823824391241728), (0, 28059398932588511), (427233261760, 0)]], 2, 2⟩,
    72057594037927936, 378803539392363, 386103439202, ⟨[], 0, 0⟩, 0, 0, 0, lc0⟩ 3 1 6488))) (.out ⟨363, 16, 2168,
    12802, 16, 20339, ⟨[[(0, 31771049864376320), (0, 14883265811347184), (1426589428093, 0)], [(31535398255495721,
    0), (0, 39751388141621), (0, 3276138667)], [(247145175920489, 0), (0, 28377137064), (0, 756432)]], 2, 2⟩,
    ⟨[[(30103563071389696, 0), (0, 28042417923720245), (852430857638, 0)]], 2, 2⟩, 72057594037927936,
    1611666872777854, 1538905233303, ⟨[], 0, 0⟩, 0, 0, 0, lc0⟩ 3 1 10873)) (.sx (.sy (.leaf ⟨1049, 16, 2496, 735, 16,
    5154, ⟨[[(0, 29345859222372352), (0, 18349595383635200), (1515655292625, 0), (196890392, 0), (42288, 0)],
    [(26392827047133001, 0), (0, 23218966146450), (0, 1724237449), (0, 612553), (0, 100)], [(82251336947669, 0), (0,
    6630539342), (569082, 0), (0, 54)], [(84831691038, 0), (11257306, 0), (5555, 0), (1, 0)]], 3, 4⟩,
    ⟨[[(11722338607554560, 0), (0, 13208990669606060), (96178733262, 0), (0, 61538731), (0, 1718)], [(0,
    42780401125843584), (2475300612299, 0), (1468378125, 0), (378902, 0), (52, 0)], [(4977650328571, 0), (0,
    8523075492), (0, 3158786), (0, 796)], [(12821048873, 0), (7482857, 0), (2715, 0), (1, 0)]], 3, 4⟩,
    72057594037927936, 746108597236, 234219830677, ⟨[[(14605195263212, 0), (742844467, 0), (0, 1306287), (0, 818)],
    [(1228225670, 0), (3553628, 0), (6547, 0), (6, 0)], [(0, 2214195), (0, 12584), (0, 32)], [(6551, 0), (50, 0)]],
    3, 4⟩, 17592186044416, 2176907,
    5016072374242057322773290595198152066431126127761524950487310453040453338679179759366136986656102935592453713329786962653562881,
    lc0⟩) (.sx (.out ⟨534, 16, 3117, 12802, 16, 20339, ⟨[[(0, 11133903472410624), (0, 22410066104884582),
    (1968625529789, 0)], [(14635424014478965, 0), (0, 14614634629213), (0, 1172744073)], [(24957956664010, 0), (0,
    2123209792), (134530, 0)]], 2, 2⟩, ⟨[[(30103563071389696, 0), (0, 28042417923720245), (852430857638, 0)]], 2, 2⟩,
    72057594037927936, 53284195687936, 1538905233303, ⟨[], 0, 0⟩, 0, 0, 0, lc0⟩ 3 1 6990) (.sy (.out ⟨872, 16, 4980,
    25606, 16, 40655, ⟨[[(23722910721376256, 0), (0, 18290441915912625), (767290711098, 0)], [(26124253267602437, 0),
    (0, 11730352331442), (0, 455190311)], [(41732659083175, 0), (0, 1575487527), (84739, 0)]], 2, 2⟩, ⟨[[(0,
    33429638890913792), (0, 28059817858661583), (426732839460, 0)]], 2, 2⟩, 72057594037927936, 62258301568335,
    385193625208, ⟨[], 0, 0⟩, 0, 0, 0, lc0⟩ 3 1 4087) (.out ⟨866, 16, 5061, 25636, 16, 40751, ⟨[[(33366325668257792,
    0), (0, 18465345791984988), (791978819553, 0)], [(25616463355273646, 0), (0, 11994798162130), (0, 481730731)],
    [(42287079421372, 0), (0, 1587717643), (85608, 0)]], 2, 2⟩, ⟨[[(0, 29559294097096704), (0, 28059467462552573),
    (426221917011, 0)]], 2, 2⟩, 72057594037927936, 63700790288336, 384276051319, ⟨[], 0, 0⟩, 0, 0, 0, lc0⟩ 3 1
    6457)))) (.leaf ⟨601, 16, 1429, 490, 16, 3547, ⟨[[(0, 9809616803618816), (0, 21628916525220693), (3410667977782,
    0), (851642129, 0), (368619, 0)], [(17334894233029893, 0), (0, 27135539849922), (0, 4012684463), (0, 2878639),
    (0, 952)], [(51092532576991, 0), (0, 6472348842), (2346687, 0), (240, 0)], [(49969695518, 0), (12025875, 0),
    (12089, 0), (6, 0)]], 3, 4⟩, ⟨[[(0, 25487834313428992), (0, 18080359386532910), (354685098994, 0), (0,
    283906356), (400, 0)], [(0, 29173222576942857), (2915985211083, 0), (3682251116, 0), (1886560, 0), (491, 0)],
    [(3969214561511, 0), (0, 11173987255), (0, 8300731), (0, 4224), (0, 2)], [(9420931067, 0), (10834371, 0), (7904,
    0), (3, 0)]], 3, 4⟩, 72057594037927936, 410564589389, 125863959560, ⟨[[(14588291832198, 0), (1168374677, 0), (0,
    2628391), (0, 2521)], [(2003379033, 0), (8236927, 0), (22414, 0), (34, 0)], [(0, 5885272), (0, 49004), (0, 193)],
    [(28925, 0), (339, 0), (1, 0)]], 3, 4⟩, 17592186044416, 20981523,
    5176823000655730086454169812392640422404782694793902461670386874972540452151771639870022017955066049776177419597365114562260057,
    lc0⟩))
theorem c77 : checkR job con1 false ⟨7, 9, 7, 9, 13, 17⟩ 1 30400 t77 530 14 320 16429 39 16000 = true := by decide +kernel

def t78 : CTree :=
  .sx (.out ⟨138, 16, 949, 3208, 16, 5127, ⟨[[(0, 21263029120786432), (0, 22118980501093878), (12027176853542, 0)],
    [(5613095475177322, 0), (0, 133506613486940), (0, 50104790958)], [(297680358787822, 0), (0, 305670008946), (0,
    220412648)]], 2, 2⟩, ⟨[[(13113175619207168, 0), (0, 27943173558478425), (3377634903720, 0)]], 2, 2⟩,
    72057594037927936, 6094948139354171, 24333000373303, ⟨[], 0, 0⟩, 0, 0, 0, lc0⟩ 3 1 24986) (.sy (.sx (.out ⟨230,
    16, 1472, 6416, 16, 10230, ⟨[[(0, 3971924271699968), (0, 19745317484151562), (4080398852727, 0)],
    [(18222007017335685, 0), (0, 55083536372239), (0, 9984466960)], [(165541128294196, 0), (0, 38823957410), (0,
    2913034)]], 2, 2⟩, ⟨[[(33880121370017792, 0), (0, 28009656719495703), (1696835083267, 0)]], 2, 2⟩,
    72057594037927936, 1198197912062737, 6112130223050, ⟨[], 0, 0⟩, 0, 0, 0, lc0⟩ 3 1 17234) (.sy (.sy (.out ⟨399,
    16, 2374, 25666, 16, 40848, ⟨[[(28600654288244736, 0), (0, 8682677977093268), (374131115293, 0)],
    [(48542868150618651, 0), (0, 22730787562778), (0, 935831668)], [(323415659706933, 0), (0, 11321088277), (757333,
    0)]], 2, 2⟩, ⟨[[(14461712375742464, 0), (0, 28059727060579174), (425721458642, 0)]], 2, 2⟩, 72057594037927936,
    1844556212621998, 383370545482, ⟨[], 0, 0⟩, 0, 0, 0, lc0⟩ 3 1 7868) (.out ⟨400, 16, 2435, 25697, 16, 40945,
    ⟨[[(3731456218112000, 0), (0, 8845439890578613), (389874910987, 0)], [(47965701754749202, 0), (0,
    23467609954068), (0, 998676026)], [(330824823210356, 0), (0, 11490909406), (775379, 0)]], 2, 2⟩, ⟨[[(0,
    18789332403879936), (0, 28059907024810650), (425220976599, 0)]], 2, 2⟩, 72057594037927936, 1902371343298480,
    382466817620, ⟨[], 0, 0⟩, 0, 0, 0, lc0⟩ 3 1 10109)) (.out ⟨300, 16, 1892, 12864, 16, 20533, ⟨[[(0,
    18771287096672256), (0, 13602350906488599), (1241474570536, 0)], [(35125192789978578, 0), (0, 36842777548399),
    (0, 3290746479)], [(256015174951791, 0), (0, 17575458851), (2400944, 0)]], 2, 2⟩, ⟨[[(0, 33753082468368384), (0,
    28043298236814713), (848434279394, 0)]], 2, 2⟩, 72057594037927936, 1507127911523553, 1524452654351, ⟨[], 0, 0⟩,
    0, 0, 0, lc0⟩ 3 1 13507))) (.out ⟨154, 16, 1067, 6447, 16, 10327, ⟨[[(0, 19780860811767808), (0,
    14415627844639966), (3061687048404, 0)], [(27042929194556302, 0), (0, 83751685085054), (0, 16821848604)],
    [(521526041316392, 0), (0, 94783057087), (5073971, 0)]], 2, 2⟩, ⟨[[(0, 10986678061891584), (0,
    28009907873648446), (1688869935101, 0)]], 2, 2⟩, 72057594037927936, 6930024013622321, 6054761018651, ⟨[], 0, 0⟩,
    0, 0, 0, lc0⟩ 3 1 23131))
theorem c78 : checkR job con1 false ⟨7, 9, 7, 9, 13, 17⟩ 1 30400 t78 258 14 160 8273 39 8000 = true := by decide +kernel

def t79 : CTree :=
  .sy (.sy (.sx (.sx (.leaf ⟨571, 16, 1289, 498, 16, 3551, ⟨[[(0, 21580550505775104), (0, 20651920520698637),
    (2825239256945, 0), (603067221, 0), (285985, 0)], [(20237088008143445, 0), (0, 24282651183930), (0, 2904488390),
    (0, 2318748), (0, 767)], [(50321173333787, 0), (0, 5440630322), (2839140, 0), (636, 0)], [(45369669232, 0),
    (7963657, 0), (8743, 0), (4, 0)]], 3, 4⟩, ⟨[[(32402544021590016, 0), (0, 18102345088479606), (507119244994, 0),
    (0, 235977312), (0, 3467)], [(0, 29123071217800654), (1842531291337, 0), (2866231286, 0), (1532366, 0), (410,
    0)], [(5534885017236, 0), (0, 9149477549), (0, 6769826), (0, 3512), (0, 1)], [(8904708669, 0), (9706052, 0),
    (7232, 0), (3, 0)]], 3, 4⟩, 72057594037927936, 389426346359, 84478003203, ⟨[[(14657456851484, 0), (1358532223,
    0), (0, 2103928), (0, 1651)], [(1934277795, 0), (6781240, 0), (15286, 0), (24, 0)], [(0, 4918832), (0, 33942),
    (0, 128)], [(23053, 0), (232, 0), (1, 0)]], 3, 4⟩, 17592186044416, 19075244,
    4307792273344774922301723347870678346882382186323435885265450872323735023336078772402806032160052711222648840152997010065476405,
    lc0⟩) (.leaf ⟨546, 16, 1215, 490, 16, 3571, ⟨[[(0, 8742580553547776), (0, 20111061730778608), (2588662100538, 0),
    (507808240, 0), (249362, 0)], [(21832871063719337, 0), (0, 23159168312971), (0, 2569299774), (0, 2142493), (0,
    719)], [(51066226697519, 0), (0, 4553200923), (3325028, 0), (935, 0)], [(43754314715, 0), (6166023, 0), (7189,
    0), (4, 0)]], 3, 4⟩, ⟨[[(0, 4321184936583168), (0, 18159419733251561), (585504147802, 0), (0, 196858034), (7058,
    0)], [(0, 28954180255874565), (1360539783434, 0), (2518229685, 0), (1350660, 0), (342, 0)], [(6326366713455, 0),
    (0, 8385388422), (0, 6197698), (0, 3266), (0, 1)], [(9132352500, 0), (9633164, 0), (7238, 0), (3, 0)]], 3, 4⟩,
    72057594037927936, 361611098982, 55067312234, ⟨[[(14657698409865, 0), (1446340637, 0), (0, 1917161), (0, 1432)],
    [(1900841759, 0), (6314481, 0), (13304, 0), (22, 0)], [(0, 4614112), (0, 29670), (0, 113)], [(20688, 0), (205,
    0), (1, 0)]], 3, 4⟩, 17592186044416, 18576496,
    3782446641891659118463897507569942199986628671614808976410118419897234117067372090367445129276291379267506983326136590568590286,
    lc0⟩)) (.leaf ⟨382, 16, 829, 350, 16, 2642, ⟨[[(1598486967799808, 0), (0, 14390731381092107), (1696971760052, 0),
    (286391265, 0), (149723, 0)], [(35966427816221266, 0), (0, 32085774427876), (0, 3077173388), (0, 2790771), (0,
    961)], [(154670587909635, 0), (0, 10678244085), (11248380, 0), (3736, 0), (1, 0)], [(246892637628, 0), (21697639,
    0), (29584, 0), (17, 0)]], 3, 4⟩, ⟨[[(8436663144337408, 0), (0, 13403368373457367), (503740764757, 0), (0,
    107764904), (14348, 0)], [(0, 41985191005207305), (1045358021985, 0), (3012044256, 0), (1617222, 0), (366, 0)],
    [(22152870851196, 0), (0, 21300114770), (0, 15682682), (0, 8502), (0, 3)], [(54681632785, 0), (54291117, 0),
    (41338, 0), (18, 0)]], 3, 4⟩, 72057594037927936, 3993025347432, 190265418529, ⟨[[(14656843701694, 0),
    (2145086582, 0), (0, 3094460), (0, 2806), (0, 1)], [(2479630429, 0), (10403682, 0), (26106, 0), (61, 0)], [(0,
    7552778), (0, 57682), (0, 294), (0, 1)], [(40705, 0), (520, 0), (3, 0)]], 3, 4⟩, 17592186044416, 76099650,
    3335628579019171690169830864463122063967753945748592845399142134894909922612402021127957818431856117345186368752743202584353125,
    lc0⟩)) (.sx (.sy (.leaf ⟨607, 16, 1403, 458, 16, 3403, ⟨[[(14369014209937408, 0), (0, 11244123123535024),
    (786692704074, 0), (86667090, 0), (19801, 0)], [(44046061030631241, 0), (0, 26976565011666), (0, 1763002763), (0,
    676322), (0, 114)], [(226175050002226, 0), (0, 10314810426), (3635768, 0), (456, 0)], [(403601215359, 0),
    (36016861, 0), (19527, 0), (5, 0)]], 3, 4⟩, ⟨[[(16319065979797504, 0), (0, 8632870968179507), (121776662613, 0),
    (0, 25559185), (838, 0)], [(0, 55314775842717029), (1840701945642, 0), (1409015520, 0), (364898, 0), (44, 0)],
    [(20610798704350, 0), (0, 18274916645), (0, 6790053), (0, 1764)], [(73560838113, 0), (40406097, 0), (14960, 0),
    (3, 0)]], 3, 4⟩, 72057594037927936, 5987638987586, 1015876411171, ⟨[[(14604499642015, 0), (1411674952, 0), (0,
    2409053), (0, 2251), (0, 1)], [(1772514750, 0), (6794649, 0), (17473, 0), (31, 0)], [(0, 4348188), (0, 33813),
    (0, 145)], [(19195, 0), (224, 0), (1, 0)]], 3, 4⟩, 17592186044416, 14121921,
    3977715430295273651209205133465665058234464362183448098467754987158128850313842248698237694969323126655248148755100004693723306,
    lc0⟩) (.leaf ⟨614, 16, 1447, 450, 16, 3412, ⟨[[(0, 17437190889226240), (0, 11468510780606428), (833035117812, 0),
    (95872850, 0), (21166, 0)], [(43245846099354368, 0), (0, 28119197637457), (0, 1985874578), (0, 735154), (0,
    124)], [(232461459493419, 0), (0, 10044709281), (3860593, 0), (477, 0)], [(419281090725, 0), (40382430, 0),
    (21358, 0), (5, 0)]], 3, 4⟩, ⟨[[(5691124377870336, 0), (0, 8637121032587807), (116139192457, 0), (0, 25281188),
    (1384, 0)], [(0, 55308343372738405), (2072719792688, 0), (1499971824, 0), (379662, 0), (44, 0)],
    [(19193823595503, 0), (0, 19418212444), (0, 7234049), (0, 1873)], [(77008233128, 0), (42913858, 0), (15788, 0),
    (3, 0)]], 3, 4⟩, 72057594037927936, 5809998113007, 999189816162, ⟨[[(14570774259486, 0), (1371501911, 0), (0,
    2548363), (0, 2599), (0, 1)], [(1758480530, 0), (7061415, 0), (19576, 0), (35, 0)], [(0, 4438678), (0, 37036),
    (0, 167)], [(19387, 0), (247, 0), (1, 0)]], 3, 4⟩, 17592186044416, 13593612,
    4379743815726143615760646767411976596772850968298645588942120885666040802349395428091785231640251613770526362732125602458033565,
    lc0⟩)) (.leaf ⟨382, 16, 864, 337, 16, 2653, ⟨[[(4841369746190336, 0), (0, 14716647962808701), (1844289374062, 0),
    (348844516, 0), (166730, 0)], [(34855630916136032, 0), (0, 33995771462675), (0, 3925695350), (0, 3239694), (0,
    1124)], [(160405838905607, 0), (0, 9227869576), (12659763, 0), (4114, 0), (1, 0)], [(259276291524, 0), (27752954,
    0), (35114, 0), (19, 0)]], 3, 4⟩, ⟨[[(3436204214738944, 0), (0, 13382205267579019), (481177209209, 0), (0,
    101957576), (26058, 0)], [(0, 42058933864862866), (1551868846463, 0), (3417624141, 0), (1733638, 0), (334, 0)],
    [(20476796124479, 0), (0, 24007506142), (0, 17866200), (0, 9588), (0, 4)], [(59423034836, 0), (61336060, 0),
    (45989, 0), (20, 0)]], 3, 4⟩, 72057594037927936, 3702888127226, 230905550514, ⟨[[(14587427529417, 0),
    (2060174296, 0), (0, 3385844), (0, 3789), (0, 3)], [(2469300878, 0), (11093088, 0), (32530, 0), (84, 0)], [(0,
    8089043), (0, 70685), (0, 411), (0, 1)], [(47808, 0), (693, 0), (5, 0)]], 3, 4⟩, 17592186044416, 86344012,
    3763517132504187678107774208321942723898860815394172492483189785553657518618362648891736216585924600688955108597009351546844612,
    lc0⟩))) (.sy (.sx (.sx (.sy (.leaf ⟨928, 16, 2246, 686, 16, 5247, ⟨[[(0, 32050828644597760), (0,
    17288373058534994), (1352839397760, 0), (167697025, 0), (35441, 0)], [(29381329199673499, 0), (0,
    21966367538337), (0, 1718839576), (0, 606117), (0, 102)], [(86482418609639, 0), (0, 4033510694), (1351432, 0),
    (142, 0)], [(81252205583, 0), (9246131, 0), (4669, 0), (1, 0)]], 3, 4⟩, ⟨[[(1944152416075776, 0), (0,
    13281556479784432), (151882907507, 0), (0, 42457472), (2553, 0)], [(0, 42576090661404105), (2005732393963, 0),
    (1307478399, 0), (324142, 0), (37, 0)], [(6132750877817, 0), (0, 8280314788), (0, 3088815), (0, 792)],
    [(15326872596, 0), (8768082, 0), (3195, 0), (1, 0)]], 3, 4⟩, 72057594037927936, 534608521875, 117115275401,
    ⟨[[(14536247944421, 0), (825497819, 0), (0, 1215738), (0, 887)], [(1214757518, 0), (3466499, 0), (6942, 0), (8,
    0)], [(0, 2206810), (0, 13423), (0, 41)], [(6381, 0), (60, 0)]], 3, 4⟩, 17592186044416, 2296391,
    4194300116028246616732649553626204559721637742072668004501664089197222652626760548810514715714956665164459550226469008494934683,
    lc0⟩) (.sy (.out ⟨546, 16, 3275, 25727, 16, 41042, ⟨[[(10162269578059776, 0), (0, 12487826223041490),
    (504156180001, 0)], [(40959797770801335, 0), (0, 16166322624039), (0, 666134934)], [(125766870117454, 0), (0,
    2824387103), (501722, 0)]], 2, 2⟩, ⟨[[(14821228512804864, 0), (0, 28060007916846313), (424720479465, 0)]], 2, 2⟩,
    72057594037927936, 331224120440019, 381565453354, ⟨[], 0, 0⟩, 0, 0, 0, lc0⟩ 3 1 6071) (.out ⟨543, 16, 3339,
    25758, 16, 41139, ⟨[[(5440228152188928, 0), (0, 12651074092757704), (521789998566, 0)], [(40470430486633490, 0),
    (0, 16590350295413), (0, 706939948)], [(128003121710357, 0), (0, 2799300421), (517718, 0)]], 2, 2⟩, ⟨[[(0,
    28803411194150912), (0, 28060030294319360), (424219975725, 0)]], 2, 2⟩, 72057594037927936, 339355674827467,
    380666035937, ⟨[], 0, 0⟩, 0, 0, 0, lc0⟩ 3 1 8644))) (.leaf ⟨544, 16, 1313, 455, 16, 3605, ⟨[[(0,
    12002407559626752), (0, 20816071342612382), (3095594703800, 0), (729506429, 0), (309751, 0)],
    [(19612798943560599, 0), (0, 26074977842592), (0, 3982815114), (0, 2860867), (0, 981)], [(54508917530744, 0), (0,
    3723554316), (4086057, 0), (1098, 0)], [(48528256452, 0), (9404280, 0), (9863, 0), (5, 0)]], 3, 4⟩,
    ⟨[[(7624466169663488, 0), (0, 18162179397325726), (500722123289, 0), (0, 183616231), (43624, 0)], [(0,
    28948346098468745), (2271382166832, 0), (3229762534, 0), (1571839, 0), (317, 0)], [(4900494345820, 0), (0,
    10677527486), (0, 7991064), (0, 4148), (0, 2)], [(10926997477, 0), (12255007, 0), (8969, 0), (4, 0)]], 3, 4⟩,
    72057594037927936, 305809598315, 46970822854, ⟨[[(14518857203600, 0), (1295022236, 0), (0, 2408836), (0, 2611),
    (0, 1)], [(1927036716, 0), (7698099, 0), (22418, 0), (41, 0)], [(0, 5477851), (0, 47532), (0, 228)], [(24755, 0),
    (361, 0), (2, 0)]], 3, 4⟩, 17592186044416, 18507677,
    3407017642899712364036607173990927483034366813724499697290741234919164674763449946180048960681032883261501540962699499309836093,
    lc0⟩)) (.leaf ⟨383, 16, 904, 324, 16, 2665, ⟨[[(18237693942231040, 0), (0, 15089947060390167), (2021582051964,
    0), (421108830, 0), (185163, 0)], [(33668242037598423, 0), (0, 36274577975804), (0, 4945279291), (0, 3778982),
    (0, 1323)], [(167161598667762, 0), (0, 7508639683), (14282636, 0), (4560, 0), (1, 0)], [(273777969190, 0),
    (35143885, 0), (41613, 0), (22, 0)]], 3, 4⟩, ⟨[[(4398557198278656, 0), (0, 13369145593436345), (460506258846, 0),
    (0, 92130498), (40174, 0)], [(0, 42105855357805367), (2126851504943, 0), (3852315490, 0), (1839295, 0), (289,
    0)], [(18574464309671, 0), (0, 27098653914), (0, 20337295), (0, 10822), (0, 4)], [(64788597895, 0), (69203028,
    0), (51191, 0), (22, 0)]], 3, 4⟩, 72057594037927936, 3329463439838, 399702905766, ⟨[[(14518025597858, 0),
    (1966324981, 0), (0, 3766267), (0, 5147), (0, 4)], [(2463536560, 0), (12018303, 0), (42399, 0), (116, 0)], [(0,
    8622491), (0, 87759), (0, 596), (0, 1)], [(50303, 0), (903, 0), (7, 0)]], 3, 4⟩, 17592186044416, 81701390,
    3177865222471932965024059854532914077039906177669119476477987089088430170227079261546176533365664046397545167538201916829542269,
    lc0⟩)) (.sx (.sx (.out ⟨220, 16, 1440, 6447, 16, 10327, ⟨[[(0, 31279442184638464), (0, 21466080643607401),
    (3742368666254, 0)], [(16046371332876005, 0), (0, 29119297730605), (0, 5380330374)], [(54976664667861, 0), (0,
    4475446170), (3679749, 0)]], 2, 2⟩, ⟨[[(0, 10986678061891584), (0, 28009907873648446), (1688869935101, 0)]], 2,
    2⟩, 72057594037927936, 213051974795980, 6054761018651, ⟨[], 0, 0⟩, 0, 0, 0, lc0⟩ 3 1 14683) (.sy (.leaf ⟨877, 16,
    2185, 649, 16, 5310, ⟨[[(9622416837558272, 0), (0, 17012501578760395), (1343818881289, 0), (167189010, 0),
    (33762, 0)], [(30076114141773147, 0), (0, 22108890084136), (0, 1874491450), (0, 645026), (0, 112)],
    [(90370958968600, 0), (0, 2690966393), (1781450, 0), (236, 0)], [(81730576818, 0), (8827881, 0), (4473, 0), (1,
    0)]], 3, 4⟩, ⟨[[(0, 24093006694326272), (0, 13334243511917488), (172891275666, 0), (0, 31559828), (5622, 0)],
    [(0, 42427119216064375), (1963192131185, 0), (1293258367, 0), (302681, 0), (27, 0)], [(6256612935677, 0), (0,
    8584616201), (0, 3222624), (0, 833)], [(17197350395, 0), (9828939, 0), (3567, 0), (1, 0)]], 3, 4⟩,
    72057594037927936, 413468597247, 52443036698, ⟨[[(14467283240648, 0), (834263683, 0), (0, 1253994), (0, 1040)],
    [(1203991184, 0), (3585825, 0), (8239, 0), (10, 0)], [(0, 2144200), (0, 14944), (0, 55)], [(4900, 0), (71, 0)]],
    3, 4⟩, 17592186044416, 1287559,
    4926476212691356978148627552667014666510829145960911928165202438929664276326347094921823253750460937833535872064820844350250884,
    lc0⟩) (.out ⟨338, 16, 2207, 12924, 16, 20727, ⟨[[(0, 14416975516663808), (0, 16968900527126325), (1398122821762,
    0)], [(28625250625272859, 0), (0, 22638970284006), (0, 2050015441)], [(91079925054381, 0), (0, 2432970877),
    (1855822, 0)]], 2, 2⟩, ⟨[[(5132373685174272, 0), (0, 28042924439756265), (844437485012, 0)]], 2, 2⟩,
    72057594037927936, 241818564911534, 1510135311464, ⟨[], 0, 0⟩, 0, 0, 0, lc0⟩ 3 1 12773))) (.leaf ⟨385, 16, 948,
    311, 16, 2678, ⟨[[(0, 2910961757347840), (0, 15485263125031552), (2230531967710, 0), (503850769, 0), (204695,
    0)], [(32306345002305659, 0), (0, 38924212609150), (0, 6166023691), (0, 4422723), (0, 1564)], [(174777030871212,
    0), (0, 5448533337), (16130698, 0), (5076, 0), (1, 0)], [(290254635905, 0), (44090113, 0), (49208, 0), (25, 0)]],
    3, 4⟩, ⟨[[(9947795169652736, 0), (0, 13363777168660815), (442756395498, 0), (0, 77466049), (56951, 0)], [(0,
    42120106866337765), (2775377998264, 0), (4313500358, 0), (1929635, 0), (228, 0)], [(16411415533329, 0), (0,
    30625364706), (0, 23135507), (0, 12221), (0, 5)], [(70852770802, 0), (77992106, 0), (57008, 0), (25, 0)]], 3, 4⟩,
    72057594037927936, 2845219353565, 587643499653, ⟨[[(14450209860929, 0), (1869721615, 0), (0, 4266876), (0, 6933),
    (0, 7)], [(2446981039, 0), (13073446, 0), (57328, 0), (156, 0)], [(0, 8621699), (0, 105754), (0, 881), (0, 2)],
    [(37712, 0), (1092, 0), (11, 0)]], 3, 4⟩, 17592186044416, 52482055,
    3238272169559817403025550524013268772660958203948198693678047033055381636831358168674632883573416132117535505175129846243665661,
    lc0⟩)))
theorem c79 : checkR job con1 false ⟨7, 9, 7, 9, 13, 17⟩ 1 30400 t79 558 14 320 4117 39 4000 = true := by decide +kernel

def t80 : CTree :=
  .sy (.sx (.sy (.sx (.leaf ⟨484, 16, 1020, 465, 16, 3636, ⟨[[(10104975926235136, 0), (0, 18540954139022356),
    (2014852863276, 0), (282473431, 0), (159790, 0)], [(26326130832067255, 0), (0, 20000762124493), (0, 1581158695),
    (0, 1607773), (0, 571)], [(52441344425205, 0), (0, 2984898903), (3932696, 0), (1435, 0)], [(39259314117, 0),
    (1417155, 0), (2939, 0), (2, 0)]], 3, 4⟩, ⟨[[(14305464870600704, 0), (0, 18428155536712028), (771314946309, 0),
    (0, 106502843), (28469, 0)], [(0, 28200655594835991), (151956109235, 0), (1656279850, 0), (883269, 0), (166, 0)],
    [(8805275817208, 0), (0, 6196007173), (0, 4527288), (0, 2545), (0, 1)], [(9354228770, 0), (8595514, 0), (6643,
    0), (3, 0)]], 3, 4⟩, 72057594037927936, 326996093040, 40547827252, ⟨[[(14656349389177, 0), (1688864708, 0), (0,
    1453155), (0, 821)], [(1798269072, 0), (5190919, 0), (8112, 0), (14, 0)], [(0, 3888429), (0, 18529), (0, 63)],
    [(13385, 0), (113, 0), (1, 0)]], 3, 4⟩, 17592186044416, 15279692,
    4074428159475850085110596919474965705650184386684619505553210633545007096241552445836669398727970643377318460553307383558570338,
    lc0⟩) (.leaf ⟨468, 16, 964, 457, 16, 3659, ⟨[[(0, 15944623186173952), (0, 18054483360087408), (1865360913533, 0),
    (225520527, 0), (136110, 0)], [(27744194725408334, 0), (0, 19058450971715), (0, 1280493152), (0, 1439543), (0,
    525)], [(52714906124670, 0), (0, 2758906409), (3906366, 0), (1493, 0)], [(37969518932, 0), (145865, 0), (1735,
    0), (1, 0)]], 3, 4⟩, ⟨[[(15348257033740288, 0), (0, 18545145368940961), (819435955295, 0), (0, 84233446), (32578,
    0)], [(0, 27860759928626469), (0, 176378647067), (1427039949, 0), (752157, 0), (115, 0)], [(9647665092510, 0),
    (0, 5534041711), (0, 4011108), (0, 2323), (0, 1)], [(9309714635, 0), (8030832, 0), (6277, 0), (3, 0)]], 3, 4⟩,
    72057594037927936, 327972297445, 57010698764, ⟨[[(14656865912163, 0), (1763149434, 0), (0, 1330595), (0, 659)],
    [(1761031233, 0), (4908766, 0), (6831, 0), (11, 0)], [(0, 3729307), (0, 15910), (0, 48)], [(11332, 0), (87, 0)]],
    3, 4⟩, 17592186044416, 13284269,
    4455716209970693459116847743131910448606702200568213941064492604500645329700550939508442457798301246955199397692198669340105398,
    lc0⟩)) (.leaf ⟨343, 16, 746, 326, 16, 2698, ⟨[[(11300099254206464, 0), (0, 13534428292837005), (1506660402453,
    0), (225995169, 0), (117380, 0)], [(38384527040041413, 0), (0, 29755970337893), (0, 2716842656), (0, 2563909),
    (0, 925)], [(157671525118930, 0), (0, 6669093325), (12899538, 0), (4702, 0), (1, 0)], [(232788124452, 0),
    (6936932, 0), (16422, 0), (11, 0)]], 3, 4⟩, ⟨[[(28045539122569216, 0), (0, 13582808656538757), (573417058308, 0),
    (0, 61525653), (33308, 0)], [(0, 41464587809422107), (352865935766, 0), (2565107062, 0), (1263862, 0), (152, 0)],
    [(25865673736064, 0), (0, 19442799663), (0, 14409524), (0, 8104), (0, 3)], [(59339547648, 0), (55545632, 0),
    (42397, 0), (19, 0)]], 3, 4⟩, 72057594037927936, 3553392513051, 797368351129, ⟨[[(14586165227519, 0),
    (2272029542, 0), (0, 2745471), (0, 2459), (0, 2)], [(2436629723, 0), (9834673, 0), (22451, 0), (59, 0)], [(0,
    7536990), (0, 51642), (0, 271), (0, 1)], [(38785, 0), (469, 0), (4, 0)]], 3, 4⟩, 17592186044416, 94394156,
    4120959667513970248953857269367322221338492324235948795713393785008769218899912639668382497804425175122509240652452983490326744,
    lc0⟩)) (.sy (.leaf ⟨316, 16, 628, 331, 16, 2741, ⟨[[(9844390024069120, 0), (0, 12286276819408008),
    (1184712078278, 0), (109306075, 0), (74654, 0)], [(42182341214841609, 0), (0, 25136233286806), (0, 1232439170),
    (0, 1703730), (0, 651)], [(150060693024119, 0), (0, 7421015287), (10494558, 0), (4259, 0), (1, 0)],
    [(205306724298, 0), (0, 7952438), (1019, 0), (4, 0)]], 3, 4⟩, ⟨[[(0, 34387082774802432), (0, 13904817433952514),
    (653786127471, 0), (0, 42357902), (26893, 0)], [(0, 40454215690723374), (0, 899746048039), (1681171845, 0),
    (855386, 0), (67, 0)], [(32383417450375, 0), (0, 13745321044), (0, 9780723), (0, 5988), (0, 2)], [(54453029405,
    0), (41822703, 0), (33345, 0), (14, 0)]], 3, 4⟩, 72057594037927936, 3846392815081, 835777983624,
    ⟨[[(14657707700690, 0), (2508946395, 0), (0, 2144647), (0, 1175), (0, 1)], [(2420220706, 0), (8747284, 0),
    (14141, 0), (26, 0)], [(0, 7213574), (0, 36196), (0, 116)], [(26127, 0), (225, 0), (1, 0)]], 3, 4⟩,
    17592186044416, 84155825,
    4688215236355286660667009390958808705054794953890354991264265493933266777891939053049825322455755079149921146278917677922960188,
    lc0⟩) (.leaf ⟨313, 16, 649, 316, 16, 2749, ⟨[[(4899894305906688, 0), (0, 12503918625006709), (1253618147239, 0),
    (137541295, 0), (80252, 0)], [(41558098753611365, 0), (0, 26208916453019), (0, 1711181536), (0, 1983196), (0,
    756)], [(154548554700445, 0), (0, 5895328626), (11906727, 0), (4674, 0), (1, 0)], [(211539549657, 0), (0,
    7973181), (2095, 0), (5, 0)]], 3, 4⟩, ⟨[[(32218096557301760, 0), (0, 13843832442258854), (646842953063, 0), (0,
    32704945), (35935, 0)], [(0, 40632004921928978), (0, 623590731536), (1888428112, 0), (867710, 0), (0, 7)],
    [(31340050688027, 0), (0, 15429875346), (0, 11303592), (0, 6783), (0, 3)], [(58094187216, 0), (47436206, 0),
    (37022, 0), (16, 0)]], 3, 4⟩, 72057594037927936, 3683967250495, 1106600242205, ⟨[[(14586031988614, 0),
    (2453882001, 0), (0, 2266064), (0, 1518), (0, 1)], [(2392837470, 0), (8964117, 0), (15647, 0), (36, 0)], [(0,
    7262135), (0, 39455), (0, 152), (0, 1)], [(30393, 0), (280, 0), (2, 0)]], 3, 4⟩, 17592186044416, 101704164,
    4422396246732591301706414378749996921034719903314563591262290639185353009261480878240806574660641575276074849254365383380117972,
    lc0⟩))) (.sx (.sy (.leaf ⟨342, 16, 776, 313, 16, 2708, ⟨[[(0, 10744693957644288), (0, 13829691889492900),
    (1626789212814, 0), (274096881, 0), (127824, 0)], [(37495342507972457, 0), (0, 31444023371608), (0, 3486745430),
    (0, 2985851), (0, 1084)], [(163555089166877, 0), (0, 4752874596), (14599461, 0), (5210, 0), (1, 0)],
    [(242821796498, 0), (10091625, 0), (19819, 0), (12, 0)]], 3, 4⟩, ⟨[[(0, 7946708150513664), (0,
    13544426023584594), (562459192336, 0), (0, 49415730), (45989, 0)], [(0, 41574377543282825), (779224900856, 0),
    (2876199021, 0), (1305395, 0), (81, 0)], [(24347414032816, 0), (0, 21925612570), (0, 16484184), (0, 9162), (0,
    3)], [(64176074533, 0), (62741866, 0), (47145, 0), (21, 0)]], 3, 4⟩, 72057594037927936, 3231453311351,
    1050970082150, ⟨[[(14519232670367, 0), (2198579711, 0), (0, 2964559), (0, 3286), (0, 3)], [(2422388763, 0),
    (10323814, 0), (27788, 0), (82, 0)], [(0, 7941921), (0, 61065), (0, 392), (0, 1)], [(43943, 0), (605, 0), (5,
    0)]], 3, 4⟩, 17592186044416, 98918098,
    2588869851344131658203321755849901859576061804758203558693542538992535281379409692585292425114632525439717550710123574707663669,
    lc0⟩) (.leaf ⟨341, 16, 808, 299, 16, 2719, ⟨[[(0, 35648418133176320), (0, 14130280000612603), (1765577850325, 0),
    (327710203, 0), (137911, 0)], [(36464162518078565, 0), (0, 33366000561437), (0, 4400944315), (0, 3483333), (0,
    1274)], [(170008719641481, 0), (0, 2476245484), (16513076, 0), (5791, 0), (1, 0)], [(253786328952, 0), (13963341,
    0), (23705, 0), (14, 0)]], 3, 4⟩, ⟨[[(35100188981235712, 0), (0, 13512155236956803), (554991368026, 0), (0,
    32975688), (60852, 0)], [(0, 41664033569255845), (1256937003389, 0), (3196516376, 0), (1322503, 0), (0, 9)],
    [(22623973488471, 0), (0, 24771436949), (0, 18837395), (0, 10365), (0, 4)], [(69648601102, 0), (70773142, 0),
    (52450, 0), (23, 0)]], 3, 4⟩, 72057594037927936, 2813867669938, 1333951121302, ⟨[[(14450558035543, 0),
    (2127495010, 0), (0, 3233207), (0, 4401), (0, 5)], [(2403496462, 0), (10837190, 0), (36167, 0), (112, 0)], [(0,
    8217530), (0, 70240), (0, 592), (0, 2)], [(40985, 0), (713, 0), (9, 0)]], 3, 4⟩, 17592186044416, 75405338,
    1306249395079894360861867127729386894664694977579765069557461404561302656288296976663114465755884499500080158848852397593057682,
    lc0⟩)) (.sy (.leaf ⟨309, 16, 670, 303, 16, 2759, ⟨[[(24160329128304640, 0), (0, 12703871372899463),
    (1330461508293, 0), (168197222, 0), (84927, 0)], [(40780621235248279, 0), (0, 27371447418315), (0, 2275282339),
    (0, 2305939), (0, 880)], [(159151751127339, 0), (0, 4078603261), (13457172, 0), (5138, 0), (1, 0)],
    [(217757795229, 0), (0, 7807667), (3273, 0), (5, 0)]], 3, 4⟩, ⟨[[(0, 27896567952207872), (0, 13793443286236792),
    (642954379450, 0), (0, 19979393), (46520, 0)], [(0, 40816685087853362), (0, 314353485857), (2097727563, 0),
    (854420, 0), (0, 101)], [(30173794579487, 0), (0, 17385255699), (0, 13039185), (0, 7693), (0, 3)], [(62252935132,
    0), (53710715, 0), (41142, 0), (18, 0)]], 3, 4⟩, 72057594037927936, 3454781111495, 1410325435173,
    ⟨[[(14518594765305, 0), (2383971017, 0), (0, 2409364), (0, 2009), (0, 2)], [(2393745567, 0), (9332771, 0),
    (18273, 0), (51, 0)], [(0, 7603126), (0, 44833), (0, 222), (0, 1)], [(37255, 0), (363, 0), (3, 0)]], 3, 4⟩,
    17592186044416, 122285676,
    3737737877399669177249734031858978426245546452189071839395062264165064794370934256135316249359771834725108611878951040096312180,
    lc0⟩) (.leaf ⟨306, 16, 694, 289, 16, 2769, ⟨[[(20852789029699584, 0), (0, 12940601278948150), (1422112538968, 0),
    (201821359, 0), (88685, 0)], [(40014463330745760, 0), (0, 28764955179162), (0, 2950366664), (0, 2691004), (0,
    1030)], [(164610555827751, 0), (0, 1950913584), (15225864, 0), (5680, 0), (1, 0)], [(224950275896, 0), (0,
    7466304), (4580, 0), (5, 0)]], 3, 4⟩, ⟨[[(0, 15925909808644096), (0, 13743045096915069), (642438523852, 0), (0,
    3649946), (58711, 0)], [(0, 40976022473219054), (28345159972, 0), (2300932427, 0), (808253, 0), (0, 218)],
    [(28838797572091, 0), (0, 19636615671), (0, 15008543), (0, 8728), (0, 3)], [(66943171409, 0), (60686868, 0),
    (45727, 0), (20, 0)]], 3, 4⟩, 72057594037927936, 3163375505757, 1750512710608, ⟨[[(14450156436263, 0),
    (2319060296, 0), (0, 2564331), (0, 2666), (0, 3)], [(2382031421, 0), (9664272, 0), (22291, 0), (71, 0)], [(0,
    8003624), (0, 49380), (0, 340), (0, 1)], [(42217, 0), (415, 0), (6, 0)]], 3, 4⟩, 17592186044416, 125358566,
    2226781780398254054450354610433967030539949103349476695633542781921127485712872851764708560468659482783967639849167013786229650,
    lc0⟩)))
theorem c80 : checkR job con1 false ⟨7, 9, 7, 9, 13, 17⟩ 1 30400 t80 586 14 320 4117 39 4000 = true := by decide +kernel

def t81 : CTree :=
  .sy (.sx (.sy (.leaf ⟨293, 16, 551, 322, 16, 2802, ⟨[[(17592500887031808, 0), (0, 11402664880253594),
    (1016365036996, 0), (57040554, 0), (50065, 0)], [(44814610893135141, 0), (0, 22442286541871), (0, 570558862), (0,
    1279546), (0, 532)], [(147205713470966, 0), (0, 7463450858), (8913823, 0), (3906, 0), (1, 0)], [(190280694409,
    0), (0, 15230261), (0, 7671)]], 3, 4⟩, ⟨[[(13400808611328000, 0), (0, 14250145683773383), (709331237670, 0), (0,
    23306330), (27649, 0)], [(0, 39371418162707374), (0, 1613270943884), (1233884493, 0), (564207, 0), (0, 54)],
    [(37690451333735, 0), (0, 10846347435), (0, 7402527), (0, 4999), (0, 2)], [(53521706150, 0), (33511725, 0),
    (27662, 0), (12, 0)]], 3, 4⟩, 72057594037927936, 4000898132902, 876813652598, ⟨[[(14655950184204, 0),
    (2657136859, 0), (0, 1800956), (0, 770)], [(2352241408, 0), (8119889, 0), (11302, 0), (14, 0)], [(0, 7346261),
    (0, 32189), (0, 68)], [(22947, 0), (153, 0), (1, 0)]], 3, 4⟩, 17592186044416, 102791113,
    3988364512957838617382798558074586515041865531511658330009116276510002926420159930588326685743586863145740596059496204539296748,
    lc0⟩) (.leaf ⟨289, 16, 567, 308, 16, 2810, ⟨[[(10570079243591680, 0), (0, 11569450080275553), (1061506544963, 0),
    (74916006, 0), (52258, 0)], [(44310395432492169, 0), (0, 23210661932655), (0, 916006549), (0, 1497774), (0,
    615)], [(150938976238228, 0), (0, 6174512011), (10139721, 0), (4250, 0), (1, 0)], [(194535774062, 0), (0,
    16897864), (0, 7827)]], 3, 4⟩, ⟨[[(0, 21875913979957248), (0, 14180230599114790), (706979094935, 0), (0,
    13687883), (34508, 0)], [(0, 39602227793825961), (0, 1414658462135), (1366755913, 0), (534878, 0), (0, 147)],
    [(36902009399957, 0), (0, 12130875765), (0, 8673866), (0, 5686), (0, 2)], [(56470467903, 0), (38159986, 0),
    (30676, 0), (13, 0)]], 3, 4⟩, 72057594037927936, 3943889989771, 1160344446580, ⟨[[(14587814172062, 0),
    (2603312762, 0), (0, 1895558), (0, 955)], [(2343209796, 0), (8330730, 0), (11984, 0), (19, 0)], [(0, 7317762),
    (0, 34102), (0, 80)], [(25153, 0), (178, 0), (1, 0)]], 3, 4⟩, 17592186044416, 121493491,
    3987374646005747993999348609745449614859911302458237138492716863179691108616965388901274838876685846422680051657420131107868863,
    lc0⟩)) (.sy (.leaf ⟨275, 16, 486, 315, 16, 2875, ⟨[[(34241925643108352, 0), (0, 10617263172627518),
    (888355644936, 0), (21406329, 0), (31474, 0)], [(47201818629331163, 0), (0, 20199087734814), (0, 83945641), (0,
    936705), (0, 438)], [(144377354178168, 0), (0, 7914165497), (7028980, 0), (3378, 0), (1, 0)], [(178614491052, 0),
    (0, 17658661), (0, 12751), (0, 2)]], 3, 4⟩, ⟨[[(23037621000323072, 0), (0, 14675772439107641), (757891911854, 0),
    (0, 11474855), (25280, 0)], [(0, 38103967916405815), (0, 2204988717423), (902239468, 0), (317942, 0), (0, 163)],
    [(43199857861546, 0), (0, 8631015028), (0, 5488692), (0, 4232), (0, 2)], [(52978089656, 0), (25243288, 0),
    (21857, 0), (9, 0)]], 3, 4⟩, 72057594037927936, 4156095080398, 707975335218, ⟨[[(14655331127787, 0), (2774757518,
    0), (0, 1503439), (0, 548)], [(2261192265, 0), (7487018, 0), (9649, 0), (7, 0)], [(0, 7545322), (0, 30171), (0,
    47)], [(22773, 0), (131, 0)]], 3, 4⟩, 17592186044416, 140659940,
    3343759077580029929819908817944954528062810242127071933017024000256406804415988233152736321377071261042697988731676177630486268,
    lc0⟩) (.leaf ⟨271, 16, 498, 300, 16, 2881, ⟨[[(0, 30447043450482688), (0, 10736951229410667), (916592467854, 0),
    (31879132, 0), (31282, 0)], [(46751869014710098, 0), (0, 20729645405984), (0, 327652572), (0, 1108327), (0,
    505)], [(147355162235282, 0), (0, 6921806856), (8031916, 0), (3631, 0), (1, 0)], [(181532903286, 0), (0,
    20170074), (0, 13562), (0, 2)]], 3, 4⟩, ⟨[[(8836582512300032, 0), (0, 14588082170009894), (757755947704, 0), (0,
    2970861), (29391, 0)], [(0, 38350192211593481), (0, 2063090643969), (971452189, 0), (251110, 0), (0, 274)],
    [(42579846913279, 0), (0, 9587944385), (0, 6560349), (0, 4834), (0, 2)], [(55199491378, 0), (28887234, 0),
    (24178, 0), (10, 0)]], 3, 4⟩, 72057594037927936, 4208817293103, 973595836452, ⟨[[(14588197096336, 0),
    (2736562476, 0), (0, 1573913), (0, 643)], [(2247530630, 0), (7635696, 0), (9993, 0), (9, 0)], [(0, 7423903), (0,
    31436), (0, 47)], [(22709, 0), (139, 0)]], 3, 4⟩, 17592186044416, 159122309,
    2262508899590414470685464136640462441570455273493646248034710826431152917809545800096169885136706858793562493847541329992431651,
    lc0⟩))) (.sx (.sy (.leaf ⟨285, 16, 584, 293, 16, 2818, ⟨[[(706177501360128, 0), (0, 11744259107233203),
    (1113351475206, 0), (93907435, 0), (53276, 0)], [(43767716967766071, 0), (0, 24083150845159), (0, 1328548883),
    (0, 1752839), (0, 716)], [(155034079234440, 0), (0, 4648944802), (11498554, 0), (4642, 0), (1, 0)],
    [(198961849463, 0), (0, 18661385), (0, 8065)]], 3, 4⟩, ⟨[[(17212160216334336, 0), (0, 14110179953988519),
    (707134173516, 0), (0, 1749322), (42325, 0)], [(0, 39817044556437806), (0, 1195406637174), (1489437477, 0),
    (472925, 0), (0, 263)], [(36002450530005, 0), (0, 13630993500), (0, 10120885), (0, 6471), (0, 3)], [(59809807538,
    0), (43318021, 0), (34028, 0), (15, 0)]], 3, 4⟩, 72057594037927936, 3849366448004, 1477793002953,
    ⟨[[(14517827561870, 0), (2552294563, 0), (0, 1987554), (0, 1195), (0, 1)], [(2323198133, 0), (8543750, 0),
    (12708, 0), (26, 0)], [(0, 7339345), (0, 36234), (0, 101), (0, 1)], [(29263, 0), (204, 0), (2, 0)]], 3, 4⟩,
    17592186044416, 149673373,
    3523293376180232407940219361968979386812845608011663879170564217106708411507616647047464942179519522838591030416897372983167849,
    lc0⟩) (.leaf ⟨281, 16, 602, 279, 16, 2826, ⟨[[(0, 15326338211033088), (0, 11925333346366459), (1172302114418, 0),
    (113639746, 0), (52719, 0)], [(43171120178089134, 0), (0, 25073504774424), (0, 1820377290), (0, 2051907), (0,
    836)], [(159513151688069, 0), (0, 2854039147), (13007448, 0), (5087, 0), (1, 0)], [(203543081064, 0), (0,
    20538757), (0, 8395), (0, 1)]], 3, 4⟩, ⟨[[(0, 13398756872777728), (0, 14039558620110430), (710383019789, 0),
    (12813661, 0), (51086, 0)], [(0, 40014285502276160), (0, 957695200080), (1593396964, 0), (370852, 0), (0, 404)],
    [(34973492267939, 0), (0, 15376623758), (0, 11768292), (0, 7365), (0, 3)], [(63582787210, 0), (49042760, 0),
    (37755, 0), (16, 0)]], 3, 4⟩, 72057594037927936, 3709417659628, 1833022004791, ⟨[[(14451264507575, 0),
    (2496216778, 0), (0, 2082707), (0, 1518), (0, 1)], [(2311564955, 0), (8804783, 0), (13851, 0), (37, 0)], [(0,
    7561003), (0, 38344), (0, 144), (0, 1)], [(36071, 0), (216, 0), (3, 0)]], 3, 4⟩, 17592186044416, 176657951,
    2246589689882394932698267512370272790130213826368289848547683551838356615462881289148099439528190127013288706442564928848304571,
    lc0⟩)) (.sy (.leaf ⟨266, 16, 511, 285, 16, 2888, ⟨[[(0, 14802403278618624), (0, 10869854988946731),
    (949320950663, 0), (42388119, 0), (29672, 0)], [(46310573626365687, 0), (0, 21344999644247), (0, 622018189), (0,
    1309093), (0, 585)], [(150699720441035, 0), (0, 5747653277), (9135798, 0), (3921, 0), (1, 0)], [(184571486465,
    0), (0, 22915579), (0, 14555), (0, 3)]], 3, 4⟩, ⟨[[(6231712717553664, 0), (0, 14505026256946683), (760028070211,
    0), (6888896, 0), (33828, 0)], [(0, 38598651148732101), (0, 1912175130218), (1021140869, 0), (145779, 0), (0,
    409)], [(41891240106937, 0), (0, 10729570145), (0, 7787726), (0, 5524), (0, 2)], [(57744736480, 0), (32932009,
    0), (26763, 0), (11, 0)]], 3, 4⟩, 72057594037927936, 4246372154612, 1272242137448, ⟨[[(14518810936095, 0),
    (2688319128, 0), (0, 1654052), (0, 771)], [(2244152802, 0), (7869715, 0), (10319, 0), (13, 0)], [(0, 7368574),
    (0, 33379), (0, 49)], [(24280, 0), (152, 0)]], 3, 4⟩, 17592186044416, 191252361,
    2359712829016175522696575188060499007803198071769885985833068838660225222228627536177240432669035897805681446179279559629790653,
    lc0⟩) (.leaf ⟨261, 16, 525, 270, 16, 2895, ⟨[[(5090330664734720, 0), (0, 11014656811941330), (986587191702, 0),
    (52447350, 0), (26235, 0)], [(45864283395298505, 0), (0, 22055214117656), (0, 976685660), (0, 1544953), (0,
    683)], [(154426922294734, 0), (0, 4366058318), (10354158, 0), (4250, 0), (1, 0)], [(187699327791, 0), (0,
    25936703), (0, 15755), (0, 4)]], 3, 4⟩, ⟨[[(7392797779222528, 0), (0, 14421139556975957), (764779083634, 0),
    (18193265, 0), (38465, 0)], [(0, 38835437899832137), (0, 1755310427068), (1040943041, 0), (0, 6513), (0, 573)],
    [(41103630501654, 0), (0, 12079040720), (0, 9191160), (0, 6314), (0, 3)], [(60628390774, 0), (37412206, 0),
    (29635, 0), (13, 0)]], 3, 4⟩, 72057594037927936, 4264830434393, 1607018403262, ⟨[[(14449910650656, 0),
    (2637945849, 0), (0, 1732440), (0, 934)], [(2236723943, 0), (8141954, 0), (10539, 0), (18, 0)], [(0, 7380928),
    (0, 35489), (0, 55)], [(28578, 0), (157, 0), (1, 0)]], 3, 4⟩, 17592186044416, 236083626,
    1939913678429605095690079716911213044271492482401591981238440951322461726765194025817269740851062628136358453821340372462163344,
    lc0⟩)))
theorem c81 : checkR job con1 false ⟨7, 9, 7, 9, 13, 17⟩ 1 30400 t81 614 14 320 4117 39 4000 = true := by decide +kernel

def t82 : CTree :=
  .sx (.sy (.sy (.sx (.leaf ⟨395, 16, 661, 409, 16, 3859, ⟨[[(0, 27965896459952128), (0, 15022245959096077),
    (1209883625348, 0), (4359711, 0), (30581, 0)], [(36386275665639648, 0), (0, 13978487804383), (131184998, 0), (0,
    542506), (0, 285)], [(53015958020593, 0), (0, 3079475606), (2081769, 0), (1098, 0)], [(31961393263, 0), (0,
    3094494), (0, 2686)]], 3, 4⟩, ⟨[[(0, 21633494965465088), (0, 19765682830729134), (1039729091864, 0), (0,
    8837431), (28338, 0)], [(0, 24308313047972384), (0, 1702546712635), (468875150, 0), (101653, 0), (0, 157)],
    [(15605608557618, 0), (0, 2427407040), (0, 1427066), (0, 1247), (0, 1)], [(8734647242, 0), (3235696, 0), (2934,
    0), (1, 0)]], 3, 4⟩, 72057594037927936, 392632350817, 34825341941, ⟨[[(14658675481415, 0), (2169063805, 0), (0,
    749601), (0, 196)], [(1453004483, 0), (3544751, 0), (3355, 0), (1, 0)], [(0, 3425009), (0, 9704), (0, 11)],
    [(7101, 0), (29, 0)]], 3, 4⟩, 17592186044416, 10120867,
    3981095493332384720060379290300568110734684230785807328771551715574918453220311815910559782659435606068872664853566450150411568,
    lc0⟩) (.leaf ⟨389, 16, 628, 403, 16, 3895, ⟨[[(0, 7094667352104960), (0, 14646485056036071), (1154464106446, 0),
    (0, 9482248), (21565, 0)], [(37462659901740928, 0), (0, 13451279461578), (229216276, 0), (0, 458118), (0, 264)],
    [(52965776647607, 0), (0, 3166812699), (1754397, 0), (1003, 0)], [(31469800223, 0), (0, 2768085), (0, 2751)]], 3,
    4⟩, ⟨[[(11005597181124608, 0), (0, 20000042179265257), (1061612846725, 0), (0, 7008092), (23761, 0)], [(0,
    23632322951921513), (0, 1848411357946), (399206909, 0), (34835, 0), (0, 188)], [(16489589894898, 0), (0,
    2200033386), (0, 1209942), (0, 1164), (0, 1)], [(8773776335, 0), (2703551, 0), (2536, 0), (1, 0)]], 3, 4⟩,
    72057594037927936, 399296148346, 14949436781, ⟨[[(14657326005710, 0), (2211313938, 0), (0, 685178), (0, 179)],
    [(1396453553, 0), (3360661, 0), (3131, 0), (1, 0)], [(0, 3381106), (0, 9155), (0, 10)], [(7127, 0), (29, 0)]], 3,
    4⟩, 17592186044416, 11075003,
    4354817025027465086048292095141490461929236652985510780584729227654403235953482076264636705256869549099748671460521883221304619,
    lc0⟩)) (.sx (.leaf ⟨386, 16, 675, 389, 16, 3875, ⟨[[(33769547512655872, 0), (0, 15147538726413282),
    (1237661778463, 0), (13798702, 0), (28356, 0)], [(36044064090388187, 0), (0, 14264334610928), (0, 6718160), (0,
    650298), (0, 327)], [(53907022026019, 0), (0, 2792335584), (2393379, 0), (1166, 0)], [(32374925185, 0), (0,
    3597377), (0, 2869), (0, 1)]], 3, 4⟩, ⟨[[(0, 144445327290368), (0, 19684871011255624), (1043029320893, 0),
    (349948, 0), (30642, 0)], [(0, 24539541729645129), (0, 1634629573290), (488025745, 0), (40765, 0), (0, 238)],
    [(15470855962181, 0), (0, 2684932916), (0, 1746640), (0, 1433), (0, 1)], [(9042807674, 0), (3731631, 0), (3245,
    0), (1, 0)]], 3, 4⟩, 72057594037927936, 403098922237, 53605690479, ⟨[[(14587064424126, 0), (2131669736, 0), (0,
    788683), (0, 227)], [(1462406553, 0), (3649654, 0), (3526, 0), (2, 0)], [(0, 3427837), (0, 10346), (0, 11)],
    [(7006, 0), (32, 0)]], 3, 4⟩, 17592186044416, 11878622,
    2705074289745707451076156209100213606254391883769200283531022804431424317983698284182554677793860839111502135810981586512534888,
    lc0⟩) (.leaf ⟨381, 16, 641, 383, 16, 3911, ⟨[[(0, 9442982300233728), (0, 14765988443285466), (1176862378764, 0),
    (0, 3331988), (18330, 0)], [(37168433215432178, 0), (0, 13702293658565), (114299112, 0), (0, 556899), (0, 304)],
    [(53821461623084, 0), (0, 2934133072), (2034130, 0), (1058, 0)], [(31883531116, 0), (0, 3273258), (0, 2939), (0,
    1)]], 3, 4⟩, ⟨[[(11562252218662912, 0), (0, 19915990185723743), (1065198167486, 0), (400099, 0), (23707, 0)],
    [(0, 23871721084836507), (0, 1793229867012), (401157313, 0), (0, 36815), (0, 275)], [(16377052925605, 0), (0,
    2420946225), (0, 1508152), (0, 1341), (0, 1)], [(9037556282, 0), (3131410, 0), (2801, 0), (1, 0)]], 3, 4⟩,
    72057594037927936, 415370064977, 31024005411, ⟨[[(14587658403458, 0), (2178643296, 0), (0, 718092), (0, 204)],
    [(1401727905, 0), (3437611, 0), (3291, 0), (1, 0)], [(0, 3374135), (0, 9703), (0, 10)], [(6926, 0), (31, 0)]], 3,
    4⟩, 17592186044416, 12362573,
    3349755712222608579120974853456306381082182096102718202490142020274514661139823485480215735537771931593948674741975418400284078,
    lc0⟩))) (.sy (.leaf ⟨251, 16, 450, 278, 16, 2971, ⟨[[(29330544547184640, 0), (0, 10103020919028418),
    (826658778574, 0), (7687897, 0), (12108, 0)], [(48605041581150830, 0), (0, 19129869687084), (0, 131098389), (0,
    967052), (0, 488)], [(146837004066744, 0), (0, 6846426238), (6779216, 0), (3163, 0)], [(174228864030, 0), (0,
    21493513), (0, 16848), (0, 4)]], 3, 4⟩, ⟨[[(24274117746794496, 0), (0, 14984943499193974), (805565717366, 0),
    (7068234, 0), (21219, 0)], [(0, 37157169237242606), (0, 2513873567490), (660613897, 0), (0, 143484), (0, 547)],
    [(47969222199953, 0), (0, 8628708378), (0, 6014299), (0, 4844), (0, 2)], [(56891092245, 0), (23890633, 0),
    (20277, 0), (8, 0)]], 3, 4⟩, 72057594037927936, 4569980336142, 786631424286, ⟨[[(14516926626427, 0), (2789843127,
    0), (0, 1366706), (0, 563)], [(2145355756, 0), (7164435, 0), (9131, 0), (6, 0)], [(0, 7528028), (0, 31527), (0,
    37)], [(22830, 0), (150, 0)]], 3, 4⟩, 17592186044416, 264910695,
    2374842385271513805680687142848481734191662079185296477661498878926625333360752953948140725238959866034146049324278404300454763,
    lc0⟩) (.leaf ⟨246, 16, 461, 263, 16, 2977, ⟨[[(30306622208768000, 0), (0, 10217707679592650), (849098586183, 0),
    (10910916, 0), (6721, 0)], [(48263254498142446, 0), (0, 19637501068753), (0, 385155486), (0, 1156895), (0, 568)],
    [(149923084689337, 0), (0, 5870404319), (7719195, 0), (3380, 0)], [(176663276687, 0), (0, 24790706), (0, 18305),
    (0, 5)]], 3, 4⟩, ⟨[[(0, 20628815892688896), (0, 14889114271132514), (809625091513, 0), (13694564, 0), (20994,
    0)], [(0, 37424749593745669), (0, 2419433767537), (606152049, 0), (0, 342767), (0, 733)], [(47352649750644, 0),
    (0, 9679012768), (0, 7243172), (0, 5561), (0, 2)], [(59000924453, 0), (27267263, 0), (22389, 0), (9, 0)]], 3, 4⟩,
    72057594037927936, 4721396224034, 1060592789401, ⟨[[(14450278492903, 0), (2747696296, 0), (0, 1434425), (0,
    650)], [(2144790433, 0), (7406264, 0), (9304, 0), (8, 0)], [(0, 7418143), (0, 33943), (0, 32)], [(23474, 0),
    (162, 0)]], 3, 4⟩, 17592186044416, 315388420,
    1036779726009529214707537568941804809148027277321028372903078279024339679425998065020319373644296981992015728671995755100409876,
    lc0⟩))) (.sy (.sy (.sx (.leaf ⟨384, 16, 597, 398, 16, 3933, ⟨[[(7190034026033152, 0), (0, 14283950090975440),
    (1104826979641, 0), (0, 20471269), (13530, 0)], [(38504279520121819, 0), (0, 12961823651682), (305060414, 0), (0,
    383233), (0, 247)], [(52910417494088, 0), (0, 3218234348), (1443821, 0), (914, 0)], [(31025546336, 0), (0,
    2283962), (0, 2701)]], 3, 4⟩, ⟨[[(0, 201968080834560), (0, 20249109430879842), (1082353155923, 0), (0, 6991413),
    (18292, 0)], [(0, 22909619553344238), (0, 1984810816693), (340409614, 0), (0, 28352), (0, 218)],
    [(17394823463260, 0), (0, 2012313848), (0, 1022310), (0, 1095)], [(8873183875, 0), (2269567, 0), (2200, 0), (1,
    0)]], 3, 4⟩, 72057594037927936, 399616174214, 23660630716, ⟨[[(14657420211114, 0), (2248923183, 0), (0, 623962),
    (0, 164)], [(1338863584, 0), (3182911, 0), (2905, 0), (1, 0)], [(0, 3330590), (0, 8552), (0, 10)], [(7131, 0),
    (28, 0)]], 3, 4⟩, 17592186044416, 12062691,
    4220338627098712025423329384159696699229445329343486461391720445557525450708763463123186846989551848034985798821677697718680926,
    lc0⟩) (.leaf ⟨380, 16, 568, 393, 16, 3974, ⟨[[(16831190034747392, 0), (0, 13937836858861094), (1060305926508, 0),
    (0, 29014330), (6343, 0)], [(39523220615316494, 0), (0, 12508402326045), (361117934, 0), (0, 316966), (0, 232)],
    [(52865588171167, 0), (0, 3224405583), (1157820, 0), (833, 0)], [(30614143180, 0), (0, 1667247), (0, 2554)]], 3,
    4⟩, ⟨[[(24870952503652352, 0), (0, 20517898452862434), (1102504332012, 0), (0, 8715635), (11943, 0)], [(0,
    22143045588709193), (0, 2114267648690), (291098132, 0), (0, 88666), (0, 247)], [(18331932040199, 0), (0,
    1856052362), (0, 858939), (0, 1038)], [(9038725550, 0), (1947190, 0), (1934, 0), (1, 0)]], 3, 4⟩,
    72057594037927936, 392229022259, 42828567249, ⟨[[(14656438767199, 0), (2282709684, 0), (0, 565470), (0, 152)],
    [(1276770537, 0), (3007261, 0), (2670, 0), (1, 0)], [(0, 3264467), (0, 7886), (0, 10)], [(7051, 0), (26, 0)]], 3,
    4⟩, 17592186044416, 13035475,
    4040146477215876382641850845165566535101669207394815111929824358184259968720334559303442673697682810642539350698038112104659892,
    lc0⟩)) (.sx (.leaf ⟨376, 16, 609, 378, 16, 3949, ⟨[[(10282955968925696, 0), (0, 14395604011301074),
    (1122604847559, 0), (0, 17205567), (9420, 0)], [(38248588825113888, 0), (0, 13181444123909), (210159589, 0), (0,
    474216), (0, 283)], [(53727281176521, 0), (0, 3036013092), (1693576, 0), (955, 0)], [(31450445028, 0), (0,
    2769004), (0, 2879), (0, 1)]], 3, 4⟩, ⟨[[(0, 21627723474042880), (0, 20162046048850691), (1085755227177, 0), (0,
    1674312), (15711, 0)], [(0, 23156206931919657), (0, 1940540626262), (326097532, 0), (0, 110447), (0, 310)],
    [(17301203225238, 0), (0, 2201676695), (0, 1302752), (0, 1265), (0, 1)], [(9100892827, 0), (2639935, 0), (2425,
    0), (1, 0)]], 3, 4⟩, 72057594037927936, 420628449341, 13609795763, ⟨[[(14588342037062, 0), (2217370832, 0), (0,
    653996), (0, 186)], [(1346563615, 0), (3251013, 0), (3074, 0), (1, 0)], [(0, 3336972), (0, 9082), (0, 10)],
    [(6953, 0), (30, 0)]], 3, 4⟩, 17592186044416, 13350281,
    3569359842453587217620951522540884735270067397289204756601128523800573878331512218760693400533586886255638292242979304572059057,
    lc0⟩) (.leaf ⟨372, 16, 578, 373, 16, 3990, ⟨[[(0, 24076873566330880), (0, 14015430182270584), (1072245854930, 0),
    (0, 28233005), (1472, 0)], [(39228293271431909, 0), (0, 12677642566975), (283047934, 0), (0, 400573), (0, 265)],
    [(53547961033816, 0), (0, 3081814050), (1378232, 0), (862, 0)], [(31004771597, 0), (0, 2110078), (0, 2705), (0,
    1)]], 3, 4⟩, ⟨[[(0, 19970040584572928), (0, 20427963117106855), (1105273381357, 0), (0, 5797941), (6663, 0)],
    [(0, 22396048027729618), (0, 2079324876182), (261264002, 0), (0, 181001), (0, 345)], [(18254624774039, 0), (0,
    2018027859), (0, 1124639), (0, 1202), (0, 1)], [(9239789648, 0), (2272175, 0), (2127, 0), (1, 0)]], 3, 4⟩,
    72057594037927936, 416654962972, 36204370717, ⟨[[(14588928485234, 0), (2254320788, 0), (0, 590520), (0, 170)],
    [(1284451603, 0), (3059857, 0), (2834, 0), (1, 0)], [(0, 3281496), (0, 8352), (0, 10)], [(6939, 0), (29, 0)]], 3,
    4⟩, 17592186044416, 14479654,
    3462415837959612979296648758113302784188185200914699846166708850681881997245747330006810529731231689422300915994630171710788871,
    lc0⟩))) (.sy (.sx (.leaf ⟨368, 16, 621, 357, 16, 3966, ⟨[[(0, 17214424595894272), (0, 14500988973111127),
    (1140895226969, 0), (0, 15543146), (2802, 0)], [(37954907176538190, 0), (0, 13417136942044), (90170905, 0), (0,
    579350), (0, 327)], [(54555443760823, 0), (0, 2808490852), (1958033, 0), (1002, 0)], [(31831763605, 0), (0,
    3293083), (0, 3088), (0, 1)]], 3, 4⟩, ⟨[[(35968483188088832, 0), (0, 20078736837240930), (1090567829911, 0),
    (2658677, 0), (11790, 0)], [(0, 23405977970502171), (0, 1900469259108), (288898532, 0), (0, 224763), (0, 422)],
    [(17194628109757, 0), (0, 2439572442), (0, 1627508), (0, 1461), (0, 1)], [(9362162931, 0), (3049600, 0), (2675,
    0), (1, 0)]], 3, 4⟩, 72057594037927936, 442225461854, 21798349688, ⟨[[(14518050938088, 0), (2187997386, 0), (0,
    682870), (0, 210)], [(1347598138, 0), (3316700, 0), (3212, 0), (1, 0)], [(0, 3307077), (0, 9676), (0, 10)],
    [(6637, 0), (33, 0)]], 3, 4⟩, 17592186044416, 15162517,
    2429636757128510973070079943188739588955104775262368421563613775681931714516482890145027970196015917150001858677618855456028759,
    lc0⟩) (.leaf ⟨363, 16, 589, 352, 16, 4006, ⟨[[(26746689823993856, 0), (0, 14112231564653757), (1085891535001, 0),
    (0, 29397937), (0, 5953)], [(38968728184053161, 0), (0, 12881895910105), (182642703, 0), (0, 497852), (0, 306)],
    [(54331047173666, 0), (0, 2905236154), (1611944, 0), (895, 0)], [(31410082131, 0), (0, 2590258), (0, 2889), (0,
    1)]], 3, 4⟩, ⟨[[(7916996637863936, 0), (0, 20336862375086080), (1108506091252, 0), (0, 4805726), (0, 532)], [(0,
    22647198407345659), (0, 2050768215421), (205806683, 0), (0, 307271), (0, 462)], [(18162325245656, 0), (0,
    2225386995), (0, 1432749), (0, 1392), (0, 1)], [(9468184297, 0), (2630297, 0), (2342, 0), (1, 0)]], 3, 4⟩,
    72057594037927936, 442946169762, 28536128849, ⟨[[(14518118496457, 0), (2223221719, 0), (0, 620049), (0, 192)],
    [(1295361131, 0), (3133868, 0), (3009, 0), (1, 0)], [(0, 3289520), (0, 8999), (0, 10)], [(6700, 0), (32, 0)]], 3,
    4⟩, 17592186044416, 16477104,
    2542329903597328870027510108665850783359562405416199646947424177071198572600987102843794685254035147837689425309958816093601180,
    lc0⟩)) (.leaf ⟨236, 16, 407, 257, 16, 3073, ⟨[[(0, 28713062844241920), (0, 9510815982605727), (745094938390, 0),
    (0, 16722700), (0, 7826)], [(50398632095186971, 0), (0, 17677345240605), (2260102, 0), (0, 864616), (0, 483)],
    [(145989840833426, 0), (0, 6917232211), (5397097, 0), (2615, 0)], [(168881056797, 0), (0, 18531289), (0, 17084),
    (0, 4)]], 3, 4⟩, ⟨[[(0, 19864084216381440), (0, 15446442175262543), (847860359318, 0), (0, 77727), (0, 1424)],
    [(0, 35752653619093477), (0, 2997946907324), (256019304, 0), (0, 655110), (0, 891)], [(53919412967676, 0), (0,
    7998880542), (0, 5812927), (0, 5059), (0, 2)], [(59461360159, 0), (19925618, 0), (16917, 0), (7, 0)]], 3, 4⟩,
    72057594037927936, 4972943168329, 289146809433, ⟨[[(14452014911546, 0), (2834921149, 0), (0, 1152281), (0, 495)],
    [(2006924828, 0), (6514792, 0), (8299, 0), (4, 0)], [(0, 7473046), (0, 30127), (0, 34)], [(21894, 0), (166, 0)]],
    3, 4⟩, 17592186044416, 408594357,
    1583862230992227576577353332657204489058107854812772671939762875907473620270764976152679398358670128686890021323073012998513048,
    lc0⟩)))
theorem c82 : checkR job con1 false ⟨7, 9, 7, 9, 13, 17⟩ 1 30400 t82 642 14 320 4117 39 4000 = true := by decide +kernel

def t83 : CTree :=
  .sx (.sy (.sx (.sy (.leaf ⟨377, 16, 540, 389, 16, 4018, ⟨[[(0, 25491815039504384), (0, 13586165394053662),
    (1018460272101, 0), (0, 35408423), (0, 118)], [(40458710459453010, 0), (0, 12066712865699), (399308907, 0), (0,
    257811), (0, 219)], [(52748762439065, 0), (0, 3172792670), (900392, 0), (764, 0)], [(30162634108, 0), (0,
    945128), (0, 2328)]], 3, 4⟩, ⟨[[(14782360236539904, 0), (0, 20806356390954214), (1122312977138, 0), (0,
    12129325), (4709, 0)], [(0, 21328671646907392), (0, 2238336760525), (250104563, 0), (0, 146738), (0, 276)],
    [(19307684255079, 0), (0, 1721543336), (0, 713689), (0, 990)], [(9269800573, 0), (1744029, 0), (1743, 0), (1,
    0)]], 3, 4⟩, 72057594037927936, 375763488060, 60516993790, ⟨[[(14657419242881, 0), (2313438481, 0), (0, 508970),
    (0, 139)], [(1211273968, 0), (2837512, 0), (2422, 0), (1, 0)], [(0, 3190549), (0, 7180), (0, 9)], [(6893, 0),
    (24, 0)]], 3, 4⟩, 17592186044416, 13746645,
    3429351549475042739401812328111222795811430473352484786261110089248350030534036575421016471012291872084860470604331043845904862,
    lc0⟩) (.leaf ⟨369, 16, 550, 368, 16, 4034, ⟨[[(0, 19485832304738304), (0, 13676599808123975), (1028816764431, 0),
    (0, 36904930), (0, 5632)], [(40251653869095561, 0), (0, 12231952973488), (336801757, 0), (0, 336288), (0, 250)],
    [(53479479786703, 0), (0, 3074256225), (1099734, 0), (784, 0)], [(30631534549, 0), (0, 1338605), (0, 2452)]], 3,
    4⟩, ⟨[[(17161411728781312, 0), (0, 20713647834035893), (1124012250111, 0), (0, 11921094), (0, 3447)], [(0,
    21587442823624635), (0, 2211339136753), (205326229, 0), (0, 249188), (0, 379)], [(19244905027290, 0), (0,
    1859237910), (0, 966955), (0, 1150), (0, 1)], [(9454258976, 0), (2036499, 0), (1914, 0), (1, 0)]], 3, 4⟩,
    72057594037927936, 403115393307, 57369705413, ⟨[[(14587630704459, 0), (2285291195, 0), (0, 532054), (0, 156)],
    [(1219733324, 0), (2880116, 0), (2588, 0), (1, 0)], [(0, 3213268), (0, 7595), (0, 10)], [(6844, 0), (27, 0)]], 3,
    4⟩, 17592186044416, 15438542,
    3173813649606481014475689581423232760864301062913191478636611559525603177461145815202770773375504654554918880523065327812737457,
    lc0⟩)) (.leaf ⟨251, 16, 352, 215, 16, 2338, ⟨[[(17762759728777216, 0), (0, 18051560987942561), (2673409994322,
    0), (0, 225378132), (0, 94238)], [(28034502373581947, 0), (0, 15921350827718), (1087581257, 0), (0, 1307518), (0,
    2412)], [(35983525703437, 0), (0, 4121445763), (2082120, 0), (3874, 0)], [(20335242955, 0), (0, 432234), (0,
    5682), (0, 1)]], 3, 4⟩, ⟨[[(15398931908833280, 0), (0, 24185760148866117), (2622560103698, 0), (0, 83433807), (0,
    79678)], [(0, 11821558791305445), (0, 2694150740192), (436956026, 0), (0, 1171148), (0, 3274)], [(11655702557434,
    0), (0, 1896095091), (0, 1599810), (0, 4699), (0, 4)], [(5537496609, 0), (2060114, 0), (3909, 0), (3, 0)]], 3,
    4⟩, 72057594037927936, 289386447105, 98761584607, ⟨[[(14621219211815, 0), (4046889788, 0), (0, 1423502), (0,
    717), (1, 0)], [(1701071085, 0), (6955255, 0), (10165, 0), (5, 0)], [(0, 6834503), (0, 25444), (0, 59)], [(21584,
    0), (130, 0)]], 3, 4⟩, 17592186044416, 267530687,
    2857638810221697658854674193046983378109711427940869678704165583723903501345186854596644130305677666173913810950447444820002617,
    lc0⟩)) (.sx (.sy (.leaf ⟨360, 16, 560, 347, 16, 4050, ⟨[[(32303515058188288, 0), (0, 13762551906124277),
    (1038430684028, 0), (0, 40549038), (0, 13760)], [(40013976859205193, 0), (0, 12407604111309), (253110749, 0), (0,
    426978), (0, 288)], [(54214874170703, 0), (0, 2940861725), (1307375, 0), (806, 0)], [(31066777603, 0), (0,
    1760069), (0, 2599)]], 3, 4⟩, ⟨[[(20400760665931776, 0), (0, 20619992403931208), (1125422022021, 0), (0,
    14639986), (0, 14120)], [(0, 21845112875964997), (0, 2193295131869), (132293711, 0), (0, 387348), (0, 503)],
    [(19169165610380, 0), (0, 2040178109), (0, 1261417), (0, 1334), (0, 1)], [(9663281834, 0), (2358210, 0), (2103,
    0), (1, 0)]], 3, 4⟩, 72057594037927936, 432782719588, 53567250223, ⟨[[(14517648482679, 0), (2255436888, 0), (0,
    558268), (0, 176)], [(1232883485, 0), (2941222, 0), (2768, 0), (1, 0)], [(0, 3237154), (0, 8170), (0, 10)],
    [(6684, 0), (30, 0)]], 3, 4⟩, 17592186044416, 17506502,
    2475485584204607689875859399309527837082632569105796842129920252292932250490921218195452454013819433838471525485461318215533436,
    lc0⟩) (.leaf ⟨352, 16, 570, 326, 16, 4066, ⟨[[(0, 13669359850881024), (0, 13844208512557990), (1046679828051, 0),
    (0, 47286572), (0, 25063)], [(39744787060169006, 0), (0, 12597485588683), (144752861, 0), (0, 532263), (0, 334)],
    [(54958000024682, 0), (0, 2770754544), (1523788, 0), (830, 0)], [(31465467829, 0), (0, 2213683), (0, 2772), (0,
    1)]], 3, 4⟩, ⟨[[(24625111438819328, 0), (0, 20525495899366810), (1125754189310, 0), (0, 21178843), (0, 27933)],
    [(0, 22102563622295662), (0, 2189362049937), (21697726, 0), (0, 568447), (0, 651)], [(19076769202462, 0), (0,
    2271457351), (0, 1603473), (0, 1547), (0, 1)], [(9899367362, 0), (2712319, 0), (2313, 0), (1, 0)]], 3, 4⟩,
    72057594037927936, 464436148119, 49047715182, ⟨[[(14449916328986, 0), (2229635289, 0), (0, 581965), (0, 196)],
    [(1237117443, 0), (2992095, 0), (2914, 0), (1, 0)], [(0, 3212784), (0, 8775), (0, 10)], [(6278, 0), (34, 0)]], 3,
    4⟩, 17592186044416, 19792041,
    1335882621705025520510368255205545640406897167076034520866972206314101759628495966650724157020404217685402847168319034827470013,
    lc0⟩)) (.sy (.leaf ⟨358, 16, 532, 343, 16, 4097, ⟨[[(0, 16827925570846720), (0, 13406689320333141),
    (994162561044, 0), (0, 49288273), (0, 20724)], [(40967830236755735, 0), (0, 11946987332775), (304365006, 0), (0,
    363728), (0, 273)], [(54031737140520, 0), (0, 2900350675), (1043684, 0), (733, 0)], [(30665956479, 0), (0,
    839241), (0, 2241)]], 3, 4⟩, ⟨[[(0, 4305470211293184), (0, 20922977864025817), (1141274863038, 0), (0, 26821797),
    (0, 29004)], [(0, 20989585754631182), (0, 2328861318901), (67220773, 0), (0, 465537), (0, 543)],
    [(20219187131727, 0), (0, 1870882165), (0, 1105197), (0, 1284), (0, 1)], [(9939348696, 0), (2233594, 0), (1956,
    0), (1, 0)]], 3, 4⟩, 72057594037927936, 410559571583, 74808684224, ⟨[[(14519220972229, 0), (2284413131, 0), (0,
    498801), (0, 160)], [(1166428245, 0), (2758565, 0), (2504, 0), (1, 0)], [(0, 3176402), (0, 7303), (0, 10)],
    [(6631, 0), (27, 0)]], 3, 4⟩, 17592186044416, 18407884,
    2169980207505411144496091852199626745275642666604295140100148334982449830450484757017039337668270665859155463136512028917837046,
    lc0⟩) (.leaf ⟨350, 16, 542, 322, 16, 4113, ⟨[[(0, 15025342523654144), (0, 13501651837380423), (1000197387480, 0),
    (0, 58527839), (0, 32701)], [(40790221111743365, 0), (0, 12130490045360), (212775765, 0), (0, 463134), (0, 316)],
    [(54823715074770, 0), (0, 2775360567), (1238144, 0), (748, 0)], [(31161639746, 0), (0, 1217597), (0, 2369)]], 3,
    4⟩, ⟨[[(0, 25999491906912256), (0, 20826508876577789), (1138160129937, 0), (0, 38731152), (0, 47243)], [(0,
    21253749350744517), (0, 2337062240946), (0, 63551472), (0, 660551), (0, 698)], [(20144265487950, 0), (0,
    2075983702), (0, 1434230), (0, 1491), (0, 1)], [(10165380081, 0), (2562877, 0), (2149, 0), (1, 0)]], 3, 4⟩,
    72057594037927936, 444727499543, 74445512307, ⟨[[(14451497895602, 0), (2257742740, 0), (0, 521212), (0, 179)],
    [(1175383050, 0), (2801280, 0), (2664, 0), (1, 0)], [(0, 3173977), (0, 7833), (0, 10)], [(6325, 0), (31, 0)]], 3,
    4⟩, 17592186044416, 20698598,
    1322889583537063213627575923996064351271343529063193762266125853533414932179508208219123369642035280874489400853398430047336429,
    lc0⟩)))) (.sy (.sx (.leaf ⟨251, 16, 337, 212, 16, 2351, ⟨[[(25231832586549248, 0), (0, 17712215628472195),
    (2590087383021, 0), (0, 247936312), (0, 154925)], [(28815358184372366, 0), (0, 15463951516747), (1140520332, 0),
    (0, 1046087), (0, 2314)], [(36112672758821, 0), (0, 3933419163), (1560915, 0), (3648, 0)], [(20107859266, 0),
    (730118, 0), (0, 4840)]], 3, 4⟩, ⟨[[(0, 5732594129641472), (0, 24397545603602872), (2648269049416, 0), (0,
    120512761), (0, 175781)], [(0, 11217749649930078), (0, 2811051263840), (358384083, 0), (0, 1435449), (0, 3539)],
    [(12193423231242, 0), (0, 1733287755), (0, 1286510), (0, 4484), (0, 4)], [(5694434062, 0), (2077005, 0), (3766,
    0), (3, 0)]], 3, 4⟩, 72057594037927936, 267630253529, 118971163210, ⟨[[(14622180417677, 0), (4109693046, 0), (0,
    1294068), (0, 667), (1, 0)], [(1597430623, 0), (6603722, 0), (9185, 0), (5, 0)], [(0, 6628438), (0, 22926), (0,
    54)], [(20557, 0), (115, 0)]], 3, 4⟩, 17592186044416, 267609549,
    2125736487861736800525045545535540638244765191194011642235364049850268815816128626224280630262357410519805739821953860422457139,
    lc0⟩) (.leaf ⟨253, 16, 324, 209, 16, 2365, ⟨[[(0, 14200075444836352), (0, 17448185815596367), (2521953547675, 0),
    (0, 263787037), (0, 211416)], [(29694002706489655, 0), (0, 15076619642071), (1170111450, 0), (0, 809624), (0,
    2238)], [(36367306183622, 0), (0, 3673029838), (1136288, 0), (3507, 0)], [(19885710989, 0), (1895639, 0), (0,
    4022)]], 3, 4⟩, ⟨[[(0, 4849794495588352), (0, 24623329639806044), (2673201931229, 0), (0, 165136855), (0,
    279886)], [(0, 10584072396941991), (0, 2920445090865), (296906302, 0), (0, 1689984), (0, 3800)],
    [(12752961579446, 0), (0, 1563807323), (0, 978159), (0, 4275), (0, 4)], [(5865551047, 0), (2207587, 0), (3753,
    0), (3, 0)]], 3, 4⟩, 72057594037927936, 235517990711, 135754784612, ⟨[[(14622886348835, 0), (4171952399, 0), (0,
    1168230), (0, 614), (1, 0)], [(1476207486, 0), (6230528, 0), (8136, 0), (4, 0)], [(0, 6340311), (0, 20290), (0,
    49)], [(18985, 0), (96, 0)]], 3, 4⟩, 17592186044416, 251505998,
    1230173943845381634954095737906547828039590438623363030414173516134496393996170592212328907084259704801837044978421716065235433,
    lc0⟩)) (.sx (.leaf ⟨240, 16, 348, 188, 16, 2379, ⟨[[(0, 1456105966424064), (0, 17878170946094845),
    (2606827635815, 0), (0, 333727044), (0, 357651)], [(28516919525816151, 0), (0, 15809512687967), (830443013, 0),
    (0, 1922361), (0, 3048)], [(36986191192616, 0), (0, 3741934605), (2487118, 0), (3716, 0)], [(20792347375, 0), (0,
    36336), (0, 5158), (0, 1)]], 3, 4⟩, ⟨[[(0, 3917289923835904), (0, 24272767597170501), (2641148336578, 0), (0,
    225886528), (0, 513392)], [(0, 11571856152296983), (0, 2822317698105), (0, 135431233), (0, 2932851), (0, 6052)],
    [(12191592849524, 0), (0, 2048771960), (0, 2539759), (0, 6118), (0, 6)], [(5950791212, 0), (2751639, 0), (4545,
    0), (3, 0)]], 3, 4⟩, 72057594037927936, 341837521869, 161362609234, ⟨[[(14484772964844, 0), (4006729869, 0), (0,
    1388562), (0, 822), (1, 0)], [(1622945350, 0), (6701938, 0), (10416, 0), (6, 0)], [(0, 6734488), (0, 25267), (0,
    61)], [(20410, 0), (142, 0)]], 3, 4⟩, 17592186044416, 363194003,
    2095917449545475620404961547928275969016485079104239447882194704519403887767630058587568188211168913936735296601815067999385838,
    lc0⟩) (.leaf ⟨241, 16, 333, 185, 16, 2393, ⟨[[(0, 26629701204170752), (0, 17533946776442568), (2518476618875, 0),
    (0, 368076722), (0, 424058)], [(29317026355311264, 0), (0, 15327627100446), (916971536, 0), (0, 1641928), (0,
    2929)], [(37091859348404, 0), (0, 3527644575), (2000571, 0), (3513, 0)], [(20565038280, 0), (1307735, 0), (0,
    4095)]], 3, 4⟩, ⟨[[(0, 24218918647443456), (0, 24496653046002639), (2650973654291, 0), (0, 314567769), (0,
    691401)], [(0, 10939015175988683), (0, 2947757058633), (0, 268599314), (0, 3286611), (0, 6410)],
    [(12772285331524, 0), (0, 1824376429), (0, 2173445), (0, 5864), (0, 6)], [(6133738539, 0), (2881211, 0), (4527,
    0), (3, 0)]], 3, 4⟩, 72057594037927936, 308248821820, 187146219231, ⟨[[(14486411885078, 0), (4069268173, 0), (0,
    1249195), (0, 756), (1, 0)], [(1511639725, 0), (6320799, 0), (9295, 0), (5, 0)], [(0, 6524410), (0, 22160), (0,
    57)], [(19651, 0), (121, 0)]], 3, 4⟩, 17592186044416, 353040809,
    1376275050698175631471302551967891817060997570847376858161460400413835163009802736961237914405509352731815526891769014942245094,
    lc0⟩)))
theorem c83 : checkR job con1 false ⟨7, 9, 7, 9, 13, 17⟩ 1 30400 t83 670 14 320 4117 39 4000 = true := by decide +kernel

def t84 : CTree :=
  .sx (.sy (.sx (.leaf ⟨254, 16, 311, 206, 16, 2379, ⟨[[(8700257959743488, 0), (0, 17156029436119795),
    (2452986205493, 0), (0, 272312508), (0, 263328)], [(30502690289650007, 0), (0, 14663930674084), (1175621254, 0),
    (0, 587301), (0, 2166)], [(36530613594617, 0), (0, 3323548525), (790713, 0), (3422, 0)], [(19523396135, 0),
    (2990166, 0), (0, 3299), (1, 0)]], 3, 4⟩, ⟨[[(12524036127047680, 0), (0, 24852531513018696), (2696700575534, 0),
    (0, 217024100), (0, 391852)], [(0, 9914349994176715), (0, 3020460680812), (252464645, 0), (0, 1934211), (0,
    4055)], [(13329679411541, 0), (0, 1378779661), (0, 665483), (0, 4064), (0, 4)], [(6030558151, 0), (2413371, 0),
    (3813, 0), (3, 0)]], 3, 4⟩, 72057594037927936, 190255019645, 146301488001, ⟨[[(14621322331791, 0), (4225789911,
    0), (0, 1060107), (0, 568), (1, 0)], [(1366711369, 0), (5939825, 0), (7254, 0), (4, 0)], [(0, 6142873), (0,
    18343), (0, 44)], [(17756, 0), (81, 0)]], 3, 4⟩, 17592186044416, 243457749,
    2069905941823586087271083626709540791571239227205144929598144964644926522174659203746568417146008019698834280246070644707691116,
    lc0⟩) (.leaf ⟨256, 16, 299, 204, 16, 2395, ⟨[[(7108034668457984, 0), (0, 16891243802758571), (2390513285500, 0),
    (0, 275012320), (0, 311774)], [(31336917855926007, 0), (0, 14269438780703), (1165708999, 0), (0, 377802), (0,
    2104)], [(36710768309295, 0), (0, 2908257456), (511117, 0), (3388, 0)], [(19053107603, 0), (3942160, 0), (0,
    2798), (1, 0)]], 3, 4⟩, ⟨[[(0, 12258084124278784), (0, 25105852994397063), (2721513080376, 0), (0, 276150893),
    (0, 511991)], [(0, 9215180748120641), (0, 3112622302353), (225705295, 0), (0, 2169625), (0, 4309)],
    [(13933797467977, 0), (0, 1174935779), (0, 345969), (0, 3851), (0, 4)], [(6170531438, 0), (2642132, 0), (3866,
    0), (3, 0)]], 3, 4⟩, 72057594037927936, 131003485664, 147623000001, ⟨[[(14622745581881, 0), (4273883812, 0), (0,
    959037), (0, 518), (1, 0)], [(1253333861, 0), (5662638, 0), (6401, 0), (4, 0)], [(0, 5941713), (0, 16671), (0,
    39)], [(16481, 0), (66, 0)]], 3, 4⟩, 17592186044416, 228973778,
    2904543618131216439979531710293076686336193557403045791929496631107255715471010108395334814008480952867506955316267204809377472,
    lc0⟩)) (.sx (.leaf ⟨243, 16, 320, 182, 16, 2408, ⟨[[(0, 30440292242956288), (0, 17264480278618677),
    (2446255698550, 0), (0, 395236338), (0, 486566)], [(30215504523528878, 0), (0, 14915100999290), (980185096, 0),
    (0, 1388248), (0, 2833)], [(37327638125845, 0), (0, 3229236420), (1624104, 0), (3406, 0)], [(20308154607, 0),
    (2563796, 0), (0, 3191), (1, 0)]], 3, 4⟩, ⟨[[(0, 22637428419586048), (0, 24734634176387279), (2658408287887, 0),
    (0, 413691948), (0, 880761)], [(0, 10273217488532635), (0, 3062074328884), (0, 382018524), (0, 3629523), (0,
    6764)], [(13377099624539, 0), (0, 1584204999), (0, 1802846), (0, 5610), (0, 6)], [(6319516284, 0), (3100691, 0),
    (4600, 0), (3, 0)]], 3, 4⟩, 72057594037927936, 260368728935, 206119416169, ⟨[[(14486331160749, 0), (4124958765,
    0), (0, 1123620), (0, 693), (1, 0)], [(1395079345, 0), (5971976, 0), (8210, 0), (5, 0)], [(0, 6281271), (0,
    19399), (0, 51)], [(18553, 0), (99, 0)]], 3, 4⟩, 17592186044416, 331723185,
    896138447214881507397362829402448288540701479817742803183103748914467749755146697170832073682990383958040196581374998764685405,
    lc0⟩) (.leaf ⟨244, 16, 307, 179, 16, 2423, ⟨[[(27565216268871680, 0), (0, 16966135917119262), (2374364364143, 0),
    (0, 413891164), (0, 543213)], [(31039582015407991, 0), (0, 14475939028504), (1020868336, 0), (0, 1146741), (0,
    2740)], [(37464911510081, 0), (0, 2841475777), (1324005, 0), (3351, 0)], [(19861772358, 0), (3624055, 0), (0,
    2564), (1, 0)]], 3, 4⟩, ⟨[[(0, 3661101054889984), (0, 24976164236183903), (2662884629613, 0), (0, 522876716), (0,
    1081128)], [(0, 9568370422812390), (0, 3162902102707), (0, 475063611), (0, 3959948), (0, 7112)],
    [(13999845221143, 0), (0, 1322596880), (0, 1423534), (0, 5349), (0, 5)], [(6476400090, 0), (3339423, 0), (4657,
    0), (4, 0)]], 3, 4⟩, 72057594037927936, 194166039596, 213608070562, ⟨[[(14484128240993, 0), (4172771242, 0), (0,
    1016165), (0, 638), (1, 0)], [(1289134952, 0), (5706473, 0), (7294, 0), (5, 0)], [(0, 6116371), (0, 17389), (0,
    46)], [(17687, 0), (82, 0)]], 3, 4⟩, 17592186044416, 321639473,
    1532935658952893892019354477454047435468182694516990434602259532468118773588892672187251390415987490505417974907134587306825733,
    lc0⟩))) (.sy (.sx (.leaf ⟨258, 16, 287, 202, 16, 2411, ⟨[[(0, 7382563522310144), (0, 16598943807798561),
    (2326229439812, 0), (0, 271549127), (0, 356112)], [(32095671016879008, 0), (0, 13843456220008), (1140198801, 0),
    (0, 177272), (0, 2042)], [(36778935348855, 0), (0, 2435688903), (269972, 0), (3369, 0)], [(18379336175, 0),
    (4653303, 0), (0, 2632), (1, 0)]], 3, 4⟩, ⟨[[(0, 18636917755615232), (0, 25362178320913021), (2745868497999, 0),
    (0, 342128079), (0, 639963)], [(0, 8476583159095471), (0, 3193253654659), (216824128, 0), (0, 2394540), (0,
    4557)], [(14550807375856, 0), (0, 952019014), (0, 24031), (0, 3639), (0, 4)], [(6249283741, 0), (2818169, 0),
    (3798, 0), (3, 0)]], 3, 4⟩, 72057594037927936, 68525104426, 140950028885, ⟨[[(14623313823116, 0), (4320715863,
    0), (0, 866684), (0, 471)], [(1137092828, 0), (5411400, 0), (5629, 0), (3, 0)], [(0, 5769749), (0, 15398), (0,
    34)], [(15373, 0), (53, 0)]], 3, 4⟩, 17592186044416, 215099337,
    3484772307794605770010911930868218546666261447405735559340060863372795590992230562706523753987658287301863856048260422752240339,
    lc0⟩) (.sy (.leaf ⟨371, 16, 387, 376, 16, 4417, ⟨[[(24331863212544000, 0), (0, 11516040337439029), (800097692709,
    0), (0, 41000061), (0, 31347)], [(46482172479744494, 0), (0, 9447863088017), (385455392, 0), (28905, 0), (0,
    165)], [(51722822071744, 0), (0, 1358494260), (0, 57186), (592, 0)], [(24441663668, 0), (3617341, 0), (0,
    1055)]], 3, 4⟩, ⟨[[(35933013653254144, 0), (0, 23413260085321147), (1270713388408, 0), (0, 81839635), (0,
    72331)], [(0, 13893642577874894), (0, 2978366252959), (167357472, 0), (0, 513647), (0, 480)], [(27641528214028,
    0), (0, 667151669), (217268, 0), (0, 719)], [(11235115045, 0), (2468593, 0), (1515, 0), (1, 0)]], 3, 4⟩,
    72057594037927936, 159779917364, 97893897770, ⟨[[(14655444688747, 0), (2403956862, 0), (0, 233378), (0, 67)],
    [(717804686, 0), (2005528, 0), (1028, 0)], [(0, 2808670), (0, 4009), (0, 4)], [(5054, 0), (8, 0)]], 3, 4⟩,
    17592186044416, 14479313,
    3520067843441487017446586285527369681713270048092625880833180400387617647929082845858330890866512310172481857814326213890500404,
    lc0⟩) (.leaf ⟨364, 16, 392, 353, 16, 4435, ⟨[[(0, 30504977042214912), (0, 11539220146365803), (799471236307, 0),
    (0, 52575627), (0, 39434)], [(46338645898425829, 0), (0, 9508812312380), (390958260, 0), (0, 25798), (0, 186)],
    [(52283674644107, 0), (0, 1374214113), (80934, 0), (587, 0)], [(25036831659, 0), (3500691, 0), (0, 1027)]], 3,
    4⟩, ⟨[[(0, 22140679575031808), (0, 23311286528922076), (1253623531805, 0), (0, 109901725), (0, 106264)], [(0,
    14182761929469145), (0, 2974679854961), (28150065, 0), (0, 687119), (0, 621)], [(27702891396143, 0), (0,
    649804859), (33902, 0), (0, 856)], [(11483743863, 0), (2725816, 0), (1650, 0), (1, 0)]], 3, 4⟩,
    72057594037927936, 155360319263, 103844913849, ⟨[[(14588401659670, 0), (2382230358, 0), (0, 238629), (0, 74)],
    [(725273039, 0), (2013321, 0), (1082, 0)], [(0, 2819285), (0, 3962), (0, 5)], [(5212, 0), (8, 0)]], 3, 4⟩,
    17592186044416, 16472373,
    3040357718711821011013079217047996200045522538071034521589083326406395098829648111140912692005915305198369183691795458500906253,
    lc0⟩))) (.sx (.leaf ⟨247, 16, 295, 177, 16, 2440, ⟨[[(0, 13150146145220608), (0, 16694506172693025),
    (2309966966127, 0), (0, 426014390), (0, 596035)], [(31887398178949070, 0), (0, 14054052209252), (1046577651, 0),
    (0, 918587), (0, 2657)], [(37612168649966, 0), (0, 2397894152), (1072263, 0), (3329, 0)], [(19248936571, 0),
    (4386545, 0), (0, 2382), (1, 0)]], 3, 4⟩, ⟨[[(0, 27673439561502720), (0, 25241551384770488), (2667151337147, 0),
    (0, 642347245), (0, 1293423)], [(0, 8830615340304849), (0, 3251631402521), (0, 547695777), (0, 4281099), (0,
    7459)], [(14648628053566, 0), (0, 1042449863), (0, 1043152), (0, 5093), (0, 5)], [(6571689337, 0), (3506114, 0),
    (4565, 0), (3, 0)]], 3, 4⟩, 72057594037927936, 108607394746, 206511807381, ⟨[[(14486211755917, 0), (4220805263,
    0), (0, 909867), (0, 575), (1, 0)], [(1166605438, 0), (5425831, 0), (6327, 0), (4, 0)], [(0, 5886654), (0,
    15505), (0, 40)], [(16472, 0), (64, 0)]], 3, 4⟩, 17592186044416, 292908136,
    1991274279075769958659557703479156410538455892917605214064929517016084433480084380672862251703344191249823713612847875149130078,
    lc0⟩) (.leaf ⟨249, 16, 283, 175, 16, 2457, ⟨[[(4495612750952448, 0), (0, 16394621343382971), (2244868933269, 0),
    (0, 430829015), (0, 643495)], [(32654293738665102, 0), (0, 13600799347402), (1055963485, 0), (0, 699630), (0,
    2573)], [(37631010192368, 0), (0, 1922388182), (819718, 0), (3285, 0)], [(18360786450, 0), (4716897, 0), (0,
    2811), (1, 0)]], 3, 4⟩, ⟨[[(0, 32160117775994880), (0, 25509840012331579), (2669567187101, 0), (0, 771476069),
    (0, 1516795)], [(0, 8050561249323674), (0, 3324757762913), (0, 599798500), (0, 4590356), (0, 7799)],
    [(15304793110624, 0), (0, 753578177), (0, 680473), (0, 4857), (0, 5)], [(6551744505, 0), (3475507, 0), (4139, 0),
    (3, 0)]], 3, 4⟩, 72057594037927936, 182871883259, 284224888112, ⟨[[(14486193040727, 0), (4262274093, 0), (0,
    819744), (0, 520)], [(1052741206, 0), (5205879, 0), (5536, 0), (4, 0)], [(0, 5729808), (0, 14292), (0, 35)],
    [(15601, 0), (50, 0)]], 3, 4⟩, 17592186044416, 275358849,
    2291157109143637010674539236625659943671298918375699319137391685439503267255068531385002206828491262414914618566379695565177564,
    lc0⟩)))
theorem c84 : checkR job con1 false ⟨7, 9, 7, 9, 13, 17⟩ 1 30400 t84 698 14 320 4117 39 4000 = true := by decide +kernel

def t85 : CTree :=
  .sx (.sx (.sy (.sx (.sy (.leaf ⟨372, 16, 369, 378, 16, 4492, ⟨[[(0, 12130342308745216), (0, 11233585106698394),
    (773108287188, 0), (0, 37875835), (0, 34330)], [(47136398556448037, 0), (0, 9072688618275), (361885173, 0),
    (59468, 0), (0, 160)], [(51252671755660, 0), (0, 997841936), (0, 151821), (573, 0)], [(22706938156, 0), (3582006,
    0), (0, 1353)]], 3, 4⟩, ⟨[[(0, 20865185672036352), (0, 23896101538104520), (1297261018449, 0), (0, 98418344), (0,
    87536)], [(0, 12528710247797509), (0, 3061139303159), (185970522, 0), (0, 562209), (0, 510)], [(29056829564032,
    0), (0, 474503073), (337486, 0), (0, 694)], [(11045412333, 0), (2297506, 0), (1195, 0)]], 3, 4⟩,
    72057594037927936, 304707866581, 214321956111, ⟨[[(14657665027831, 0), (2402002127, 0), (0, 207244), (0, 58)],
    [(637146243, 0), (1910004, 0), (892, 0)], [(0, 2777994), (0, 3895), (0, 4)], [(4934, 0), (6, 0)]], 3, 4⟩,
    17592186044416, 14077418,
    3646341516468072871980825245890668512716699486866481005693899340982050259090855303886228391726128873269892521361043170084404581,
    lc0⟩) (.leaf ⟨365, 16, 374, 353, 16, 4510, ⟨[[(0, 28019177207119872), (0, 11264332725362650), (773242327487, 0),
    (0, 50408581), (0, 42632)], [(47060098438836974, 0), (0, 9137621034334), (374773013, 0), (7025, 0), (0, 180)],
    [(51867603863591, 0), (0, 1024851879), (0, 19593), (567, 0)], [(23289460575, 0), (3416607, 0), (0, 1373)]], 3,
    4⟩, ⟨[[(26145145541988352, 0), (0, 23790659932080207), (1275687147751, 0), (0, 131995123), (0, 126100)], [(0,
    12817791841295029), (0, 3055618052015), (34247455, 0), (0, 746214), (0, 657)], [(29137820409659, 0), (0,
    437028111), (160850, 0), (0, 828)], [(11277069347, 0), (2500615, 0), (1288, 0)]], 3, 4⟩, 72057594037927936,
    313540118090, 230312045575, ⟨[[(14586724141716, 0), (2380612887, 0), (0, 211597), (0, 65)], [(644298972, 0),
    (1920311, 0), (936, 0)], [(0, 2780537), (0, 3806), (0, 4)], [(5060, 0), (7, 0)]], 3, 4⟩, 17592186044416,
    15990885,
    3225844478410638782541001003829419020822342912847666527983311084337584289776563474343221350758577819223797371932967803257526722,
    lc0⟩)) (.leaf ⟨266, 16, 255, 198, 16, 2466, ⟨[[(0, 20252168006049792), (0, 15793990010151513), (2152060344638,
    0), (0, 232817622), (0, 471722)], [(34348330426227721, 0), (0, 12566985654228), (992207540, 0), (361399, 0), (0,
    1891)], [(36688392127757, 0), (0, 1000441045), (0, 621431), (3059, 0), (0, 1)], [(15026803540, 0), (4410870, 0),
    (0, 5616), (0, 2)]], 3, 4⟩, ⟨[[(0, 18297756929597440), (0, 26220267878345718), (2829081892903, 0), (0,
    580444995), (0, 1072960)], [(0, 6036536789920489), (0, 3370028217262), (289724895, 0), (0, 3025177), (0, 5292)],
    [(16439219089750, 0), (0, 300179700), (727206, 0), (0, 3241), (0, 4)], [(5694815378, 0), (1944343, 0), (1256,
    0)]], 3, 4⟩, 72057594037927936, 407040429508, 400260855047, ⟨[[(14623344116882, 0), (4431505462, 0), (0, 641679),
    (0, 343)], [(776496230, 0), (4703716, 0), (3804, 0), (3, 0)], [(0, 5304217), (0, 13662), (0, 21)], [(13319, 0),
    (24, 0)]], 3, 4⟩, 17592186044416, 169766320,
    4027192076365228210395309417400739200193127976188976129737795278245511451880156069427422696770858106807148935762222546431589315,
    lc0⟩)) (.sx (.leaf ⟨252, 16, 272, 173, 16, 2476, ⟨[[(0, 1734522128211968), (0, 16124742905133424),
    (2186582858369, 0), (0, 430424071), (0, 688109)], [(33451711543493216, 0), (0, 13164858586927), (1051820950, 0),
    (0, 494594), (0, 2501)], [(37635147490618, 0), (0, 1463907177), (511305, 0), (3176, 0), (0, 1)], [(17214800219,
    0), (4499797, 0), (0, 4047)]], 3, 4⟩, ⟨[[(0, 5702947174051840), (0, 25801440931933502), (2672836196207, 0), (0,
    910742378), (0, 1752557)], [(0, 7233739897031331), (0, 3384992061152), (0, 633694178), (0, 4893607), (0, 8142)],
    [(15969088098361, 0), (0, 479250820), (0, 373357), (0, 4681), (0, 5)], [(6361793530, 0), (3095106, 0), (3153, 0),
    (2, 0)]], 3, 4⟩, 72057594037927936, 316358021936, 391008136635, ⟨[[(14484705412271, 0), (4300301141, 0), (0,
    736157), (0, 467)], [(929297097, 0), (4977317, 0), (4796, 0), (3, 0)], [(0, 5543331), (0, 13367), (0, 29)],
    [(14714, 0), (38, 0)]], 3, 4⟩, 17592186044416, 251008572,
    2540184569508754796646215489822466494025708795859031083008468095396616149808929067628526832230249098603620491123948890876848641,
    lc0⟩) (.leaf ⟨255, 16, 261, 172, 16, 2496, ⟨[[(0, 24748488579012608), (0, 15827357335671263), (2126703138180, 0),
    (0, 423936627), (0, 727913)], [(34159516757044041, 0), (0, 12701384178280), (1025993198, 0), (0, 306512), (0,
    2433)], [(37469369987405, 0), (0, 1067293998), (72665, 0), (2923, 0), (0, 1)], [(15696568606, 0), (3579061, 0),
    (0, 6280), (0, 3)]], 3, 4⟩, ⟨[[(0, 24418364755453952), (0, 26105713032804572), (2676305495105, 0), (0,
    1059890701), (0, 2000425)], [(0, 6375921832160360), (0, 3432670965322), (0, 653677902), (0, 5193896), (0, 8486)],
    [(16618287280858, 0), (0, 256426515), (0, 180423), (0, 4619), (0, 5)], [(5925437322, 0), (2170326, 0), (1323,
    0)]], 3, 4⟩, 72057594037927936, 481399993719, 529736403198, ⟨[[(14486081916353, 0), (4334480844, 0), (0, 661622),
    (0, 416)], [(806413244, 0), (4765009, 0), (4155, 0), (3, 0)], [(0, 5381638), (0, 12904), (0, 25)], [(14117, 0),
    (27, 0)]], 3, 4⟩, 17592186044416, 229320734,
    2656863565272796235640920458487689443422291993692783561714574493110391214079343784583565102943554483915509469469363104445094864,
    lc0⟩))) (.sy (.sx (.leaf ⟨270, 16, 246, 197, 16, 2487, ⟨[[(0, 28391225338273792), (0, 15576679418428820),
    (2102303668046, 0), (0, 212576580), (0, 506678)], [(35151354950175867, 0), (0, 12168176674688), (908835052, 0),
    (507841, 0), (0, 1865)], [(36566034103578, 0), (0, 647530937), (0, 1168069), (2696, 0), (0, 1)], [(13343425126,
    0), (3172934, 0), (0, 8327), (0, 5)]], 3, 4⟩, ⟨[[(17761052019169280, 0), (0, 26538919405582205), (2861946586487,
    0), (0, 673382866), (0, 1234429)], [(0, 5146484085691013), (0, 3411940342023), (334571244, 0), (0, 3235070), (0,
    5544)], [(17034587709459, 0), (0, 187110310), (746698, 0), (0, 3340), (0, 4)], [(5047303299, 0), (676589, 0), (0,
    1127), (0, 2)]], 3, 4⟩, 72057594037927936, 571332644563, 541993108102, ⟨[[(14621158941496, 0), (4459384916, 0),
    (0, 580167), (0, 305)], [(647990062, 0), (4439304, 0), (3338, 0), (2, 0)], [(0, 5103095), (0, 13595), (0, 17)],
    [(13096, 0), (17, 0)]], 3, 4⟩, 17592186044416, 151421714,
    3997367007485196353052026331379195177332318053230152471020810911866944705193731071784832787008027874364394072287673987173436068,
    lc0⟩) (.leaf ⟨272, 16, 236, 197, 16, 2509, ⟨[[(9775464020819968, 0), (0, 15270769172599519), (2040182915011, 0),
    (0, 188381104), (0, 536927)], [(35715855971208087, 0), (0, 11702473536823), (787393668, 0), (618967, 0), (0,
    1847)], [(36091519246583, 0), (0, 439073850), (0, 1955111), (2065, 0), (0, 1)], [(11201654506, 0), (1127450, 0),
    (0, 12134), (0, 8)]], 3, 4⟩, ⟨[[(11693793459736576, 0), (0, 26870205151661712), (2897262111501, 0), (0,
    773428294), (0, 1404959)], [(0, 4218408891979651), (0, 3452558424555), (374453799, 0), (0, 3459860), (0, 5810)],
    [(17571426436512, 0), (0, 213358620), (514384, 0), (0, 3685), (0, 4)], [(4036043174, 0), (0, 1421995), (0, 4785),
    (0, 6)]], 3, 4⟩, 72057594037927936, 756841955782, 719453171774, ⟨[[(14621217202780, 0), (4479211990, 0), (0,
    527081), (0, 269)], [(531472151, 0), (4204829, 0), (2994, 0), (2, 0)], [(0, 4969519), (0, 13986), (0, 14)],
    [(13536, 0), (12, 0)]], 3, 4⟩, 17592186044416, 143690267,
    3913374072310362751267055665088822556827583048973030535003731633045536019979679078155298313539246173594999594997543042432832470,
    lc0⟩)) (.sx (.leaf ⟨258, 16, 251, 171, 16, 2517, ⟨[[(4411906637635584, 0), (0, 15563694286507484),
    (2072751846231, 0), (0, 413817066), (0, 766135)], [(34903218680716512, 0), (0, 12265194183414), (973796053, 0),
    (0, 145896), (0, 2386)], [(37251732750131, 0), (0, 798150719), (0, 581924), (2457, 0), (0, 1)], [(13813100495,
    0), (1819055, 0), (0, 9745), (0, 6)]], 3, 4⟩, ⟨[[(0, 15052768690331648), (0, 26422438595577909), (2680237701694,
    0), (0, 1219120709), (0, 2260777)], [(0, 5477628923217478), (0, 3472063512444), (0, 668344288), (0, 5499871), (0,
    8838)], [(17228145575856, 0), (0, 140910497), (0, 187794), (0, 4750), (0, 5)], [(5153591421, 0), (464992, 0), (0,
    1697), (0, 3)]], 3, 4⟩, 72057594037927936, 675347918951, 706292335320, ⟨[[(14485202912109, 0), (4361796157, 0),
    (0, 597651), (0, 371)], [(686162352, 0), (4555426, 0), (3626, 0), (3, 0)], [(0, 5220304), (0, 12776), (0, 21)],
    [(13804, 0), (19, 0)]], 3, 4⟩, 17592186044416, 209907088,
    2671721477051637177415806305422799295394212073401114251907442280880068195737542947732441783990362245798248972017492439166364519,
    lc0⟩) (.leaf ⟨262, 16, 242, 170, 16, 2539, ⟨[[(20108230752784384, 0), (0, 15337322493788258), (2024046592577, 0),
    (0, 401214089), (0, 803947)], [(35693026993820649, 0), (0, 11866247639221), (881578532, 0), (0, 25408), (0,
    2368)], [(36962739217939, 0), (0, 726925353), (0, 1559592), (1678, 0), (0, 2)], [(11496612015, 0), (0, 954086),
    (0, 14703), (0, 11)]], 3, 4⟩, ⟨[[(23591903034208256, 0), (0, 26751567586474398), (2684578737187, 0), (0,
    1388955185), (0, 2534213)], [(0, 4540963422668959), (0, 3511214042957), (0, 692094135), (0, 5825635), (0, 9207)],
    [(17765924946753, 0), (0, 211019807), (0, 514619), (0, 5187), (0, 5)], [(3939751432, 0), (0, 2305952), (0, 6325),
    (0, 7)]], 3, 4⟩, 72057594037927936, 902308594518, 927663698508, ⟨[[(14482742898046, 0), (4386418377, 0), (0,
    539500), (0, 329)], [(559849618, 0), (4316730, 0), (3157, 0), (3, 0)], [(0, 5007162), (0, 12861), (0, 17)],
    [(13673, 0), (13, 0)]], 3, 4⟩, 17592186044416, 187293465,
    2652973111662423100684127348744700907788077429682240046898628996679786042582050341301034274820614567041385491845335667076925581,
    lc0⟩)))) (.sx (.sy (.sx (.leaf ⟨277, 16, 228, 197, 16, 2531, ⟨[[(0, 21531628802560000), (0, 15070000581905257),
    (1990557625854, 0), (0, 163890923), (0, 569823)], [(36481674047585403, 0), (0, 11329035040956), (623282562, 0),
    (686912, 0), (0, 1872)], [(35692425651497, 0), (0, 447321513), (0, 3098015), (1106, 0), (0, 2)], [(8700249382,
    0), (0, 1840695), (0, 17372), (0, 13)]], 3, 4⟩, ⟨[[(31094817992169472, 0), (0, 27203549814916677),
    (2933517988821, 0), (0, 880999536), (0, 1584633)], [(0, 3254282968221733), (0, 3500521978774), (391650732, 0),
    (0, 3715338), (0, 6098)], [(18007443771667, 0), (0, 461052257), (0, 95837), (0, 4394), (0, 4)], [(2558662632, 0),
    (0, 4617373), (0, 10109), (0, 11)]], 3, 4⟩, 72057594037927936, 973876578402, 938578541139, ⟨[[(14620233437242,
    0), (4500309744, 0), (0, 476080), (0, 233)], [(400847668, 0), (3889866, 0), (2686, 0), (2, 0)], [(0, 4681641),
    (0, 14355), (0, 10)], [(14038, 0), (8, 0)]], 3, 4⟩, 17592186044416, 125565153,
    3659645471279619456161127078220322923284937942629087416219303096153806215862335941796050646292306580330261629379935028981000904,
    lc0⟩) (.leaf ⟨281, 16, 220, 198, 16, 2555, ⟨[[(3461057543757824, 0), (0, 14847709010015314), (1934804314908, 0),
    (0, 139065092), (0, 602089)], [(37148017717478825, 0), (0, 10962826945426), (389196009, 0), (686939, 0), (0,
    1936)], [(35036352594662, 0), (0, 743963525), (0, 4693545), (0, 304), (0, 3)], [(5681527217, 0), (0, 5899879),
    (0, 24175), (0, 20)]], 3, 4⟩, ⟨[[(16252293211324416, 0), (0, 27560939101399253), (2972068416485, 0), (0,
    998119132), (0, 1775750)], [(0, 2262601589035623), (0, 3574029282297), (360608527, 0), (0, 4029461), (0, 6430)],
    [(18311935639763, 0), (0, 1038223954), (0, 1247574), (0, 5623), (0, 5)], [(499018569, 0), (0, 9228455), (0,
    17573), (0, 18)]], 3, 4⟩, 72057594037927936, 1219049015508, 1206185749364, ⟨[[(14621111121639, 0), (4510719583,
    0), (0, 430909), (0, 196)], [(283054345, 0), (3574638, 0), (2496, 0), (2, 0)], [(0, 4384291), (0, 14945), (0,
    6)], [(15112, 0), (6, 0)]], 3, 4⟩, 17592186044416, 113209236,
    3042129612879176811847179141941093646297373089614842745527626824003417134055684441681913462654385507500206997163375592471614302,
    lc0⟩)) (.sx (.leaf ⟨266, 16, 233, 170, 16, 2563, ⟨[[(19383824229466112, 0), (0, 15087412863057099),
    (1971014549647, 0), (0, 385974987), (0, 839232)], [(36382801902797696, 0), (0, 11469130645687), (726209980, 0),
    (36469, 0), (0, 2384)], [(36420697578576, 0), (0, 934275253), (0, 2977165), (466, 0), (0, 2)], [(8629404110, 0),
    (0, 4921506), (0, 21365), (0, 17)]], 3, 4⟩, ⟨[[(25396172453466112, 0), (0, 27103919608261822), (2689812618052,
    0), (0, 1571036000), (0, 2822778)], [(0, 3571544129797079), (0, 3564770397092), (0, 747538530), (0, 6195136), (0,
    9612)], [(18195819402754, 0), (0, 572483169), (0, 1320399), (0, 6082), (0, 6)], [(2158589763, 0), (0, 6485427),
    (0, 13063), (0, 13)]], 3, 4⟩, 72057594037927936, 1161090065436, 1201650895586, ⟨[[(14482675152407, 0),
    (4405389548, 0), (0, 486986), (0, 288)], [(434865638, 0), (4061366, 0), (2768, 0), (2, 0)], [(0, 4778356), (0,
    13264), (0, 14)], [(13958, 0), (7, 0)]], 3, 4⟩, 17592186044416, 167442635,
    2506840041981367669451567236979304210195261029001083362379183123514751995097870067808724388621649416863798428885165498976041735,
    lc0⟩) (.leaf ⟨271, 16, 225, 171, 16, 2587, ⟨[[(11806381202124800, 0), (0, 14880338688384000), (1920221647175, 0),
    (0, 371794634), (0, 876913)], [(37120434920050546, 0), (0, 11141025390056), (484871064, 0), (14706, 0), (0,
    2459)], [(35743821079952, 0), (0, 1521182934), (0, 4986173), (0, 1307), (0, 3)], [(5179284396, 0), (0, 10294527),
    (0, 30096), (0, 26)]], 3, 4⟩, ⟨[[(0, 18221575166615552), (0, 27459095782523756), (2692492256477, 0), (0,
    1765988103), (0, 3125824)], [(0, 2573184394150343), (0, 3650178705696), (0, 866925994), (0, 6635011), (0,
    10065)], [(18448688826100, 0), (0, 1363174320), (0, 2811232), (0, 7622), (0, 7)], [(0, 340852653), (0, 12473477),
    (0, 22492), (0, 22)]], 3, 4⟩, 72057594037927936, 1459543217548, 1536173638337, ⟨[[(14485442448797, 0),
    (4421134688, 0), (0, 440416), (0, 249)], [(312324529, 0), (3769290, 0), (2457, 0), (2, 0)], [(0, 4480977), (0,
    13844), (0, 10)], [(14544, 0), (3, 0)]], 3, 4⟩, 17592186044416, 146058912,
    2112457269202421728517915240596959548225836580448790542620197337637409926491808062232495589560401036414779670124261069894291984,
    lc0⟩))) (.sy (.out ⟨155, 16, 136, 1723, 16, 2164, ⟨[[(1218537996627968, 0), (0, 9464392266485586),
    (1199780947571, 0)], [(49593199483546459, 0), (0, 13687893510760), (0, 195446180)], [(87585983665919, 0), (0,
    5014714218), (0, 21431330)]], 2, 2⟩, ⟨[[(0, 20562461031006208), (0, 26993495319174948), (2905917368717, 0)], [(0,
    1419757338972860), (0, 7258337951616), (268005218, 0)], [(70571870100360, 0), (0, 10878196961), (0, 17129221)]],
    2, 2⟩, 72057594037927936, 33103387812541, 206723621120950, ⟨[], 0, 0⟩, 0, 0, 0, lc0⟩ 0 182 25) (.sx (.leaf ⟨276,
    16, 217, 172, 16, 2611, ⟨[[(0, 13683271297253376), (0, 14653521988788232), (1860572439971, 0), (0, 359765499),
    (0, 915200)], [(37739920126018249, 0), (0, 10855728254838), (121229486, 0), (0, 122761), (0, 2606)],
    [(34733209352191, 0), (0, 2593514037), (0, 7731446), (0, 3789), (0, 5)], [(1035713697, 0), (0, 17253975), (0,
    41097), (0, 36)]], 3, 4⟩, ⟨[[(0, 34280756488992768), (0, 27818387064342265), (2690185668874, 0), (0, 1976458578),
    (0, 3445199)], [(0, 1557628068519415), (0, 3796619379603), (0, 1096434837), (0, 7188777), (0, 10597)],
    [(18455247054623, 0), (0, 2758748635), (0, 5248314), (0, 10052), (0, 9)], [(0, 3728787524), (0, 20736246), (0,
    35292), (0, 34)]], 3, 4⟩, 72057594037927936, 1794748858142, 1940468808754, ⟨[[(14486600166414, 0), (4434486273,
    0), (0, 397455), (0, 210)], [(191081318, 0), (3439709, 0), (2234, 0), (2, 0)], [(0, 4110956), (0, 14646), (0,
    7)], [(15665, 0), (1, 0)]], 3, 4⟩, 17592186044416, 128032214,
    1394712776937468256503315066608988961390064723761085675176556891438508356383616127077444358392969726142131180247937532194068959,
    lc0⟩) (.out ⟨226, 16, 205, 1758, 16, 2246, ⟨[[(0, 31068120219682816), (0, 14132665547426951), (1754236846718,
    0)], [(37489200287467767, 0), (0, 10437671312012), (0, 396658564)], [(32702285731583, 0), (0, 4187644469), (0,
    11159022)]], 2, 2⟩, ⟨[[(0, 17276067251568640), (0, 27626806175021269), (2625944296734, 0)], [(0,
    530366770533018), (0, 3964641524369), (0, 1469451156)], [(17771720111036, 0), (0, 4880284165), (0, 8779675)]], 2,
    2⟩, 72057594037927936, 39074685532600, 173443824152400, ⟨[], 0, 0⟩, 0, 0, 0, lc0⟩ 0 164 17))))
theorem c85 : checkR job con1 false ⟨7, 9, 7, 9, 13, 17⟩ 1 30400 t85 370 14 160 4117 39 4000 = true := by decide +kernel

def t86 : CTree :=
  .sx (.sx (.out ⟨83, 16, 453, 205, 16, 160, ⟨[[(0, 28144377083479040), (0, 11349100433562493), (0, 1419581168428)],
    [(55268466621768494, 0), (0, 465391154355688), (0, 413450764818)], [(0, 2603197270811280), (0, 1683012289862),
    (0, 11237206631)]], 2, 2⟩, ⟨[[(24888656427522048, 0), (0, 8009857881247347), (0, 5535397821789)], [(0,
    97830411653359232), (0, 144115978318751), (0, 741635036678)], [(747297643664048, 0), (0, 1563076676793), (0,
    15072822093)]], 2, 2⟩, 72057594037927936, 21712504542592071, 7804463744626229, ⟨[], 0, 0⟩, 0, 0, 0, lc0⟩ 1 1
    486051583333749) (.out ⟨103, 16, 533, 194, 16, 165, ⟨[[(26020267930434560, 0), (0, 20999107022581173), (0,
    8560619860059)], [(7211248825549597, 0), (0, 512522071338703), (0, 291412358727)], [(0, 1180702674392612),
    (4743461672866, 0), (29860948122, 0)]], 2, 2⟩, ⟨[[(10633742165592064, 0), (0, 10459514604606200), (0,
    17983288492872)], [(0, 80695604394021120), (0, 149973113500218), (0, 877194420204)], [(706900253908575, 0),
    (1636400102142, 0), (7817810611, 0)]], 2, 2⟩, 72057594037927936, 23251722884668326, 9207696117550485, ⟨[], 0, 0⟩,
    0, 0, 0, lc0⟩ 1 1 272047787389110)) (.sy (.sx (.out ⟨198, 16, 958, 293, 16, 263, ⟨[[(0, 22220142895847424), (0,
    24086366846453025), (0, 246381154374)], [(0, 4145550882826842), (0, 314099663388660), (397412608255, 0)], [(0,
    468243595528978), (5713731153263, 0), (20537070712, 0)]], 2, 2⟩, ⟨[[(0, 35294437756825600), (0,
    8863373846160693), (0, 8372427409227)], [(0, 95548965971662281), (0, 43702682144155), (0, 132173725387)],
    [(968934409799091, 0), (2335821595343, 0), (7005706225, 0)]], 2, 2⟩, 72057594037927936, 11922314915982700,
    3233798838792645, ⟨[], 0, 0⟩, 0, 0, 0, lc0⟩ 1 1 144676080418868) (.sy (.sx (.out ⟨397, 16, 1866, 683, 16, 636,
    ⟨[[(21086064415227904, 0), (0, 26337207312997136), (3073460396995, 0)], [(0, 3661388451999746), (0,
    116910097201898), (176975292459, 0)], [(0, 43698876366095), (730776541378, 0), (1723037208, 0)]], 2, 2⟩, ⟨[[(0,
    6030074683932672), (0, 10561354698781217), (0, 4707641731219)], [(0, 93017448741362213), (2992295039239, 0),
    (5329530472, 0)], [(459769950630221, 0), (595293432875, 0), (933160026, 0)]], 2, 2⟩, 72057594037927936,
    961537089074309, 1053316521291577, ⟨[], 0, 0⟩, 0, 0, 0, lc0⟩ 1 1 62552185437700) (.sy (.sx (.out ⟨794, 16, 3664,
    1463, 16, 1383, ⟨[[(0, 26502475900059648), (0, 27194091461920351), (2479042819286, 0)], [(0, 2027791624096735),
    (0, 56118705178264), (48358356659, 0)], [(0, 10003573915352), (49762151632, 0), (125415899, 0)]], 2, 2⟩,
    ⟨[[(8521196958318592, 0), (0, 11194459834292475), (0, 2300835624566)], [(0, 91631243344757449), (7457919402156,
    0), (6104768122, 0)], [(211203280612909, 0), (129123977382, 0), (103377292, 0)]], 2, 2⟩, 72057594037927936,
    109623852672537, 280626200081618, ⟨[], 0, 0⟩, 0, 0, 0, lc0⟩ 1 1 29289606766836) (.leaf ⟨1656, 16, 3628, 497, 16,
    1691, ⟨[[(10266447584018432, 0), (0, 27700846797458875), (3145614378006, 0), (486393721, 0), (214881, 0)], [(0,
    2211810811187075), (0, 55410902454035), (50543438929, 0), (21124540, 0), (7930, 0)], [(0, 5172125541165), (0,
    39469942733), (64782970, 0), (33534, 0), (14, 0)], [(84715921447, 0), (0, 2201822440), (0, 1482123), (0, 753)]],
    3, 4⟩, ⟨[[(22604159783493632, 0), (0, 11765603165970617), (0, 2334857600922), (0, 1488042224), (0, 515366)], [(0,
    91474584727250359), (11483101409849, 0), (9356420453, 0), (4493098, 0), (1678, 0)], [(200343491327915, 0),
    (116028935889, 0), (94335059, 0), (48783, 0), (16, 0)], [(0, 580833574097), (0, 540724102), (0, 400731), (0,
    196)]], 3, 4⟩, 72057594037927936, 1668637464061, 343802034733, ⟨[[(14941917275528, 0), (0, 74433422), (0,
    1081471), (0, 41932), (0, 1066)], [(2452109971, 0), (4461884, 0), (41115, 0), (1217, 0), (13, 0)], [(0, 2062117),
    (4580, 0), (0, 418), (0, 8)], [(60, 0), (0, 19), (2, 0)]], 3, 4⟩, 17592186044416, 33163705,
    5019509968146606639884626515568131152556586625443237445722083272991323679551213171092500641779266695265233996002870945529751110,
    lc0⟩)) (.out ⟨332, 16, 347, 6280, 16, 6234, ⟨[[(0, 13060438919372800)], [(156274907069756197, 0)]], 2, 2⟩, ⟨[[(0,
    29822836732395520), (28075440077027673, 0)]], 2, 2⟩, 72057594037927936, 1738, 51942, ⟨[], 0, 0⟩, 0, 0, 0, lc0⟩ 2
    1 27673))) (.out ⟨158, 16, 173, 3163, 16, 3117, ⟨[[(0, 9907919180216320)], [(155824547107019154, 0)]], 2, 2⟩,
    ⟨[[(0, 29822836732428288), (28075440077027673, 0)]], 2, 2⟩, 72057594037927936, 1282, 19174, ⟨[], 0, 0⟩, 0, 0, 0,
    lc0⟩ 2 1 53343))) (.out ⟨71, 16, 86, 1604, 16, 1558, ⟨[[(0, 3602879701896192)], [(154923827181545051, 0)]], 2,
    2⟩, ⟨[[(0, 30876679045251072), (28066432877772931, 0)]], 2, 2⟩, 72057594037927936, 285, 1052, ⟨[], 0, 0⟩, 0, 0,
    0, lc0⟩ 2 1 98396))
theorem c86 : checkR job con2 false ⟨7, 9, 7, 9, 13, 17⟩ 1 30400 t86 13 7 20 2039 39 2000 = true := by decide +kernel

end PyX.Kron.T3a
