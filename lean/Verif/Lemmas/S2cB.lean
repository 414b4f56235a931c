import Verif.Lemmas.S2cJob

/-!
# Temperature from pressure and entropy in subregion 2c, part B of the certificate
-/

namespace PyX.Kron.S2c

set_option Elab.async false

def t14 : CTree :=
  .sx (.sy (.sx (.out ⟨215, 16, 20, 750, 16, 337, ⟨[[], [(343597383680, 0)]], 1, 1⟩, ⟨[[(0, 10622005797), (0,
    3709670582078)], [(0, 111734099974), (0, 1411835905)]], 1, 1⟩, 1099511627776, 0, 397054919875, ⟨[], 0, 0⟩, 0, 0,
    0, ⟨0, 3, 138845420906880, [84976089859]⟩⟩ 0 1 6599) (.out ⟨245, 16, 20, 741, 16, 337, ⟨[[], [(343597383680,
    0)]], 1, 1⟩, ⟨[[(0, 361329261678), (0, 3850314029513)], [(0, 102189064658), (0, 1519446165)]], 1, 1⟩,
    1099511627776, 0, 348675314951, ⟨[], 0, 0⟩, 0, 0, 0, ⟨0, 4, 146481940449478, [74570854366]⟩⟩ 0 1 5817)) (.sx
    (.out ⟨215, 16, 20, 697, 16, 322, ⟨[[], [(343597383680, 0)]], 1, 1⟩, ⟨[[(233358454054, 0), (0, 3588076865641)],
    [(0, 116701707961), (0, 2027842929)]], 1, 1⟩, 1099511627776, 0, 538414743232, ⟨[], 0, 0⟩, 0, 0, 0, ⟨0, 3,
    132665357661767, [81193771319]⟩⟩ 0 1 4817) (.out ⟨245, 16, 20, 679, 16, 318, ⟨[[], [(343597383680, 0)]], 1, 1⟩,
    ⟨[[(0, 153332544375), (0, 3746465452634)], [(0, 107175222641), (0, 2230694861)]], 1, 1⟩, 1099511627776, 0,
    587403755209, ⟨[], 0, 0⟩, 0, 0, 0, ⟨0, 4, 138223314726808, [70366562873]⟩⟩ 0 1 3957))) (.sy (.sx (.out ⟨275, 16,
    20, 728, 16, 335, ⟨[[], [(343597383680, 0)]], 1, 1⟩, ⟨[[(0, 291936197861), (0, 3977898196171)], [(0,
    94383019219), (0, 1624947471)]], 1, 1⟩, 1099511627776, 0, 377112516797, ⟨[], 0, 0⟩, 0, 0, 0, ⟨0, 4,
    152325825964690, [66041574017]⟩⟩ 0 1 5066) (.out ⟨305, 16, 20, 709, 16, 330, ⟨[[], [(343597383680, 0)]], 1, 1⟩,
    ⟨[[(5266715425, 0), (0, 4077935226292)], [(0, 87479370189), (0, 1721785031)]], 1, 1⟩, 1099511627776, 0,
    428203713491, ⟨[], 0, 0⟩, 0, 0, 0, ⟨0, 4, 155979924458565, [58656939976]⟩⟩ 0 1 4345)) (.sx (.out ⟨275, 16, 20,
    651, 16, 309, ⟨[[], [(343597383680, 0)]], 1, 1⟩, ⟨[[(0, 204089684720), (0, 3860439284793)], [(0, 98504052823),
    (0, 2422036208)]], 1, 1⟩, 1099511627776, 0, 676741623673, ⟨[], 0, 0⟩, 0, 0, 0, ⟨0, 4, 140503523053998,
    [60915959318]⟩⟩ 0 1 3126) (.sx (.sy (.out ⟨595, 16, 40, 1323, 16, 629, ⟨[[], [(343597383680, 0)]], 1, 1⟩, ⟨[[(0,
    26030342030), (0, 4019301971974)], [(0, 93298174055), (0, 1168204331)]], 1, 1⟩, 1099511627776, 0, 260129061530,
    ⟨[], 0, 0⟩, 0, 0, 0, ⟨0, 4, 294590358699711, [57311131397]⟩⟩ 0 1 3025) (.out ⟨595, 16, 40, 1220, 16, 590, ⟨[[],
    [(343597383680, 0)]], 1, 1⟩, ⟨[[(0, 147781849996), (0, 3972467009241)], [(0, 95112745192), (0, 1463963929)]], 1,
    1⟩, 1099511627776, 0, 349176132305, ⟨[], 0, 0⟩, 0, 0, 0, ⟨0, 4, 276324819766025, [53757659021]⟩⟩ 0 1 1985)) (.out
    ⟨625, 16, 40, 713, 16, 344, ⟨[[], [(343597383680, 0)]], 1, 1⟩, ⟨[[(0, 134935765715), (0, 4645649593568)], [(0,
    52146488122), (0, 1558153588)]], 1, 1⟩, 1099511627776, 0, 772480108211, ⟨[], 0, 0⟩, 0, 0, 0, ⟨0, 4,
    164046992102139, [29838963114]⟩⟩ 0 1 2128))))
theorem c14 : checkC job ⟨6, 8, 7, 8, 9, 13⟩ 1 25 lims t14 208 48 16 15 3 64 = true := by decide +kernel

def t15 : CTree :=
  .sy (.sx (.sx (.out ⟨335, 16, 20, 689, 16, 324, ⟨[[], [(343597383680, 0)]], 1, 1⟩, ⟨[[(0, 212096770145), (0,
    4172147776682)], [(0, 81647954082), (0, 1818592948)]], 1, 1⟩, 1099511627776, 0, 499792579462, ⟨[], 0, 0⟩, 0, 0,
    0, ⟨0, 4, 158417316634041, [52433096413]⟩⟩ 0 1 3704) (.out ⟨365, 16, 20, 665, 16, 316, ⟨[[], [(343597383680,
    0)]], 1, 1⟩, ⟨[[(0, 5034434371), (0, 4245807166134)], [(0, 76350862810), (0, 1908854276)]], 1, 1⟩, 1099511627776,
    0, 587801543731, ⟨[], 0, 0⟩, 0, 0, 0, ⟨0, 4, 159207551194443, [46935291614]⟩⟩ 0 1 3057)) (.sy (.out ⟨205, 16, 10,
    812, 16, 388, ⟨[[], [(343597383680, 0)]], 1, 1⟩, ⟨[[(61083586575, 0), (0, 2718547720284)], [(0, 171056948622),
    (0, 2270061204)]], 1, 1⟩, 1099511627776, 0, 599450093672, ⟨[], 0, 0⟩, 0, 0, 0, ⟨0, 4, 203308270614242,
    [102608459376]⟩⟩ 0 1 2716) (.sx (.out ⟨395, 16, 20, 1018, 16, 493, ⟨[[], [(343597383680, 0)]], 1, 1⟩, ⟨[[(0,
    335445822052), (0, 3555949603132)], [(0, 120220069927), (0, 1860360980)]], 1, 1⟩, 1099511627776, 0, 396112277157,
    ⟨[], 0, 0⟩, 0, 0, 0, ⟨0, 4, 255139558414737, [67663603986]⟩⟩ 0 1 1901) (.out ⟨425, 16, 20, 981, 16, 480, ⟨[[],
    [(343597383680, 0)]], 1, 1⟩, ⟨[[(0, 258840033394), (0, 3643713456272)], [(0, 114307899368), (0, 1973177302)]], 1,
    1⟩, 1099511627776, 0, 430777086101, ⟨[], 0, 0⟩, 0, 0, 0, ⟨0, 4, 254507499530391, [61229062478]⟩⟩ 0 1 1282))))
    (.sx (.sy (.out ⟨175, 16, 10, 696, 16, 338, ⟨[[], [(343597383680, 0)]], 1, 1⟩, ⟨[[(104222070048, 0), (0,
    2391277928478)], [(0, 188588519523), (0, 3020373244)]], 1, 1⟩, 1099511627776, 0, 813748539741, ⟨[], 0, 0⟩, 0, 0,
    0, ⟨0, 4, 167830965121900, [104708986012]⟩⟩ 0 1 1733) (.sx (.sy (.out ⟨335, 16, 20, 1320, 16, 646, ⟨[[],
    [(343597383680, 0)]], 1, 1⟩, ⟨[[(0, 303285996467), (0, 2335038592299)], [(0, 196728547533), (0, 1741825572)]], 1,
    1⟩, 1099511627776, 0, 405487592005, ⟨[], 0, 0⟩, 0, 0, 0, ⟨0, 4, 315856748597502, [104542531737]⟩⟩ 0 1 1270)
    (.leaf ⟨335, 16, 20, 1252, 16, 619, ⟨[[], [(343597383680, 0)]], 3, 4⟩, ⟨[[(101605329222, 0), (0, 2337993496295),
    (0, 9435864057), (0, 128858186), (0, 1584274)], [(0, 199462834808), (0, 1998337346), (0, 31481529), (0, 510237),
    (0, 8758)], [(12164994, 0), (0, 1578739), (0, 44618), (0, 1070), (0, 26)], [(0, 43285), (0, 1113), (0, 48), (0,
    2)]], 3, 4⟩, 1099511627776, 0, 515083595, ⟨[[(47852663440071, 0), (56718809598, 0), (178008568, 0), (100821, 0),
    (0, 168)], [(32900297136, 0), (47967049, 0), (0, 16555), (0, 106), (0, 1)], [(0, 37429836), (0, 71041), (0, 18)],
    [(62285, 0), (163, 0)]], 3, 4⟩, 68719476736, 10971346,
    3818817087174435045260610958277503753017097667512631114227598617855806013814241509616170999434, ⟨0, 4,
    302655305544665, [100173107036, 46722531, 29056]⟩⟩)) (.leaf ⟨365, 16, 20, 838, 16, 418, ⟨[[], [(343597383680,
    0)]], 3, 4⟩, ⟨[[(465774897125, 0), (0, 3339643509354), (0, 30647629577), (0, 867278551), (0, 23028810)], [(0,
    129404076421), (0, 2842743185), (0, 95510574), (0, 3310344), (0, 123882)], [(3829901, 0), (0, 2181414), (0,
    130303), (0, 6793), (0, 370)], [(0, 23936), (0, 1448), (0, 136), (0, 11), (0, 1)]], 3, 4⟩, 1099511627776, 0,
    616807838, ⟨[[(48187763457194, 0), (80286591560, 0), (381853064, 0), (343391, 0), (0, 878)], [(30321386735, 0),
    (65832128, 0), (0, 31860), (0, 270), (0, 2)], [(0, 31788358), (0, 85960), (0, 40)], [(48164, 0), (178, 0)]], 3,
    4⟩, 68719476736, 8040080,
    3709626875825420104259145816240819578111052747685797284845698080046978321194702061244744644799, ⟨0, 4,
    210597330377459, [62085290806, 26577607, 15170]⟩⟩))) (.sy (.sx (.sy (.out ⟨395, 16, 20, 1393, 16, 685, ⟨[[],
    [(343597383680, 0)]], 1, 1⟩, ⟨[[(326335224151, 0), (0, 2605645070210)], [(0, 180193573731), (0, 1652634043)]], 1,
    1⟩, 1099511627776, 0, 339540323153, ⟨[], 0, 0⟩, 0, 0, 0, ⟨0, 4, 354504254592484, [94015352394]⟩⟩ 0 1 984) (.leaf
    ⟨395, 16, 20, 1318, 16, 655, ⟨[[], [(343597383680, 0)]], 3, 4⟩, ⟨[[(413595293910, 0), (0, 2607716790700), (0,
    10917844019), (0, 150545741), (0, 1834799)], [(0, 182689111955), (0, 1896640028), (0, 30226681), (0, 486649), (0,
    8200)], [(9941046, 0), (0, 1197601), (0, 33854), (0, 797), (0, 19)], [(0, 25988), (0, 602), (0, 26), (0, 1)]], 3,
    4⟩, 1099511627776, 0, 269304902, ⟨[[(49328936176790, 0), (53965828544, 0), (156358713, 0), (84066, 0), (0, 158)],
    [(28724825555, 0), (38859997, 0), (0, 15024), (0, 78)], [(0, 28104134), (0, 46066), (0, 16)], [(39550, 0), (87,
    0)]], 3, 4⟩, 68719476736, 5804976,
    2448517389094059230757612452587408642873475293371707216147685614661706420686500717786235030973, ⟨0, 4,
    338978520814711, [89897891705, 35560875, 18756]⟩⟩)) (.leaf ⟨425, 16, 20, 862, 16, 431, ⟨[[], [(343597383680,
    0)]], 3, 4⟩, ⟨[[(15144026918, 0), (0, 3581848200227), (0, 32762411236), (0, 923029994), (0, 23539278)], [(0,
    115386430932), (0, 2547407470), (0, 84514478), (0, 2826734), (0, 100120)], [(4437847, 0), (0, 1520718), (0,
    88579), (0, 4374), (0, 227)], [(0, 13774), (0, 676), (0, 62), (0, 5)]], 3, 4⟩, 1099511627776, 0, 444189533,
    ⟨[[(49735600275456, 0), (79958815953, 0), (355363903, 0), (305945, 0), (0, 904)], [(26847244091, 0), (55552442,
    0), (0, 32931), (0, 228), (0, 2)], [(0, 24556979), (0, 59060), (0, 36)], [(32109, 0), (104, 0)]], 3, 4⟩,
    68719476736, 4551718,
    2958150973458543799937927686703454138646372411180793398424237392919338963131353837933912107226, ⟨0, 4,
    228526525619997, [54978595683, 20212719, 9908]⟩⟩)) (.leaf ⟨205, 16, 10, 544, 16, 277, ⟨[[], [(343597383680, 0)]],
    3, 4⟩, ⟨[[(419390851115, 0), (0, 2517509133731), (0, 31534528520), (0, 1012996174), (0, 34629479)], [(0,
    171933727026), (0, 4736142279), (0, 190550630), (0, 8307067), (0, 419185)], [(0, 15628759), (0, 7807839), (0,
    570123), (0, 40016), (0, 2895)], [(0, 114323), (0, 11585), (0, 1481), (0, 160), (0, 14)]], 3, 4⟩, 1099511627776,
    0, 4514551317, ⟨[[(48181243780220, 0), (106234358403, 0), (823505673, 0), (1367722, 0), (0, 5007)],
    [(53412524886, 0), (181281949, 0), (0, 117413), (0, 739), (0, 24)], [(0, 100335146), (0, 391357), (0, 357)],
    [(267488, 0), (1453, 0)]], 3, 4⟩, 68719476736, 95077676,
    2995804737076043285609246015479220680261990912864134528845542237099185837967593471102701043375, ⟨0, 4,
    145145337526147, [73253977441, 55833824, 56742]⟩⟩)))
theorem c15 : checkC job ⟨6, 8, 7, 8, 9, 13⟩ 1 25 lims t15 304 48 16 15 3 64 = true := by decide +kernel

def t16 : CTree :=
  .sy (.sx (.sy (.out ⟨235, 16, 10, 783, 16, 381, ⟨[[], [(343597383680, 0)]], 1, 1⟩, ⟨[[(178204473299, 0), (0,
    2898022123195)], [(0, 158890899137), (0, 2538124623)]], 1, 1⟩, 1099511627776, 0, 571143889095, ⟨[], 0, 0⟩, 0, 0,
    0, ⟨0, 5, 208667540024094, [87894644874]⟩⟩ 0 1 1614) (.sx (.sy (.out ⟨455, 16, 20, 1478, 16, 727, ⟨[[],
    [(343597383680, 0)]], 1, 1⟩, ⟨[[(362967234082, 0), (0, 2849232777691)], [(0, 165349265708), (0, 1492495820)]], 1,
    1⟩, 1099511627776, 0, 287989753746, ⟨[], 0, 0⟩, 0, 0, 0, ⟨0, 5, 394075354979463, [86622021883]⟩⟩ 0 1 968) (.leaf
    ⟨455, 16, 20, 1402, 16, 697, ⟨[[], [(343597383680, 0)]], 3, 4⟩, ⟨[[(109092277774, 0), (0, 2854052749531), (0,
    11503570912), (0, 158112058), (0, 1817362)], [(0, 167913455048), (0, 1710566214), (0, 26578327), (0, 408830), (0,
    6360)], [(10896189, 0), (0, 824273), (0, 22620), (0, 493), (0, 11)], [(0, 15787), (0, 258), (0, 11)]], 3, 4⟩,
    1099511627776, 0, 162143542, ⟨[[(50931996710401, 0), (52624170631, 0), (137134727, 0), (66171, 0), (0, 143)],
    [(25713234017, 0), (32096210, 0), (0, 14833), (0, 64)], [(0, 22162331), (0, 31545), (0, 14)], [(27323, 0), (52,
    0)]], 3, 4⟩, 68719476736, 3572351,
    1788713521850595974153982651641283728948769341021399621362765131752778915909674880293517283395, ⟨0, 5,
    377813648446610, [83047523043, 28519067, 13058]⟩⟩)) (.leaf ⟨485, 16, 20, 897, 16, 448, ⟨[[], [(343597383680,
    0)]], 3, 4⟩, ⟨[[(75195063167, 0), (0, 3786663540039), (0, 32344764723), (0, 899062470), (0, 21103059)], [(0,
    103402237458), (0, 2187362826), (0, 69478791), (0, 2171766), (0, 68721)], [(5914126, 0), (0, 973739), (0, 53935),
    (0, 2378), (0, 109)], [(0, 8090), (0, 242), (0, 20), (0, 2)]], 3, 4⟩, 1099511627776, 0, 311344902,
    ⟨[[(51344662544908, 0), (80600901629, 0), (327733289, 0), (256703, 0), (0, 887)], [(24257182301, 0), (47495390,
    0), (0, 35049), (0, 210), (0, 2)], [(0, 19722571), (0, 42268), (0, 32)], [(22879, 0), (66, 0)]], 3, 4⟩,
    68719476736, 3086008,
    2332522812040404738513088211398660661413938444149984801155772097035727824395151041482976905149, ⟨0, 5,
    247804026371577, [50077377559, 16133176, 6930]⟩⟩))) (.sy (.sy (.sx (.out ⟨515, 16, 20, 1575, 16, 772, ⟨[[],
    [(343597383680, 0)]], 1, 1⟩, ⟨[[(0, 450647481074), (0, 3072149219259)], [(0, 152062350860), (0, 1302186626)]], 1,
    1⟩, 1099511627776, 0, 244642889321, ⟨[], 0, 0⟩, 0, 0, 0, ⟨0, 5, 435057552473906, [81267214397]⟩⟩ 0 1 1177) (.out
    ⟨545, 16, 20, 1537, 16, 760, ⟨[[], [(343597383680, 0)]], 1, 1⟩, ⟨[[(182588563921, 0), (0, 3151129341343)], [(0,
    146990295031), (0, 1358757351)]], 1, 1⟩, 1099511627776, 0, 247487214542, ⟨[], 0, 0⟩, 0, 0, 0, ⟨0, 5,
    435760007450089, [75600103901]⟩⟩ 0 1 656)) (.leaf ⟨265, 16, 10, 1020, 16, 508, ⟨[[], [(343597383680, 0)]], 3, 4⟩,
    ⟨[[(316873905547, 0), (0, 2152904357009), (0, 8431557084), (0, 116589089), (0, 1272680)], [(0, 209786081559), (0,
    2101616216), (0, 31892832), (0, 471834), (0, 6683)], [(30114365, 0), (0, 1467604), (0, 39162), (0, 771), (0,
    15)], [(0, 49612), (0, 375), (0, 14)]], 3, 4⟩, 1099511627776, 0, 1047844494, ⟨[[(52609275518788, 0),
    (74353241014, 0), (255040486, 0), (162838, 0), (0, 591)], [(45443920647, 0), (77354593, 0), (0, 61505), (0, 313),
    (0, 2)], [(0, 68222755), (0, 122604), (0, 96)], [(146378, 0), (346, 0)]], 3, 4⟩, 68719476736, 42846952,
    2817141311039882315023484687778091413689039805037487327785838552838009576111657400219927602937, ⟨0, 5,
    288811588432740, [103925743624, 61276971, 48174]⟩⟩)) (.leaf ⟨265, 16, 10, 641, 16, 325, ⟨[[], [(343597383680,
    0)]], 3, 4⟩, ⟨[[(18560066066, 0), (0, 2990669820940), (0, 31578577611), (0, 918804312), (0, 24493871)], [(0,
    148220080095), (0, 3600921295), (0, 125222021), (0, 4316804), (0, 161474)], [(8345221, 0), (0, 3097658), (0,
    183014), (0, 9529), (0, 569)], [(0, 34967), (0, 1090), (0, 130), (0, 16), (0, 2)]], 3, 4⟩, 1099511627776, 0,
    1191271421, ⟨[[(51348116857980, 0), (102085417438, 0), (598755912, 0), (782297, 0), (0, 3413)], [(44027830346,
    0), (123988728, 0), (0, 119495), (0, 588), (0, 13)], [(0, 66038927), (0, 186199), (0, 237)], [(140143, 0), (538,
    0)]], 3, 4⟩, 68719476736, 45042165,
    2952638741305444548229826130233677511823291030748812476478495618143354409153748456162393046140, ⟨0, 5,
    184771193387087, [66487926531, 39202787, 30820]⟩⟩))) (.sy (.sx (.leaf ⟨235, 16, 10, 588, 16, 299, ⟨[[],
    [(343597383680, 0)]], 3, 4⟩, ⟨[[(0, 484478809334), (0, 2762664502862), (0, 32588919168), (0, 998522526), (0,
    30696042)], [(0, 159431267604), (0, 4203460968), (0, 158874969), (0, 6243798), (0, 279211)], [(0, 2581171), (0,
    5095999), (0, 339470), (0, 21226), (0, 1429)], [(0, 62222), (0, 4429), (0, 549), (0, 59), (0, 5)]], 3, 4⟩,
    1099511627776, 0, 2036888021, ⟨[[(49782304532958, 0), (104281739466, 0), (706016805, 0), (1056482, 0), (0,
    4219)], [(48153256769, 0), (149135730, 0), (0, 120288), (0, 641), (0, 17)], [(0, 80312404), (0, 265650), (0,
    295)], [(189284, 0), (866, 0)]], 3, 4⟩, 68719476736, 62038206,
    2809027329664199224758794527252229248191925299807363644089610028725676291340317450900047714784, ⟨0, 5,
    163757465793187, [68977687184, 45862824, 40659]⟩⟩) (.sy (.leaf ⟨265, 16, 10, 787, 16, 407, ⟨[[], [(343597383680,
    0)]], 3, 4⟩, ⟨[[(0, 456326413673), (0, 2092409980845), (0, 15008247589), (0, 250904282), (0, 4548893)], [(0,
    209682286469), (0, 3174055408), (0, 66624711), (0, 1516425), (0, 40427)], [(0, 13133849), (0, 3526473), (0,
    134505), (0, 5050), (0, 186)], [(0, 56147), (0, 2551), (0, 209), (0, 12)]], 3, 4⟩, 1099511627776, 0, 1142303727,
    ⟨[[(50158728378961, 0), (69824278140, 0), (360961708, 0), (484050, 0), (0, 1337)], [(42452516303, 0), (101260098,
    0), (0, 69355), (4, 0), (0, 5)], [(0, 63737826), (0, 143901), (0, 152)], [(133412, 0), (427, 0)]], 3, 4⟩,
    68719476736, 39976921,
    3349603764460865586810189479162375237006036655249841713142741769299263617258233426282902738727, ⟨0, 5,
    231390386795522, [83263341841, 49093952, 38596]⟩⟩) (.leaf ⟨265, 16, 10, 693, 16, 364, ⟨[[], [(343597383680, 0)]],
    3, 4⟩, ⟨[[(0, 241437847456), (0, 2060887101401), (0, 18593442598), (0, 367897941), (0, 8571045)], [(0,
    207055888740), (0, 3739738543), (0, 94717491), (0, 2752331), (0, 87968)], [(0, 36238322), (0, 5269157), (0,
    251470), (0, 10980), (0, 395)], [(0, 73539), (0, 6086), (0, 484), (0, 22)]], 3, 4⟩, 1099511627776, 0, 1929516701,
    ⟨[[(49363695096322, 0), (68527318887, 0), (427787750, 0), (766086, 0), (0, 2030)], [(41213448599, 0), (115141349,
    0), (0, 91726), (298, 0), (0, 6)], [(0, 62013838), (0, 156832), (0, 184)], [(128249, 0), (475, 0)]], 3, 4⟩,
    68719476736, 39536834,
    3677055826680602280468529449048544854594840125602974609660476284754260464358984398262235553750, ⟨0, 5,
    206943736593538, [74466477715, 43907121, 34518]⟩⟩))) (.sx (.sy (.leaf ⟨235, 16, 10, 691, 16, 359, ⟨[[],
    [(343597383680, 0)]], 3, 4⟩, ⟨[[(56959780341, 0), (0, 1879627359332), (0, 15401566014), (0, 290008161), (0,
    6368388)], [(0, 218861170884), (0, 3695573756), (0, 89208958), (0, 2466114), (0, 77372)], [(0, 42192945), (0,
    6145480), (0, 280051), (0, 12151), (0, 471)], [(0, 122171), (0, 9575), (0, 745), (0, 41), (0, 1)]], 3, 4⟩,
    1099511627776, 0, 2955386238, ⟨[[(48588024740608, 0), (72606077604, 0), (459579106, 0), (730232, 0), (0, 1967)],
    [(46273005170, 0), (126573126, 0), (0, 77724), (108, 0), (0, 8)], [(0, 77041142), (0, 215120), (0, 203)],
    [(178495, 0), (718, 0)]], 3, 4⟩, 68719476736, 55751127,
    2304492006134622208763230904062562105790605520543646055191026848589486873257001437956820002542, ⟨0, 5,
    196618495718241, [82819363542, 55066066, 48817]⟩⟩) (.leaf ⟨235, 16, 10, 595, 16, 314, ⟨[[], [(343597383680, 0)]],
    3, 4⟩, ⟨[[(0, 44325534188), (0, 1839016961892), (0, 19638106992), (0, 459182926), (0, 12536036)], [(0,
    214202543529), (0, 4476037277), (0, 137013810), (0, 4769069), (0, 160843)], [(0, 80905242), (0, 9904758), (0,
    554507), (0, 25490), (0, 836)], [(0, 190051), (0, 21232), (0, 1587), (0, 67), (0, 1)]], 3, 4⟩, 1099511627776, 0,
    8666863365, ⟨[[(47860990280347, 0), (72035528275, 0), (568257727, 0), (1216055, 0), (0, 3284)], [(44905784172,
    0), (146704214, 0), (0, 112827), (630, 0), (0, 12)], [(0, 74756160), (0, 241061), (0, 254), (0, 1)], [(170799,
    0), (819, 0)]], 3, 4⟩, 68719476736, 55025501,
    3055748213308452914299844464681035840809323781932407709334212375538956196694471808857972271260, ⟨0, 5,
    171972723274450, [72438106274, 48163634, 42698]⟩⟩)) (.sy (.leaf ⟨265, 16, 10, 591, 16, 316, ⟨[[], [(343597383680,
    0)]], 3, 4⟩, ⟨[[(65870789181, 0), (0, 2025300271191), (0, 24041656648), (0, 595797978), (0, 16856406)], [(0,
    202826470427), (0, 4574300250), (0, 147573257), (0, 5247458), (0, 169958)], [(0, 69329478), (0, 8569848), (0,
    479967), (0, 20196), (0, 497)], [(0, 115076), (0, 12493), (0, 753), (0, 9), (2, 0)]], 3, 4⟩, 1099511627776, 0,
    6777386539, ⟨[[(48588270673460, 0), (67298332437, 0), (527941263, 0), (1320087, 0), (0, 3453)], [(39791117262,
    0), (135421750, 0), (0, 143568), (907, 0), (0, 10)], [(0, 60122863), (0, 175702), (0, 220), (0, 1)], [(122461,
    0), (544, 0)]], 3, 4⟩, 68719476736, 39417768,
    3650586296272086845364265054013543431027035792223787746261862470344549651135726086985854570961, ⟨0, 5,
    179654452647137, [64646722412, 38117171, 29966]⟩⟩) (.sx (.leaf ⟨515, 16, 20, 754, 16, 408, ⟨[[], [(343597383680,
    0)]], 3, 4⟩, ⟨[[(284279255997, 0), (0, 2886295827377), (0, 42859452587), (0, 1242310640), (0, 37215063)], [(0,
    148794694386), (0, 4074376485), (0, 157180786), (0, 6023089), (0, 189638)], [(0, 41013590), (0, 4930818), (0,
    289072), (0, 11544), (0, 389)], [(0, 36227), (0, 4053), (0, 201), (0, 6), (0, 2)]], 3, 4⟩, 1099511627776, 0,
    1146721991, ⟨[[(47846799783239, 0), (45730545317, 0), (300148261, 0), (653711, 0), (0, 1189)], [(19868544471, 0),
    (54320800, 0), (0, 48779), (278, 0), (0, 2)], [(0, 15416089), (0, 35938), (0, 29)], [(15902, 0), (58, 0)]], 3,
    4⟩, 68719476736, 2999309,
    3582344331511940491315316699866652044926475133787403950680734389394506305201490755167987382907, ⟨0, 5,
    229926789390354, [42949512272, 13030799, 5271]⟩⟩) (.leaf ⟨545, 16, 20, 657, 16, 362, ⟨[[], [(343597383680, 0)]],
    3, 4⟩, ⟨[[(398344373801, 0), (0, 2951222425527), (0, 53921458972), (0, 1720360764), (0, 55161069)], [(0,
    139874605836), (0, 4545538115), (0, 193145812), (0, 7762985), (0, 348521)], [(0, 45220693), (0, 5259286), (0,
    305347), (0, 18251), (0, 2208)], [(0, 27483), (0, 2432), (0, 260), (0, 80), (0, 16)]], 3, 4⟩, 1099511627776, 0,
    3417609948, ⟨[[(47842664459394, 0), (44668127657, 0), (343594399, 0), (1041674, 0), (0, 1923)], [(18267732823,
    0), (60678604, 0), (0, 80008), (495, 0), (0, 2)], [(0, 13662609), (0, 34457), (0, 23)], [(13219, 0), (53, 0)]],
    3, 4⟩, 68719476736, 3647876,
    3561002625011467309934911044851541764827606925454962083096152094340296164626806488928916521709, ⟨0, 5,
    207559371969648, [36009523174, 10323831, 3946]⟩⟩)))))
theorem c16 : checkC job ⟨6, 8, 7, 8, 9, 13⟩ 1 25 lims t16 400 48 16 15 3 64 = true := by decide +kernel

def t17 : CTree :=
  .sx (.sx (.sx (.out ⟨175, 16, 40, 863, 16, 376, ⟨[[], [(343597383680, 0)]], 1, 1⟩, ⟨[[(174576520240, 0), (0,
    3297274326168)], [(0, 138860045569), (0, 1023991787)]], 1, 1⟩, 1099511627776, 0, 628370501692, ⟨[], 0, 0⟩, 0, 0,
    0, ⟨0, 2, 96272439517327, [116481002190]⟩⟩ 0 1 8637) (.sx (.out ⟨400, 16, 81, 1079, 16, 475, ⟨[[(0,
    68719476736)], [(347892350976, 0)]], 1, 1⟩, ⟨[[(537316743566, 0), (0, 4261151584989)], [(0, 79662744955), (0,
    682839489)]], 1, 1⟩, 1099511627776, 0, 210111251640, ⟨[], 0, 0⟩, 0, 0, 0, ⟨0, 2, 131587760614203, [65193127573]⟩⟩
    0 1 7946) (.out ⟨430, 16, 81, 1073, 16, 475, ⟨[[(343597383680, 0)], [(347892350976, 0)]], 1, 1⟩, ⟨[[(0,
    297957122480), (0, 4327901243324)], [(0, 75291028362), (0, 707924143)]], 1, 1⟩, 1099511627776, 0, 179132409916,
    ⟨[], 0, 0⟩, 0, 0, 0, ⟨0, 2, 137620022209746, [60591259744]⟩⟩ 0 1 7576))) (.sx (.out ⟨235, 16, 40, 877, 16, 392,
    ⟨[[], [(343597383680, 0)]], 1, 1⟩, ⟨[[(495840496445, 0), (0, 3658101564024)], [(0, 115283355740), (0,
    1233357981)]], 1, 1⟩, 1099511627776, 0, 362703779121, ⟨[], 0, 0⟩, 0, 0, 0, ⟨0, 3, 120417005012227,
    [90432285539]⟩⟩ 0 1 6942) (.out ⟨265, 16, 40, 872, 16, 394, ⟨[[], [(343597383680, 0)]], 1, 1⟩, ⟨[[(266419805676,
    0), (0, 3800168779328)], [(0, 106407042125), (0, 1332418452)]], 1, 1⟩, 1099511627776, 0, 337825101997, ⟨[], 0,
    0⟩, 0, 0, 0, ⟨0, 3, 129243486705628, [80603824779]⟩⟩ 0 1 6238))) (.sx (.sx (.out ⟨295, 16, 40, 859, 16, 392,
    ⟨[[], [(343597383680, 0)]], 1, 1⟩, ⟨[[(0, 107070615424), (0, 3912867334545)], [(0, 98576057189), (0,
    1425463999)]], 1, 1⟩, 1099511627776, 0, 353315643561, ⟨[], 0, 0⟩, 0, 0, 0, ⟨0, 3, 135880669132142,
    [72039278311]⟩⟩ 0 1 5598) (.out ⟨325, 16, 40, 842, 16, 388, ⟨[[], [(343597383680, 0)]], 1, 1⟩, ⟨[[(0,
    135347744724), (0, 4013474676605)], [(0, 91890067783), (0, 1518475908)]], 1, 1⟩, 1099511627776, 0, 388639381918,
    ⟨[], 0, 0⟩, 0, 0, 0, ⟨0, 3, 141013204793827, [64722258991]⟩⟩ 0 1 4978)) (.sx (.out ⟨355, 16, 40, 823, 16, 383,
    ⟨[[], [(343597383680, 0)]], 1, 1⟩, ⟨[[(341157566563, 0), (0, 4111151572949)], [(0, 86246913020), (0,
    1615409654)]], 1, 1⟩, 1099511627776, 0, 441645426350, ⟨[], 0, 0⟩, 0, 0, 0, ⟨0, 3, 145062515143748,
    [58489205662]⟩⟩ 0 1 4355) (.out ⟨385, 16, 40, 799, 16, 375, ⟨[[], [(343597383680, 0)]], 1, 1⟩, ⟨[[(0,
    112049894790), (0, 4183070595276)], [(0, 80957621913), (0, 1707869581)]], 1, 1⟩, 1099511627776, 0, 508412055349,
    ⟨[], 0, 0⟩, 0, 0, 0, ⟨0, 3, 147310182335391, [52805096496]⟩⟩ 0 1 3824)))
theorem c17 : checkC job ⟨6, 8, 7, 8, 9, 13⟩ 1 25 lims t17 112 48 16 39 3 128 = true := by decide +kernel

def t18 : CTree :=
  .sx (.sx (.sx (.out ⟨415, 16, 40, 773, 16, 366, ⟨[[], [(343597383680, 0)]], 1, 1⟩, ⟨[[(0, 56409302782), (0,
    4249167250624)], [(0, 76299832563), (0, 1804251385)]], 1, 1⟩, 1099511627776, 0, 590551111486, ⟨[], 0, 0⟩, 0, 0,
    0, ⟨0, 3, 148539062408751, [47812151950]⟩⟩ 0 1 3279) (.sy (.out ⟨445, 16, 40, 1285, 16, 609, ⟨[[],
    [(343597383680, 0)]], 1, 1⟩, ⟨[[(161778441776, 0), (0, 3599635367222)], [(0, 118825757535), (0, 1419921608)]], 1,
    1⟩, 1099511627776, 0, 310501277560, ⟨[], 0, 0⟩, 0, 0, 0, ⟨0, 3, 254533233989044, [74192940524]⟩⟩ 0 1 3220) (.out
    ⟨445, 16, 40, 1184, 16, 570, ⟨[[], [(343597383680, 0)]], 1, 1⟩, ⟨[[(6310932495, 0), (0, 3549972154994)], [(0,
    120414716873), (0, 1769232751)]], 1, 1⟩, 1099511627776, 0, 390272320416, ⟨[], 0, 0⟩, 0, 0, 0, ⟨0, 3,
    238233076147381, [69441668471]⟩⟩ 0 1 2260))) (.sy (.out ⟨245, 16, 20, 926, 16, 444, ⟨[[], [(343597383680, 0)]],
    1, 1⟩, ⟨[[(0, 182491782110), (0, 2782172948015)], [(0, 166750807244), (0, 2319931389)]], 1, 1⟩, 1099511627776, 0,
    570175034489, ⟨[], 0, 0⟩, 0, 0, 0, ⟨0, 4, 192991043203467, [98247653823]⟩⟩ 0 1 2505) (.sy (.out ⟨245, 16, 20,
    1159, 16, 563, ⟨[[], [(343597383680, 0)]], 1, 1⟩, ⟨[[(215599502351, 0), (0, 1851924681990)], [(0, 226326900825),
    (0, 1860216554)]], 1, 1⟩, 1099511627776, 0, 590759452682, ⟨[], 0, 0⟩, 0, 0, 0, ⟨0, 4, 244716120098090,
    [124579795276]⟩⟩ 0 1 1717) (.out ⟨245, 16, 20, 1092, 16, 535, ⟨[[], [(343597383680, 0)]], 1, 1⟩, ⟨[[(0,
    277904943845), (0, 1834049282427)], [(0, 226648458928), (0, 2107082290)]], 1, 1⟩, 1099511627776, 0, 618076568810,
    ⟨[], 0, 0⟩, 0, 0, 0, ⟨0, 4, 232545513769943, [118383997287]⟩⟩ 0 1 1205)))) (.sy (.sx (.out ⟨275, 16, 20, 885, 16,
    431, ⟨[[], [(343597383680, 0)]], 1, 1⟩, ⟨[[(0, 161013969465), (0, 2935079284873)], [(0, 156416260473), (0,
    2645837063)]], 1, 1⟩, 1099511627776, 0, 585835073826, ⟨[], 0, 0⟩, 0, 0, 0, ⟨0, 4, 195977405942631,
    [84966920602]⟩⟩ 0 1 1563) (.sy (.out ⟨305, 16, 20, 1211, 16, 596, ⟨[[], [(343597383680, 0)]], 1, 1⟩, ⟨[[(0,
    120637209225), (0, 2167988857322)], [(0, 206380467301), (0, 1978549612)]], 1, 1⟩, 1099511627776, 0, 473660774641,
    ⟨[], 0, 0⟩, 0, 0, 0, ⟨0, 4, 281709196900924, [105937988563]⟩⟩ 0 1 934) (.leaf ⟨305, 16, 20, 1142, 16, 568, ⟨[[],
    [(343597383680, 0)]], 3, 4⟩, ⟨[[(491226321229, 0), (0, 2173662815238), (0, 10136474108), (0, 145046031), (0,
    2016719)], [(0, 209152364952), (0, 2290872597), (0, 39319984), (0, 713398), (0, 14118)], [(3418627, 0), (0,
    2318176), (0, 71687), (0, 1984), (0, 56)], [(0, 62942), (0, 2241), (0, 109), (0, 5)]], 3, 4⟩, 1099511627776, 0,
    794536294, ⟨[[(46428125281242, 0), (57284952599, 0), (209154994, 0), (140493, 0), (0, 215)], [(34934860405, 0),
    (57689860, 0), (0, 15738), (0, 117), (0, 1)], [(0, 43139235), (0, 96161), (0, 22)], [(78590, 0), (252, 0)]], 3,
    4⟩, 68719476736, 15011233,
    2675101012517984726797860203476981980035373601586254228846658886083067485988014200522609102465, ⟨0, 4,
    268474536643833, [100961036081, 51721842, 35329]⟩⟩))) (.sx (.sx (.sy (.out ⟨535, 16, 40, 1663, 16, 818, ⟨[[],
    [(343597383680, 0)]], 1, 1⟩, ⟨[[(0, 120875372142), (0, 2900259459371)], [(0, 161817717372), (0, 1566656436)]], 1,
    1⟩, 1099511627776, 0, 296398630421, ⟨[], 0, 0⟩, 0, 0, 0, ⟨0, 4, 368023848814977, [82890512346]⟩⟩ 0 1 967) (.leaf
    ⟨548, 16, 41, 1568, 16, 779, ⟨[[(412316860416, 0)], [(352187318272, 0)]], 3, 4⟩, ⟨[[(160169113036, 0), (0,
    2911304116037), (0, 14101150475), (0, 205297432), (0, 2965521)], [(0, 163993906211), (0, 1822620583), (0,
    32285162), (0, 611517), (0, 12492)], [(0, 323249), (0, 1138575), (0, 36550), (0, 1054), (0, 30)], [(0, 17671),
    (0, 714), (0, 36), (0, 2)]], 3, 4⟩, 1099511627776, 0, 141484424, ⟨[[(45117152830041, 0), (40468362705, 0),
    (111792217, 0), (55792, 0), (0, 53)], [(18852852820, 0), (23538813, 0), (0, 3767), (0, 23)], [(0, 12834884), (0,
    23159), (0, 3)], [(13076, 0), (36, 0)]], 3, 4⟩, 68719476736, 1426037,
    2706855652368136329877883606726192219255011099603127914665264318784592860533497501215762472059, ⟨0, 4,
    350477479494948, [78938519704, 23054474, 8978]⟩⟩)) (.leaf ⟨579, 16, 41, 991, 16, 494, ⟨[[(137438953472, 0)],
    [(352187318272, 0)]], 3, 4⟩, ⟨[[(0, 423001993646), (0, 3803594742581), (0, 38853553403), (0, 1156939504), (0,
    34792826)], [(0, 100638897528), (0, 2335655011), (0, 85315051), (0, 3351207), (0, 143816)], [(0, 1095180), (0,
    1418585), (0, 94073), (0, 5687), (0, 342)], [(0, 9924), (0, 864), (0, 91), (0, 8), (0, 1)]], 3, 4⟩,
    1099511627776, 0, 623713434, ⟨[[(45475754501752, 0), (63084167597, 0), (275506434, 0), (220655, 0), (0, 347)],
    [(17975886966, 0), (35070263, 0), (0, 8945), (0, 81), (0, 1)], [(0, 11599312), (0, 31718), (0, 7)], [(11122, 0),
    (46, 0)]], 3, 4⟩, 68719476736, 1611821,
    2646457583684296979149915488348604849341780595238429402052654233762713740446407898418501620389, ⟨0, 4,
    226929731492792, [47400596118, 13108572, 4834]⟩⟩)) (.leaf ⟨305, 16, 20, 696, 16, 352, ⟨[[], [(343597383680, 0)]],
    3, 4⟩, ⟨[[(481310509081, 0), (0, 2972911343416), (0, 38055139110), (0, 1273086156), (0, 46168584)], [(0,
    144760473141), (0, 3999065212), (0, 170132840), (0, 8033785), (0, 414573)], [(0, 15612475), (0, 5364228), (0,
    421595), (0, 30695), (0, 2049)], [(0, 60069), (0, 7572), (0, 949), (0, 92), (0, 7)]], 3, 4⟩, 1099511627776, 0,
    2536222359, ⟨[[(45418725728613, 0), (79925983438, 0), (522652957, 0), (658312, 0), (0, 1444)], [(33839070490, 0),
    (93879339, 0), (0, 27651), (0, 268), (0, 5)], [(0, 41328819), (0, 153820), (0, 58)], [(73824, 0), (407, 0)]], 3,
    4⟩, 68719476736, 14929700,
    3367128464228415932313949346201975341679019214073336415045782975155621833865655093463901890024, ⟨0, 4,
    166378586089136, [62567402641, 32052973, 21894]⟩⟩)))
theorem c18 : checkC job ⟨6, 8, 7, 8, 9, 13⟩ 1 25 lims t18 208 48 16 39 3 128 = true := by decide +kernel

def t19 : CTree :=
  .sy (.sx (.sx (.sx (.out ⟨339, 16, 81, 1683, 16, 742, ⟨[[(206158430208, 0)], [(347892350976, 0)]], 1, 1⟩,
    ⟨[[(255855414686, 0), (0, 3182862471549)], [(0, 147039551362), (0, 633130734)]], 1, 1⟩, 1099511627776, 0,
    299469442732, ⟨[], 0, 0⟩, 0, 0, 0, ⟨0, 2, 184345997437721, [120078264008]⟩⟩ 0 1 7847) (.out ⟨370, 16, 81, 1698,
    16, 754, ⟨[[(0, 481036337152)], [(347892350976, 0)]], 1, 1⟩, ⟨[[(0, 181429910618), (0, 3297508750993)], [(0,
    139947423111), (0, 672913602)]], 1, 1⟩, 1099511627776, 0, 253111995824, ⟨[], 0, 0⟩, 0, 0, 0, ⟨0, 2,
    198546122377346, [111991170497]⟩⟩ 0 1 7373)) (.sx (.out ⟨400, 16, 81, 1704, 16, 762, ⟨[[(0, 68719476736)],
    [(347892350976, 0)]], 1, 1⟩, ⟨[[(0, 153588814278), (0, 3399267258855)], [(0, 133419424832), (0, 711258575)]], 1,
    1⟩, 1099511627776, 0, 221037534096, ⟨[], 0, 0⟩, 0, 0, 0, ⟨0, 2, 211094470711627, [104583501495]⟩⟩ 0 1 6912) (.out
    ⟨430, 16, 81, 1704, 16, 767, ⟨[[(343597383680, 0)], [(347892350976, 0)]], 1, 1⟩, ⟨[[(0, 416699280400), (0,
    3491867844012)], [(0, 127469945817), (0, 748829550)]], 1, 1⟩, 1099511627776, 0, 207331013253, ⟨[], 0, 0⟩, 0, 0,
    0, ⟨0, 2, 222220120073422, [97838939418]⟩⟩ 0 1 6485))) (.sx (.out ⟨235, 16, 40, 1254, 16, 570, ⟨[[],
    [(343597383680, 0)]], 1, 1⟩, ⟨[[(81021492157, 0), (0, 2677909412730)], [(0, 176943388045), (0, 1191061823)]], 1,
    1⟩, 1099511627776, 0, 501241976323, ⟨[], 0, 0⟩, 0, 0, 0, ⟨0, 3, 175096155247371, [131495925402]⟩⟩ 0 1 5852) (.out
    ⟨265, 16, 40, 1257, 16, 578, ⟨[[], [(343597383680, 0)]], 1, 1⟩, ⟨[[(0, 432065814651), (0, 2836909149460)], [(0,
    166348288118), (0, 1323920877)]], 1, 1⟩, 1099511627776, 0, 439716759401, ⟨[], 0, 0⟩, 0, 0, 0, ⟨0, 3,
    189600851055465, [118246220108]⟩⟩ 0 1 5113))) (.sx (.sx (.sx (.out ⟨339, 16, 81, 1648, 16, 734, ⟨[[(206158430208,
    0)], [(347892350976, 0)]], 1, 1⟩, ⟨[[(0, 73263290270), (0, 3140747084820)], [(0, 149553353849), (0, 744435695)]],
    1, 1⟩, 1099511627776, 0, 289799337882, ⟨[], 0, 0⟩, 0, 0, 0, ⟨0, 2, 182358439513864, [118783619652]⟩⟩ 0 1 7175)
    (.out ⟨370, 16, 81, 1655, 16, 743, ⟨[[(0, 481036337152)], [(347892350976, 0)]], 1, 1⟩, ⟨[[(365880699114, 0), (0,
    3253498453481)], [(0, 142260352650), (0, 793481706)]], 1, 1⟩, 1099511627776, 0, 262876820257, ⟨[], 0, 0⟩, 0, 0,
    0, ⟨0, 2, 195649560910303, [110357347055]⟩⟩ 0 1 6655)) (.out ⟨205, 16, 40, 1190, 16, 540, ⟨[[], [(343597383680,
    0)]], 1, 1⟩, ⟨[[(76967782147, 0), (0, 2450947331294)], [(0, 190905002496), (0, 1246878719)]], 1, 1⟩,
    1099511627776, 0, 617847432181, ⟨[], 0, 0⟩, 0, 0, 0, ⟨0, 2, 153086108421359, [142805587792]⟩⟩ 0 1 5961)) (.sx
    (.out ⟨235, 16, 40, 1200, 16, 552, ⟨[[], [(343597383680, 0)]], 1, 1⟩, ⟨[[(241316834810, 0), (0, 2634465121845)],
    [(0, 179030527404), (0, 1417260448)]], 1, 1⟩, 1099511627776, 0, 525325186534, ⟨[], 0, 0⟩, 0, 0, 0, ⟨0, 3,
    169566802976401, [127343422494]⟩⟩ 0 1 5089) (.sx (.out ⟨521, 16, 81, 1600, 16, 743, ⟨[[(481036337152, 0)],
    [(347892350976, 0)]], 1, 1⟩, ⟨[[(164320851110, 0), (0, 3689153567656)], [(0, 114368107646), (0, 1035612126)]], 1,
    1⟩, 1099511627776, 0, 237172526527, ⟨[], 0, 0⟩, 0, 0, 0, ⟨0, 3, 240025004011060, [78214430437]⟩⟩ 0 1 4490) (.out
    ⟨552, 16, 81, 1575, 16, 736, ⟨[[(0, 206158430208)], [(347892350976, 0)]], 1, 1⟩, ⟨[[(363657898326, 0), (0,
    3755705462024)], [(0, 109981496900), (0, 1085570991)]], 1, 1⟩, 1099511627776, 0, 246797565063, ⟨[], 0, 0⟩, 0, 0,
    0, ⟨0, 3, 244992935330764, [73212732198]⟩⟩ 0 1 4096))))
theorem c19 : checkC job ⟨6, 8, 7, 8, 9, 13⟩ 1 25 lims t19 176 48 32 45 3 128 = true := by decide +kernel

def t20 : CTree :=
  .sx (.sx (.out ⟨295, 16, 40, 784, 16, 367, ⟨[[], [(343597383680, 0)]], 1, 1⟩, ⟨[[(0, 265190116634), (0,
    3832346051280)], [(0, 102304644702), (0, 2082407281)]], 1, 1⟩, 1099511627776, 0, 583427741267, ⟨[], 0, 0⟩, 0, 0,
    0, ⟨0, 3, 127214810131367, [67444936582]⟩⟩ 0 1 3987) (.out ⟨325, 16, 40, 754, 16, 357, ⟨[[], [(343597383680,
    0)]], 1, 1⟩, ⟨[[(0, 97478260721), (0, 3933387437012)], [(0, 95219551856), (0, 2261418386)]], 1, 1⟩,
    1099511627776, 0, 678018300440, ⟨[], 0, 0⟩, 0, 0, 0, ⟨0, 3, 129746685854114, [59551150670]⟩⟩ 0 1 3279)) (.sy (.sy
    (.out ⟨185, 16, 20, 1095, 16, 521, ⟨[[], [(343597383680, 0)]], 1, 1⟩, ⟨[[(9203030008, 0), (0, 1497386262897)],
    [(0, 249648104811), (0, 1576220893)]], 1, 1⟩, 1099511627776, 0, 820780430032, ⟨[], 0, 0⟩, 0, 0, 0, ⟨0, 3,
    201071044829037, [152676184225]⟩⟩ 0 1 2978) (.out ⟨185, 16, 20, 1045, 16, 501, ⟨[[], [(343597383680, 0)]], 1, 1⟩,
    ⟨[[(9398818200, 0), (0, 1480785246524)], [(0, 249847825496), (0, 1754388754)]], 1, 1⟩, 1099511627776, 0,
    832584605553, ⟨[], 0, 0⟩, 0, 0, 0, ⟨0, 3, 193352386678210, [146815294236]⟩⟩ 0 1 2513)) (.sx (.sy (.out ⟨355, 16,
    40, 1592, 16, 765, ⟨[[], [(343597383680, 0)]], 1, 1⟩, ⟨[[(0, 129854822141), (0, 2266048352761)], [(0,
    201661574366), (0, 1471027774)]], 1, 1⟩, 1099511627776, 0, 391924922412, ⟨[], 0, 0⟩, 0, 0, 0, ⟨0, 3,
    289746276984248, [116825697994]⟩⟩ 0 1 2373) (.out ⟨355, 16, 40, 1511, 16, 732, ⟨[[], [(343597383680, 0)]], 1, 1⟩,
    ⟨[[(185175450437, 0), (0, 2248928631188)], [(0, 202134842587), (0, 1660925648)]], 1, 1⟩, 1099511627776, 0,
    412772870811, ⟨[], 0, 0⟩, 0, 0, 0, ⟨0, 3, 277247417977085, [111786158080]⟩⟩ 0 1 1880)) (.out ⟨385, 16, 40, 1043,
    16, 509, ⟨[[], [(343597383680, 0)]], 1, 1⟩, ⟨[[(160783097099, 0), (0, 3287301734874)], [(0, 135104289724), (0,
    2450633059)]], 1, 1⟩, 1099511627776, 0, 539697653621, ⟨[], 0, 0⟩, 0, 0, 0, ⟨0, 3, 199949020823237,
    [71674117644]⟩⟩ 0 1 1439)))
theorem c20 : checkC job ⟨6, 8, 7, 8, 9, 13⟩ 1 25 lims t20 272 48 32 45 3 128 = true := by decide +kernel

def t21 : CTree :=
  .sx (.sy (.sx (.out ⟨415, 16, 40, 1114, 16, 540, ⟨[[], [(343597383680, 0)]], 1, 1⟩, ⟨[[(0, 311093656792), (0,
    3420894006786)], [(0, 127544751378), (0, 2082468380)]], 1, 1⟩, 1099511627776, 0, 459378569842, ⟨[], 0, 0⟩, 0, 0,
    0, ⟨0, 3, 219155993717830, [70542519271]⟩⟩ 0 1 1844) (.out ⟨445, 16, 40, 1064, 16, 521, ⟨[[], [(343597383680,
    0)]], 1, 1⟩, ⟨[[(0, 154951166481), (0, 3505649494833)], [(0, 121556875292), (0, 2272279858)]], 1, 1⟩,
    1099511627776, 0, 512699506325, ⟨[], 0, 0⟩, 0, 0, 0, ⟨0, 3, 217753390654010, [63472121532]⟩⟩ 0 1 1237)) (.sx (.sy
    (.out ⟨415, 16, 40, 1490, 16, 732, ⟨[[], [(343597383680, 0)]], 1, 1⟩, ⟨[[(120821812459, 0), (0, 2478785903247)],
    [(0, 187463236669), (0, 1858471591)]], 1, 1⟩, 1099511627776, 0, 385746985385, ⟨[], 0, 0⟩, 0, 0, 0, ⟨0, 3,
    297078124817503, [95624303900]⟩⟩ 0 1 1041) (.leaf ⟨425, 16, 41, 1398, 16, 693, ⟨[[(412316860416, 0)],
    [(352187318272, 0)]], 3, 4⟩, ⟨[[(0, 489901298649), (0, 2483955960736), (0, 12994671761), (0, 193512706), (0,
    2844376)], [(0, 189204525034), (0, 2173128229), (0, 40645471), (0, 794717), (0, 15602)], [(0, 5752951), (0,
    1996695), (0, 66030), (0, 1863), (0, 48)], [(0, 40136), (0, 1888), (0, 92), (0, 4)]], 3, 4⟩, 1099511627776, 0,
    388496711, ⟨[[(42706327234140, 0), (42624660421, 0), (142562741, 0), (82413, 0), (0, 66)], [(22861829308, 0),
    (35540437, 0), (0, 4187), (0, 34)], [(0, 19762637), (0, 53043), (0, 4)], [(25558, 0), (126, 0)]], 3, 4⟩,
    68719476736, 3390799,
    2007173154229109930693275185294768047163351971036037548783183944345610503575535241894708717708, ⟨0, 3,
    281250191937882, [90529566397, 34084927, 17111]⟩⟩)) (.leaf ⟨456, 16, 41, 911, 16, 455, ⟨[[(137438953472, 0)],
    [(352187318272, 0)]], 3, 4⟩, ⟨[[(501784715572, 0), (0, 3433299291924), (0, 39988141345), (0, 1254807684), (0,
    39772002)], [(0, 120859107658), (0, 3032967975), (0, 121688725), (0, 5146431), (0, 219912)], [(0, 7028174), (0,
    2812182), (0, 200478), (0, 12332), (0, 685)], [(0, 24613), (0, 2732), (0, 290), (0, 24), (0, 2)]], 3, 4⟩,
    1099511627776, 0, 1004149328, ⟨[[(42954700081662, 0), (62022086414, 0), (324363410, 0), (297875, 0), (0, 379)],
    [(21364327215, 0), (49743929, 0), (0, 7968), (0, 98), (0, 1)], [(0, 17132120), (0, 65451), (0, 8)], [(20498, 0),
    (139, 0)]], 3, 4⟩, 68719476736, 2756234,
    2792820326336015417376095841675222954407539131421477225840971847523496702525936195199658502727, ⟨0, 3,
    190168508152734, [55431507288, 19463310, 9112]⟩⟩))) (.sy (.sx (.sy (.out ⟨475, 16, 40, 1570, 16, 773, ⟨[[],
    [(343597383680, 0)]], 1, 1⟩, ⟨[[(215561123518, 0), (0, 2700432988786)], [(0, 174065304916), (0, 1736857876)]], 1,
    1⟩, 1099511627776, 0, 338799789083, ⟨[], 0, 0⟩, 0, 0, 0, ⟨0, 4, 331826362263572, [88224902415]⟩⟩ 0 1 910) (.leaf
    ⟨487, 16, 41, 1475, 16, 733, ⟨[[(0, 137438953472)], [(352187318272, 0)]], 3, 4⟩, ⟨[[(0, 457490332404), (0,
    2708691110667), (0, 14017167444), (0, 209458790), (0, 3135613)], [(0, 176025997462), (0, 2030293786), (0,
    37704475), (0, 746897), (0, 15419)], [(0, 3710415), (0, 1566638), (0, 52464), (0, 1550), (0, 43)], [(0, 26930),
    (0, 1249), (0, 64), (0, 3)]], 3, 4⟩, 1099511627776, 0, 233587288, ⟨[[(43899237341963, 0), (41276925848, 0),
    (126426950, 0), (68737, 0), (0, 60)], [(20569115019, 0), (28531954, 0), (0, 3831), (0, 27)], [(0, 15624475), (0,
    33746), (0, 3)], [(17857, 0), (64, 0)]], 3, 4⟩, 68719476736, 2135183,
    2902413182698939996833046331214175334387477584548942015078986623278927468952265720115746658028, ⟨0, 4,
    314655528511253, [83659577581, 27519598, 12070]⟩⟩)) (.leaf ⟨518, 16, 41, 945, 16, 472, ⟨[[(0, 412316860416)],
    [(352187318272, 0)]], 3, 4⟩, ⟨[[(0, 402134128841), (0, 3628764003547), (0, 40575641311), (0, 1259775174), (0,
    40129062)], [(0, 109988051822), (0, 2702915974), (0, 105502432), (0, 4437839), (0, 196628)], [(0, 4086008), (0,
    2064671), (0, 146146), (0, 9252), (0, 541)], [(0, 15757), (0, 1647), (0, 180), (0, 16), (0, 1)]], 3, 4⟩,
    1099511627776, 0, 831108280, ⟨[[(44215602721891, 0), (62523934065, 0), (300900867, 0), (261438, 0), (0, 372)],
    [(19450804533, 0), (41409102, 0), (0, 8354), (0, 88), (0, 1)], [(0, 13880252), (0, 44224), (0, 8)], [(14815, 0),
    (76, 0)]], 3, 4⟩, 68719476736, 1982966,
    2910537663850950866429737570827989379432582774928212335043005166415055795682499780890773090691, ⟨0, 4,
    207630690844719, [50670585533, 15677780, 6468]⟩⟩)) (.sx (.leaf ⟨487, 16, 41, 834, 16, 421, ⟨[[(0, 137438953472)],
    [(352187318272, 0)]], 3, 4⟩, ⟨[[(0, 538456175038), (0, 3472625247501), (0, 49791850070), (0, 1746053258), (0,
    63709381)], [(0, 113733582057), (0, 3386765322), (0, 157158296), (0, 7700917), (0, 376189)], [(0, 13522278), (0,
    3509248), (0, 287764), (0, 20056), (0, 1237)], [(0, 26419), (0, 3889), (0, 458), (0, 40), (0, 3)]], 3, 4⟩,
    1099511627776, 0, 1974501572, ⟨[[(43018430257405, 0), (61966563200, 0), (368342713, 0), (391891, 0), (0, 551)],
    [(19913192356, 0), (49918475, 0), (0, 7135), (0, 83), (0, 1)], [(0, 14852404), (0, 58499), (0, 10)], [(16385, 0),
    (112, 0)]], 3, 4⟩, 68719476736, 2107878,
    1398203773454824216209547398277949868122008467109418087746560211679732689136516516484671518514, ⟨0, 4,
    180723025243161, [48050043877, 15805935, 6932]⟩⟩) (.leaf ⟨518, 16, 41, 751, 16, 384, ⟨[[(0, 412316860416)],
    [(352187318272, 0)]], 3, 4⟩, ⟨[[(82525230794, 0), (0, 3497010816224), (0, 62021015849), (0, 2473561865), (0,
    104611518)], [(0, 106822352910), (0, 3818359391), (0, 207668904), (0, 11800451), (0, 669229)], [(0, 20096720),
    (0, 4493587), (0, 421933), (0, 33204), (0, 2532)], [(0, 30409), (0, 5601), (0, 721), (0, 74), (0, 8)]], 3, 4⟩,
    1099511627776, 0, 4738609745, ⟨[[(42988019375115, 0), (61137033364, 0), (427057032, 0), (545783, 0), (0, 842)],
    [(18540869642, 0), (51230073, 0), (0, 7012), (0, 47), (0, 2)], [(0, 12915621), (0, 53944), (0, 12)], [(13149, 0),
    (94, 0)]], 3, 4⟩, 68719476736, 2054409,
    2220650755936773089741367789908123501358232772641645845986973623816756485755563072332888640146, ⟨0, 4,
    168919884077060, [41223527213, 12754804, 5262]⟩⟩)))
theorem c21 : checkC job ⟨6, 8, 7, 8, 9, 13⟩ 1 25 lims t21 368 48 32 45 3 128 = true := by decide +kernel

def t22 : CTree :=
  .sx (.leaf ⟨275, 16, 20, 635, 16, 322, ⟨[[], [(343597383680, 0)]], 3, 4⟩, ⟨[[(0, 524476548174), (0, 2774145346630),
    (0, 40554672483), (0, 1465127729), (0, 56882734)], [(0, 153071303252), (0, 4667860095), (0, 220987572), (0,
    11418782), (0, 592701)], [(0, 31111588), (0, 8215232), (0, 706439), (0, 52433), (0, 3207)], [(0, 101543), (0,
    15652), (0, 1968), (0, 174), (0, 11)]], 3, 4⟩, 1099511627776, 0, 5528493275, ⟨[[(44224501590764, 0),
    (82032549667, 0), (621084110, 0), (882995, 0), (0, 1858)], [(36344917430, 0), (114185602, 0), (0, 27247), (0,
    305), (0, 7)], [(0, 48574658), (0, 217188), (0, 69)], [(95549, 0), (672, 0)]], 3, 4⟩, 68719476736, 21914872,
    3145155857084504075465005271638140649433033255667329577269863476799889107801790092080425824025, ⟨0, 4,
    146414674509344, [63478766668, 36067481, 27324]⟩⟩) (.sy (.leaf ⟨305, 16, 20, 833, 16, 429, ⟨[[], [(343597383680,
    0)]], 3, 4⟩, ⟨[[(0, 59255121275), (0, 2080711059187), (0, 19247492860), (0, 406994503), (0, 9286723)], [(0,
    203714291390), (0, 3792290822), (0, 107939056), (0, 3300660), (0, 94247)], [(0, 63571358), (0, 7336563), (0,
    368860), (0, 14950), (0, 476)], [(0, 152390), (0, 15105), (0, 1011), (0, 45), (0, 2)]], 3, 4⟩, 1099511627776, 0,
    3973536165, ⟨[[(44499133335576, 0), (55111184727, 0), (334324783, 0), (403344, 0), (0, 647)], [(32660456361, 0),
    (77523664, 0), (0, 14781), (0, 20), (0, 2)], [(0, 39413103), (0, 125031), (0, 39)], [(68737, 0), (334, 0)]], 3,
    4⟩, 68719476736, 12840580,
    2906824352429383903853555682036657139583576690354499440257331715694521136801315140050922464624, ⟨0, 4,
    202773901796135, [76254021969, 39064560, 26683]⟩⟩) (.sx (.leaf ⟨610, 16, 41, 1093, 16, 568, ⟨[[(0,
    137438953472)], [(352187318272, 0)]], 3, 4⟩, ⟨[[(481943193652, 0), (0, 2965416590307), (0, 32942233617), (0,
    772664070), (0, 19024895)], [(0, 149413128701), (0, 3264731615), (0, 106252077), (0, 3531748), (0, 112835)], [(0,
    34854592), (0, 3868076), (0, 209608), (0, 9262), (0, 424)], [(0, 41809), (0, 4654), (0, 332), (0, 21), (0, 2)]],
    3, 4⟩, 1099511627776, 0, 751286164, ⟨[[(43864780432918, 0), (37458175767, 0), (185493432, 0), (181966, 0), (0,
    205)], [(15933519713, 0), (29346758, 0), (0, 4018), (9, 0)], [(0, 9519236), (0, 23771), (0, 5)], [(8172, 0), (32,
    0)]], 3, 4⟩, 68719476736, 1146407,
    2371754503680904592449315105216825338068486537204840594152937205146843361486683320283252658958, ⟨0, 4,
    266021182418817, [51753136142, 13590634, 4759]⟩⟩) (.leaf ⟨641, 16, 41, 977, 16, 514, ⟨[[(0, 412316860416)],
    [(352187318272, 0)]], 3, 4⟩, ⟨[[(420278577042, 0), (0, 3003542779256), (0, 41103358732), (0, 1105573899), (0,
    32516383)], [(0, 142421911987), (0, 3762139134), (0, 143041034), (0, 5585166), (0, 246585)], [(0, 44253692), (0,
    5033660), (0, 314064), (0, 18519), (0, 1351)], [(0, 51526), (0, 6739), (0, 628), (0, 62), (0, 6)]], 3, 4⟩,
    1099511627776, 0, 1641356035, ⟨[[(43870217079060, 0), (37012175249, 0), (217160490, 0), (261312, 0), (0, 317)],
    [(14991650839, 0), (31033915, 0), (0, 6129), (34, 0)], [(0, 8524000), (0, 23111), (0, 6)], [(6873, 0), (29, 0)]],
    3, 4⟩, 68719476736, 1187046,
    2779708640984486298335954504215672570996215727714488267914216802624841153721816706832928759008, ⟨0, 4,
    245116726571220, [44584962328, 11146241, 3715]⟩⟩)))
theorem c22 : checkC job ⟨6, 8, 7, 8, 9, 13⟩ 1 25 lims t22 464 48 32 87 3 256 = true := by decide +kernel

def t23 : CTree :=
  .sx (.sy (.leaf ⟨275, 16, 20, 725, 16, 375, ⟨[[], [(343597383680, 0)]], 3, 4⟩, ⟨[[(0, 330759650998), (0,
    1895223293167), (0, 20385222792), (0, 462677240), (0, 11236350)], [(0, 209507346401), (0, 4448126559), (0,
    140452464), (0, 4567808), (0, 152559)], [(0, 103492472), (0, 11298855), (0, 598388), (0, 27127), (0, 1366)], [(0,
    272736), (0, 29536), (0, 2141), (0, 144), (0, 12)]], 3, 4⟩, 1099511627776, 0, 14472212790, ⟨[[(43296601026343,
    0), (57507408945, 0), (432308596, 0), (617387, 0), (0, 1000)], [(34917599309, 0), (98552782, 0), (0, 16232), (15,
    0), (0, 4)], [(0, 45877807), (0, 185011), (0, 51)], [(87168, 0), (577, 0)]], 3, 4⟩, 68719476736, 18997976,
    3018164748868121530987842909283261698990239059663921488538437411219207441494198260867382816205, ⟨0, 4,
    170513984288832, [73927135094, 42004054, 31821]⟩⟩) (.sx (.leaf ⟨548, 16, 41, 968, 16, 505, ⟨[[(412316860416, 0)],
    [(352187318272, 0)]], 3, 4⟩, ⟨[[(0, 51189237276), (0, 2762045091763), (0, 35467952443), (0, 923293579), (0,
    29602931)], [(0, 157405457876), (0, 3927488908), (0, 143519886), (0, 5859689), (0, 301704)], [(0, 55267405), (0,
    6135828), (0, 392464), (0, 26168), (0, 2024)], [(0, 77894), (0, 10307), (0, 1061), (0, 110), (0, 11)]], 3, 4⟩,
    1099511627776, 0, 2731601694, ⟨[[(42690886740400, 0), (38212141240, 0), (232007319, 0), (262593, 0), (0, 295)],
    [(17077870374, 0), (36838305, 0), (0, 4450), (20, 0), (0, 1)], [(0, 11118676), (0, 35074), (0, 7)], [(10362, 0),
    (56, 0)]], 3, 4⟩, 68719476736, 1611100,
    1762747537666793830728717588780404523976543304011590634177860420777046498696231851507867687441, ⟨0, 4,
    227202987349100, [51173238062, 14945455, 5820]⟩⟩) (.leaf ⟨579, 16, 41, 827, 16, 438, ⟨[[(137438953472, 0)],
    [(352187318272, 0)]], 3, 4⟩, ⟨[[(163676512290, 0), (0, 2781465739257), (0, 46989265612), (0, 1625383039), (0,
    79370998)], [(0, 147927499090), (0, 4760398575), (0, 230069146), (0, 14039541), (0, 1046571)], [(0, 73062749),
    (0, 9395539), (0, 871731), (0, 85565), (0, 7884)], [(0, 114108), (0, 22111), (0, 3338), (0, 417), (0, 41)]], 3,
    4⟩, 1099511627776, 0, 8096091480, ⟨[[(42687828334077, 0), (37782517208, 0), (292488079, 0), (430935, 0), (0,
    545)], [(15911401076, 0), (40322863, 0), (0, 8483), (76, 0), (0, 1)], [(0, 9774942), (0, 34864), (0, 8)], [(8465,
    0), (51, 0)]], 3, 4⟩, 68719476736, 1031319,
    4075176116568794179822527409891517195633399141916989042576773442692465528948681621946432608414, ⟨0, 4,
    201204903631261, [42027249190, 11622580, 4286]⟩⟩))) (.sy (.sx (.leaf ⟨610, 16, 41, 900, 16, 475, ⟨[[(0,
    137438953472)], [(352187318272, 0)]], 3, 4⟩, ⟨[[(0, 194658082882), (0, 2897686304294), (0, 43979079771), (0,
    1299467296), (0, 48133097)], [(0, 145331761494), (0, 4235739449), (0, 177390329), (0, 8409496), (0, 511670)],
    [(0, 57292587), (0, 6754693), (0, 499160), (0, 39793), (0, 3520)], [(0, 75323), (0, 11696), (0, 1449), (0, 173),
    (0, 18)]], 3, 4⟩, 1099511627776, 0, 3751588585, ⟨[[(43287288042602, 0), (37532537685, 0), (251640642, 0),
    (334518, 0), (0, 414)], [(15439604270, 0), (35269823, 0), (0, 7137), (51, 0), (0, 1)], [(0, 9121587), (0, 28219),
    (0, 7)], [(7632, 0), (38, 0)]], 3, 4⟩, 68719476736, 1184744,
    3536691966767420153609603064251239520182104255140553236467441163614426086713079898874702667401, ⟨0, 4,
    222464897269257, [43279471246, 11365407, 3979]⟩⟩) (.sy (.leaf ⟨641, 16, 41, 1189, 16, 634, ⟨[[(0, 412316860416)],
    [(352187318272, 0)]], 3, 4⟩, ⟨[[(370800097311, 0), (0, 2131430995808), (0, 19027410461), (0, 330210174), (0,
    7777006)], [(0, 200927515843), (0, 3407604893), (0, 83744866), (0, 2501079), (0, 93875)], [(0, 93494597), (0,
    6061069), (0, 278310), (0, 13794), (0, 666)], [(0, 128652), (0, 12480), (0, 959), (0, 63), (0, 3)]], 3, 4⟩,
    1099511627776, 0, 2799522687, ⟨[[(43423685639712, 0), (25523031254, 0), (135799152, 0), (148032, 0), (0, 136)],
    [(14585608645, 0), (25307153, 0), (0, 5219), (31, 0)], [(0, 8223506), (0, 18609), (0, 4)], [(6490, 0), (24, 0)]],
    3, 4⟩, 68719476736, 750715,
    2729286750937666325923372457023105975480149701265433813781137520679651640498289159725009521148, ⟨0, 4,
    302342421490570, [54993902949, 13748476, 4583]⟩⟩) (.leaf ⟨641, 16, 41, 1027, 16, 553, ⟨[[(0, 412316860416)],
    [(352187318272, 0)]], 3, 4⟩, ⟨[[(0, 404368601828), (0, 2097021447970), (0, 23878973785), (0, 568451059), (0,
    18867032)], [(0, 196327795908), (0, 4181597614), (0, 139422068), (0, 5899151), (0, 261997)], [(0, 125586191), (0,
    10197064), (0, 654443), (0, 38878), (0, 1899)], [(0, 224169), (0, 30189), (0, 2757), (0, 183), (0, 9)]], 3, 4⟩,
    1099511627776, 0, 7180593722, ⟨[[(43146299142748, 0), (25727508441, 0), (171596986, 0), (232524, 0), (0, 233)],
    [(14292018443, 0), (29168111, 0), (0, 8479), (60, 0)], [(0, 8008687), (0, 21234), (0, 5)], [(6215, 0), (27, 0)]],
    3, 4⟩, 68719476736, 946218,
    3644269941198694604723267189464213889682273407013408487304759336805248216698761063449899453392, ⟨0, 4,
    263715077420009, [47967868030, 11991967, 3997]⟩⟩))) (.sx (.sy (.leaf ⟨610, 16, 41, 1061, 16, 568, ⟨[[(0,
    137438953472)], [(352187318272, 0)]], 3, 4⟩, ⟨[[(0, 338908610891), (0, 2031336189554), (0, 21242108577), (0,
    468438018), (0, 14601220)], [(0, 202154131854), (0, 3971079921), (0, 122110326), (0, 4819864), (0, 205675)], [(0,
    123874216), (0, 9453652), (0, 564959), (0, 32164), (0, 1536)], [(0, 219996), (0, 27519), (0, 2408), (0, 156), (0,
    8)]], 3, 4⟩, 1099511627776, 0, 6914725112, ⟨[[(42849887718522, 0), (26172286030, 0), (166775346, 0), (207921, 0),
    (0, 201)], [(14989692984, 0), (29671983, 0), (0, 6787), (49, 0)], [(0, 8763783), (0, 23449), (0, 5)], [(7143, 0),
    (32, 0)]], 3, 4⟩, 68719476736, 981745,
    2987570049688081355166871672504385777993783060028607180429173702115568625337353294627754390116, ⟨0, 4,
    266021182418817, [51753136142, 13590634, 4759]⟩⟩) (.sx (.leaf ⟨1204, 16, 82, 1397, 16, 753, ⟨[[(412316860416,
    0)], [(352187318272, 0)]], 3, 4⟩, ⟨[[(0, 39630967609), (0, 2938027780423), (0, 37830600748), (0, 1073155247), (0,
    39357566)], [(0, 147469993963), (0, 3508778673), (0, 138410968), (0, 6545993), (0, 290995)], [(0, 58882365), (0,
    5458868), (0, 390353), (0, 23346), (0, 1090)], [(0, 66033), (0, 9810), (0, 899), (0, 57), (0, 3)]], 3, 4⟩,
    1099511627776, 0, 1526635346, ⟨[[(42550773776073, 0), (17769411486, 0), (92331535, 0), (91529, 0), (0, 64)],
    [(7456964910, 0), (11374509, 0), (0, 2237), (12, 0)], [(0, 2190741), (0, 4559), (0, 1)], [(889, 0), (3, 0)]], 3,
    4⟩, 68719476736, 159450,
    3624434097972359650056797157913089065754427348947749825401126388009726119572394340214539259711, ⟨0, 4,
    351008315208538, [34742607659, 4620028, 819]⟩⟩) (.leaf ⟨1235, 16, 82, 1213, 16, 660, ⟨[[(137438953472, 0)],
    [(352187318272, 0)]], 3, 4⟩, ⟨[[(0, 374879581104), (0, 2923527361953), (0, 48792818043), (0, 1732838567), (0,
    70221741)], [(0, 141086673906), (0, 4293131865), (0, 214737843), (0, 11419425), (0, 519081)], [(0, 73587910), (0,
    8277727), (0, 667467), (0, 40988), (0, 1895)], [(0, 99153), (0, 16526), (0, 1553), (0, 97), (0, 4)]], 3, 4⟩,
    1099511627776, 0, 2597817054, ⟨[[(42558500615867, 0), (17972073016, 0), (115313363, 0), (141576, 0), (0, 110)],
    [(7178068688, 0), (12740630, 0), (0, 3657), (22, 0)], [(0, 2054514), (0, 4860), (0, 1)], [(803, 0), (3, 0)]], 3,
    4⟩, 68719476736, 202657,
    4884502056936383408698296771808669452461078943408223205221590654475291366107914463917329977446, ⟨0, 4,
    310543356457539, [29693554677, 3850305, 666]⟩⟩))) (.sy (.sx (.leaf ⟨1266, 16, 82, 1320, 16, 716, ⟨[[(0,
    137438953472)], [(352187318272, 0)]], 3, 4⟩, ⟨[[(0, 512063088490), (0, 2999376083653), (0, 43043459720), (0,
    1334909035), (0, 51739498)], [(0, 141375235683), (0, 3736506086), (0, 162372591), (0, 8170485), (0, 374575)],
    [(0, 60384457), (0, 6060619), (0, 462043), (0, 28530), (0, 1356)], [(0, 69474), (0, 11009), (0, 1041), (0, 67),
    (0, 3)]], 3, 4⟩, 1099511627776, 0, 1779482501, ⟨[[(42849744687690, 0), (17730322471, 0), (99239171, 0), (110089,
    0), (0, 82)], [(7099715649, 0), (11450042, 0), (0, 2945), (16, 0)], [(0, 1998978), (0, 4216), (0, 1)], [(773, 0),
    (3, 0)]], 3, 4⟩, 68719476736, 174459,
    3568166377822548912280638702569518722004200696063022348106974376830972606869375393737827109708, ⟨0, 4,
    339947070496320, [31430505587, 3976532, 671]⟩⟩) (.leaf ⟨1297, 16, 82, 1135, 16, 622, ⟨[[(0, 412316860416)],
    [(352187318272, 0)]], 3, 4⟩, ⟨[[(88876368314, 0), (0, 2975730101717), (0, 55583888127), (0, 2130579162), (0,
    89886968)], [(0, 134891741575), (0, 4587276821), (0, 249617235), (0, 13878437), (0, 645539)], [(0, 75398000), (0,
    9111011), (0, 768988), (0, 48328), (0, 2268)], [(0, 103404), (0, 18031), (0, 1733), (0, 110), (0, 5)]], 3, 4⟩,
    1099511627776, 0, 2942846902, ⟨[[(42842057462356, 0), (17808810945, 0), (125335830, 0), (175530, 0), (0, 146)],
    [(6826538246, 0), (12991810, 0), (0, 4903), (29, 0)], [(0, 1875658), (0, 4551), (0, 1)], [(698, 0), (3, 0)]], 3,
    4⟩, 68719476736, 215611,
    4500459877072685943359188262648472488198906991930663028039588157386207658615406583764409319721, ⟨0, 4,
    297907016578439, [26656624944, 3292567, 542]⟩⟩)) (.sx (.sy (.leaf ⟨1266, 16, 82, 1593, 16, 873, ⟨[[(0,
    137438953472)], [(352187318272, 0)]], 3, 4⟩, ⟨[[(0, 245529367244), (0, 2128447820595), (0, 21183597133), (0,
    423607447), (0, 8959588)], [(0, 198016713585), (0, 3575397295), (0, 101807112), (0, 2848389), (0, 65344)], [(0,
    122262612), (0, 7661339), (0, 325507), (0, 10100), (0, 233)], [(0, 180141), (0, 15775), (0, 748), (0, 23), (0,
    1)]], 3, 4⟩, 1099511627776, 0, 2260289476, ⟨[[(42628431814186, 0), (12396549648, 0), (63698980, 0), (63159, 0),
    (0, 37)], [(6944740067, 0), (9463717, 0), (0, 2464), (11, 0)], [(0, 1942247), (0, 3443)], [(735, 0), (2, 0)]], 3,
    4⟩, 68719476736, 146202,
    3682539290123871809690741379119971955374036586903060855163007268231807123124955278745335781234, ⟨0, 4,
    414488537071630, [38322390192, 4848481, 818]⟩⟩) (.leaf ⟨1266, 16, 82, 1363, 16, 753, ⟨[[(0, 137438953472)],
    [(352187318272, 0)]], 3, 4⟩, ⟨[[(153672853836, 0), (0, 2102290466411), (0, 26865304611), (0, 611515993), (0,
    13266693)], [(0, 193075193243), (0, 4459088839), (0, 146732453), (0, 4249370), (0, 96435)], [(0, 157385759), (0,
    11117318), (0, 489698), (0, 15056), (0, 339)], [(0, 265268), (0, 23980), (0, 1126), (0, 34), (0, 1)]], 3, 4⟩,
    1099511627776, 0, 3429869977, ⟨[[(42480179434407, 0), (12519462161, 0), (82313709, 0), (101344, 0), (0, 66)],
    [(6823284108, 0), (11051252, 0), (0, 3895), (19, 0)], [(0, 1898275), (0, 3981)], [(706, 0), (3, 0)]], 3, 4⟩,
    68719476736, 175800,
    4998000980613042810748765056361996251563453916358567017484529876225744797427599415488704057615, ⟨0, 4,
    357514167714705, [33054707692, 4182023, 705]⟩⟩)) (.sy (.leaf ⟨1297, 16, 82, 1313, 16, 728, ⟨[[(0, 412316860416)],
    [(352187318272, 0)]], 3, 4⟩, ⟨[[(0, 205457482830), (0, 2133812107983), (0, 28970718367), (0, 679254286), (0,
    14947940)], [(0, 189805641876), (0, 4664093185), (0, 158644788), (0, 4664855), (0, 106816)], [(0, 160904959), (0,
    11699561), (0, 523325), (0, 16231), (0, 368)], [(0, 271693), (0, 24930), (0, 1181), (0, 36), (0, 1)]], 3, 4⟩,
    1099511627776, 0, 3470076690, ⟨[[(42628724306304, 0), (12472555057, 0), (86317673, 0), (114250, 0), (0, 77)],
    [(6654403302, 0), (11224351, 0), (0, 4498), (21, 0)], [(0, 1815817), (0, 3872)], [(660, 0), (2, 0)]], 3, 4⟩,
    68719476736, 191100,
    4677978633260252742852001502158906700489978201560158997318860183759461184544793728009996368374, ⟨0, 4,
    348675736445504, [31199393825, 3853680, 635]⟩⟩) (.sx (.sy (.leaf ⟨2594, 16, 165, 2539, 16, 1413, ⟨[[(0,
    446676598784)], [(354334801920, 0)]], 3, 4⟩, ⟨[[(0, 172038933710), (0, 2229567824667), (0, 16976271709), (0,
    207548045), (0, 2287202)], [(0, 198283258870), (0, 2736146446), (0, 48849957), (0, 721533), (0, 8180)], [(0,
    96230447), (0, 3640924), (0, 81854), (0, 1258), (0, 14)], [(0, 85701), (0, 3946), (0, 93), (0, 1)]], 3, 4⟩,
    1099511627776, 0, 446130760, ⟨[[(42518063693568, 0), (5951606131, 0), (22477138, 0), (15806, 0), (0, 5)],
    [(3293933675, 0), (2901250, 0), (0, 635), (2, 0)], [(0, 447614), (0, 500)], [(81, 0)]], 3, 4⟩, 68719476736,
    79104, 3533962057537577067033321313001082644348911876312919010044770351774909351111562898844548851105, ⟨0, 4,
    675298946205568, [30458567549, 1892307, 157]⟩⟩) (.skip)) (.skip)))))))
theorem c23 : checkC job ⟨6, 8, 7, 8, 9, 13⟩ 1 25 lims t23 464 48 32 93 3 256 = true := by decide +kernel

def t24 : CTree :=
  .sx (.sx (.leaf ⟨335, 16, 20, 766, 16, 385, ⟨[[], [(343597383680, 0)]], 3, 4⟩, ⟨[[(406612073358, 0), (0,
    3165439339445), (0, 34579301914), (0, 1054629715), (0, 33055449)], [(0, 137106887098), (0, 3385476489), (0,
    127370289), (0, 5157661), (0, 234964)], [(0, 4142560), (0, 3418950), (0, 233007), (0, 14813), (0, 969)], [(0,
    36689), (0, 3323), (0, 372), (0, 36), (0, 3)]], 3, 4⟩, 1099511627776, 0, 1221768386, ⟨[[(46767249301281, 0),
    (79709436711, 0), (443090557, 0), (475904, 0), (0, 1112)], [(31914175506, 0), (78023968, 0), (0, 29350), (0,
    267), (0, 3)], [(0, 35986070), (0, 113010), (0, 48)], [(58961, 0), (262, 0)]], 3, 4⟩, 68719476736, 10692408,
    2940308337068826553397302173646616431241346431634628269421440050475607655872978630158333624976, ⟨0, 4,
    188242799086747, [62304759627, 29060056, 18072]⟩⟩) (.leaf ⟨365, 16, 20, 694, 16, 354, ⟨[[], [(343597383680, 0)]],
    3, 4⟩, ⟨[[(0, 444394539378), (0, 3241397214647), (0, 45373113977), (0, 1586738330), (0, 62336872)], [(0,
    127737828177), (0, 3815015950), (0, 170220110), (0, 8572133), (0, 486851)], [(0, 13676069), (0, 4257276), (0,
    354605), (0, 28090), (0, 2063)], [(0, 35462), (0, 4880), (0, 670), (0, 71), (0, 5)]], 3, 4⟩, 1099511627776, 0,
    2452766595, ⟨[[(46828807011465, 0), (78534758222, 0), (503282699, 0), (671429, 0), (0, 1673)], [(29091939607, 0),
    (78872118, 0), (0, 30368), (0, 155), (0, 4)], [(0, 30209137), (0, 99753), (0, 56)], [(44869, 0), (210, 0)]], 3,
    4⟩, 68719476736, 7977750,
    2920830733620527132236479067776123610300248343693578637016129138790071237528755603222686093804, ⟨0, 4,
    178352763046939, [52579408960, 22508309, 12847]⟩⟩)) (.sy (.leaf ⟨205, 16, 10, 614, 16, 319, ⟨[[], [(343597383680,
    0)]], 3, 4⟩, ⟨[[(300503581150, 0), (0, 1658039511637), (0, 14779403744), (0, 305052563), (0, 7390288)], [(0,
    228125855985), (0, 4131394674), (0, 111007822), (0, 3444373), (0, 111970)], [(0, 77851048), (0, 9765159), (0,
    494002), (0, 22271), (0, 808)], [(0, 251924), (0, 24185), (0, 1835), (0, 93), (0, 3)]], 3, 4⟩, 1099511627776, 0,
    10060281540, ⟨[[(47124607733761, 0), (77184944904, 0), (584753131, 0), (1036082, 0), (0, 2784)], [(51434227043,
    0), (159501504, 0), (0, 82747), (168, 0), (0, 13)], [(0, 96134651), (0, 333136), (0, 266)], [(251753, 0), (1259,
    0)]], 3, 4⟩, 68719476736, 86756376,
    3012583787392168121219108653187326205214693997150430148088668896947728117816176488097049581978, ⟨0, 4,
    167152933829750, [84361078714, 64299603, 65345]⟩⟩) (.sx (.leaf ⟨395, 16, 20, 868, 16, 454, ⟨[[], [(343597383680,
    0)]], 3, 4⟩, ⟨[[(511390597041, 0), (0, 2481206273395), (0, 25676345624), (0, 596247598), (0, 15709386)], [(0,
    178563812922), (0, 3658355553), (0, 112742974), (0, 3875331), (0, 125307)], [(0, 45488272), (0, 5391498), (0,
    299728), (0, 13484), (0, 444)], [(0, 73916), (0, 8243), (0, 605), (0, 27), (0, 1)]], 3, 4⟩, 1099511627776, 0,
    1356435669, ⟨[[(46431220142294, 0), (50039313442, 0), (282569209, 0), (374243, 0), (0, 651)], [(26121221901, 0),
    (58101094, 0), (0, 20272), (65, 0), (0, 2)], [(0, 25146358), (0, 63429), (0, 33)], [(33844, 0), (125, 0)]], 3,
    4⟩, 68719476736, 5354421,
    3174855830049311348139946161999403163582118365344160103542883096308653751062871485250460277776, ⟨0, 4,
    234956104503632, [62310905090, 24648301, 13000]⟩⟩) (.leaf ⟨425, 16, 20, 755, 16, 402, ⟨[[], [(343597383680, 0)]],
    3, 4⟩, ⟨[[(0, 226861857410), (0, 2559311508596), (0, 35295997895), (0, 991220258), (0, 29035625)], [(0,
    167862058357), (0, 4394189960), (0, 167994812), (0, 6503139), (0, 218162)], [(0, 62483145), (0, 7455302), (0,
    457965), (0, 20997), (0, 872)], [(0, 90249), (0, 11450), (0, 821), (0, 46), (0, 4)]], 3, 4⟩, 1099511627776, 0,
    2422104867, ⟨[[(46464603317074, 0), (48963355391, 0), (336265150, 0), (602699, 0), (0, 1108)], [(23855263943, 0),
    (62514564, 0), (0, 34678), (218, 0), (0, 2)], [(0, 21554437), (0, 59280), (0, 38)], [(26662, 0), (111, 0)]], 3,
    4⟩, 68719476736, 4130891,
    3953613902679018951736379399506771305360535456102534187771949671316655065845186327430571234350, ⟨0, 4,
    213150030856702, [51279339825, 18852698, 9242]⟩⟩)))
theorem c24 : checkC job ⟨6, 8, 7, 8, 9, 13⟩ 1 25 lims t24 304 48 16 75 3 256 = true := by decide +kernel

def t25 : CTree :=
  .sx (.sy (.leaf ⟨335, 16, 20, 956, 16, 489, ⟨[[], [(343597383680, 0)]], 3, 4⟩, ⟨[[(0, 4978070462), (0,
    2258326539279), (0, 17271729961), (0, 323374238), (0, 6841761)], [(0, 197524098001), (0, 3151941989), (0,
    76537406), (0, 2105731), (0, 61268)], [(0, 33193693), (0, 4402718), (0, 199541), (0, 8164), (0, 281)], [(0,
    81423), (0, 6626), (0, 459), (0, 23), (0, 1)]], 3, 4⟩, 1099511627776, 0, 1283445856, ⟨[[(45782901698098, 0),
    (53670410870, 0), (262140528, 0), (260994, 0), (0, 422)], [(30870133275, 0), (61957992, 0), (0, 13734), (0, 46),
    (0, 1)], [(0, 34489117), (0, 87975), (0, 30)], [(55478, 0), (206, 0)]], 3, 4⟩, 68719476736, 9430129,
    2597409963866303228738346164077693029435913813633807944689432878709259345504828284233185078143, ⟨0, 4,
    239092801956933, [79135136253, 36910045, 22954]⟩⟩) (.leaf ⟨335, 16, 20, 833, 16, 432, ⟨[[], [(343597383680, 0)]],
    3, 4⟩, ⟨[[(120220887175, 0), (0, 2215315890348), (0, 22070737805), (0, 495420997), (0, 12132246)], [(0,
    194125458828), (0, 3854072104), (0, 116404885), (0, 3797573), (0, 113968)], [(0, 60938844), (0, 7042216), (0,
    374898), (0, 15878), (0, 514)], [(0, 126901), (0, 13526), (0, 939), (0, 43), (0, 2)]], 3, 4⟩, 1099511627776, 0,
    3036517696, ⟨[[(45124662506398, 0), (53139549974, 0), (322193811, 0), (410405, 0), (0, 685)], [(30056799426, 0),
    (70525733, 0), (0, 16892), (25, 0), (0, 2)], [(0, 33342545), (0, 98711), (0, 37)], [(52784, 0), (233, 0)]], 3,
    4⟩, 68719476736, 8863271,
    3253683375848087153871524661513212812807022601138448326584776273708281388020232806677212207702, ⟨0, 4,
    211223088845388, [69910795217, 32607647, 20278]⟩⟩)) (.sy (.leaf ⟨365, 16, 20, 846, 16, 441, ⟨[[], [(343597383680,
    0)]], 3, 4⟩, ⟨[[(316684116744, 0), (0, 2352357502936), (0, 24300741073), (0, 562920792), (0, 14461466)], [(0,
    186111714274), (0, 3810642762), (0, 118147080), (0, 4006701), (0, 125181)], [(0, 54417551), (0, 6357411), (0,
    349817), (0, 15320), (0, 499)], [(0, 99879), (0, 11056), (0, 790), (0, 36), (0, 1)]], 3, 4⟩, 1099511627776, 0,
    2104722610, ⟨[[(45768200312618, 0), (51380640215, 0), (303532455, 0), (398384, 0), (0, 682)], [(27910461979, 0),
    (64002362, 0), (0, 18854), (53, 0), (0, 2)], [(0, 28735362), (0, 78748), (0, 35)], [(41745, 0), (168, 0)]], 3,
    4⟩, 68719476736, 6667128,
    3342839762359704345788396246764864525275507305252743689678447969186453788724253704354340658485, ⟨0, 4,
    222185221761865, [65501467094, 28040012, 16005]⟩⟩) (.sx (.leaf ⟨733, 16, 41, 1046, 16, 551, ⟨[[(0,
    137438953472)], [(352187318272, 0)]], 3, 4⟩, ⟨[[(0, 43741525128), (0, 3233361356729), (0, 41830574627), (0,
    1110149528), (0, 30562101)], [(0, 130803655160), (0, 3263552831), (0, 119839767), (0, 4433150), (0, 150351)],
    [(0, 29790158), (0, 3446221), (0, 205094), (0, 9621), (0, 463)], [(0, 28369), (0, 3509), (0, 263), (0, 17), (0,
    2)]], 3, 4⟩, 1099511627776, 0, 691051055, ⟨[[(45133358513617, 0), (36526857568, 0), (187580322, 0), (216088, 0),
    (0, 272)], [(13545589200, 0), (25589447, 0), (0, 6425), (29, 0)], [(0, 6892399), (0, 15621), (0, 5)], [(4918, 0),
    (17, 0)]], 3, 4⟩, 68719476736, 826136,
    3550584887344794822956118614630213079743021758825253907552764668071631099385855558084552597936, ⟨0, 4,
    275620958607406, [41778309166, 9129875, 2660]⟩⟩) (.leaf ⟨764, 16, 41, 942, 16, 502, ⟨[[(0, 412316860416)],
    [(352187318272, 0)]], 3, 4⟩, ⟨[[(317914653240, 0), (0, 3263282064118), (0, 50557179077), (0, 1498311617), (0,
    46709523)], [(0, 125158909938), (0, 3675571340), (0, 153049600), (0, 6354844), (0, 282640)], [(0, 35579231), (0,
    4241383), (0, 279378), (0, 16767), (0, 1275)], [(0, 33167), (0, 4590), (0, 438), (0, 46), (0, 5)]], 3, 4⟩,
    1099511627776, 0, 1479762881, ⟨[[(45124021425420, 0), (36095637366, 0), (215994299, 0), (304825, 0), (0, 406)],
    [(12833642242, 0), (27269520, 0), (0, 9718), (59, 0)], [(0, 6287875), (0, 15416), (0, 6)], [(4262, 0), (16, 0)]],
    3, 4⟩, 68719476736, 958020,
    3559520328710676526727978231661249164263885128404515161052654387717406770822093570550898494528, ⟨0, 4,
    254689670196611, [36530258612, 7661548, 2142]⟩⟩)))
theorem c25 : checkC job ⟨6, 8, 7, 8, 9, 13⟩ 1 25 lims t25 560 48 32 81 3 256 = true := by decide +kernel

def t26 : CTree :=
  .sx (.sy (.sy (.leaf ⟨395, 16, 20, 1020, 16, 540, ⟨[[], [(343597383680, 0)]], 3, 4⟩, ⟨[[(295243649582, 0), (0,
    1638528080382), (0, 10720375064), (0, 145198419), (0, 2059944)], [(0, 235174050886), (0, 2950642777), (0,
    54612037), (0, 1031002), (0, 17071)], [(0, 91887692), (0, 5410578), (0, 163361), (0, 3736), (0, 77)], [(0,
    150093), (0, 9383), (0, 340), (0, 10)]], 3, 4⟩, 1099511627776, 0, 2483561185, ⟨[[(45938977656951, 0),
    (37213025088, 0), (191144071, 0), (238463, 0), (0, 321)], [(25512084423, 0), (49227719, 0), (0, 16469), (76, 0),
    (0, 1)], [(0, 24487402), (0, 52764), (0, 22)], [(32539, 0), (105, 0)]], 3, 4⟩, 68719476736, 4693934,
    3167302641934348045905398091388723504583822627841443311425208892113724878631144178667124974443, ⟨0, 4,
    279463207999915, [74114292398, 29317362, 15463]⟩⟩) (.leaf ⟨395, 16, 20, 921, 16, 492, ⟨[[], [(343597383680, 0)]],
    3, 4⟩, ⟨[[(91465668790, 0), (0, 1626177192163), (0, 12615310375), (0, 188158147), (0, 2897635)], [(0,
    232416601323), (0, 3402428115), (0, 70767642), (0, 1451019), (0, 29977)], [(0, 119504401), (0, 7163800), (0,
    232556), (0, 6509), (0, 229)], [(0, 201750), (0, 13695), (0, 608), (0, 30), (0, 2)]], 3, 4⟩, 1099511627776, 0,
    4820087721, ⟨[[(45614420185773, 0), (37072661864, 0), (222184026, 0), (330751, 0), (0, 462)], [(25060390256, 0),
    (54384332, 0), (0, 22774), (135, 0), (0, 1)], [(0, 24006635), (0, 57476), (0, 25)], [(31578, 0), (115, 0)]], 3,
    4⟩, 68719476736, 4384380,
    3415422378465020104610152160640011794383232730082142063662146716494073483950625471207210139451, ⟨0, 4,
    254622033955478, [67526355296, 26711375, 14088]⟩⟩)) (.sx (.sy (.leaf ⟨794, 16, 41, 1346, 16, 722,
    ⟨[[(412316860416, 0)], [(352187318272, 0)]], 3, 4⟩, ⟨[[(51849083944, 0), (0, 2494919423855), (0, 21202123152),
    (0, 334429664), (0, 5715902)], [(0, 181946053950), (0, 2904261893), (0, 64560131), (0, 1455583), (0, 38195)],
    [(0, 55594377), (0, 3402575), (0, 120642), (0, 4244), (0, 189)], [(0, 50152), (0, 3751), (0, 210), (0, 13), (0,
    1)]], 3, 4⟩, 1099511627776, 0, 513176950, ⟨[[(45285027792902, 0), (23839570532, 0), (101499350, 0), (106501, 0),
    (0, 97)], [(12305157660, 0), (18436667, 0), (0, 5438), (23, 0)], [(0, 5835783), (0, 9734), (0, 3)], [(3792, 0),
    (10, 0)]], 3, 4⟩, 68719476736, 453667,
    2247037132549830568127062641794530773023860176923485479578117372805753710665602006014640215173, ⟨0, 4,
    371251546079363, [50505746832, 10182610, 2737]⟩⟩) (.leaf ⟨794, 16, 41, 1180, 16, 640, ⟨[[(412316860416, 0)],
    [(352187318272, 0)]], 3, 4⟩, ⟨[[(465127837509, 0), (0, 2474418221744), (0, 25557534914), (0, 480386770), (0,
    11579781)], [(0, 179123303254), (0, 3440485150), (0, 91642035), (0, 2839973), (0, 112749)], [(0, 72335719), (0,
    4919797), (0, 235828), (0, 12519), (0, 672)], [(0, 74836), (0, 7694), (0, 647), (0, 48), (0, 3)]], 3, 4⟩,
    1099511627776, 0, 1361754298, ⟨[[(44953823331753, 0), (23582345315, 0), (122989006, 0), (161153, 0), (0, 156)],
    [(12030790568, 0), (20999456, 0), (0, 8415), (42, 0)], [(0, 5692189), (0, 10893), (0, 3)], [(3648, 0), (11, 0)]],
    3, 4⟩, 68719476736, 489759,
    4049281788792299930440805136682442053196776683946620858092188604328929286300571038687534984915, ⟨0, 4,
    329087243062040, [44769637081, 9026137, 2426]⟩⟩)) (.sy (.leaf ⟨825, 16, 41, 1204, 16, 654, ⟨[[(137438953472, 0)],
    [(352187318272, 0)]], 3, 4⟩, ⟨[[(463381916011, 0), (0, 2544329070375), (0, 26041158607), (0, 479240332), (0,
    10939812)], [(0, 175864012907), (0, 3335207903), (0, 86782219), (0, 2554453), (0, 97440)], [(0, 65569180), (0,
    4381381), (0, 199859), (0, 10220), (0, 554)], [(0, 61856), (0, 6055), (0, 495), (0, 37), (0, 2)]], 3, 4⟩,
    1099511627776, 0, 1015497780, ⟨[[(45278834378054, 0), (23280105898, 0), (116696320, 0), (153316, 0), (0, 148)],
    [(11651944498, 0), (19948927, 0), (0, 8461), (40, 0)], [(0, 5350528), (0, 9713), (0, 3)], [(3310, 0), (9, 0)]],
    3, 4⟩, 68719476736, 462002,
    3639662569363150224467022075881417560580686533665404217318849672774530782540257869453798647760, ⟨0, 4,
    340595055247688, [44044042225, 8548921, 2212]⟩⟩) (.leaf ⟨825, 16, 41, 1022, 16, 562, ⟨[[(137438953472, 0)],
    [(352187318272, 0)]], 3, 4⟩, ⟨[[(256839458132, 0), (0, 2510127479441), (0, 32749813299), (0, 812871234), (0,
    27975603)], [(0, 171624109268), (0, 4101782577), (0, 143496002), (0, 6348583), (0, 311238)], [(0, 87850353), (0,
    7376807), (0, 501301), (0, 33149), (0, 1838)], [(0, 109840), (0, 16108), (0, 1668), (0, 126), (0, 7)]], 3, 4⟩,
    1099511627776, 0, 3084887530, ⟨[[(44961389539868, 0), (23217047748, 0), (148617633, 0), (255198, 0), (0, 267)],
    [(11356782761, 0), (23536496, 0), (0, 14115), (77, 0)], [(0, 5208369), (0, 11211), (0, 3)], [(3172, 0), (11,
    0)]], 3, 4⟩, 68719476736, 612433,
    4257336066216478448734428694209173346326128068413360460587080741862644211762084019648183510841, ⟨0, 4,
    292682600992662, [37848244236, 7346321, 1901]⟩⟩)))) (.sy (.sy (.leaf ⟨425, 16, 20, 869, 16, 470, ⟨[[],
    [(343597383680, 0)]], 3, 4⟩, ⟨[[(388502473428, 0), (0, 1724327663047), (0, 15525454764), (0, 254394260), (0,
    4461742)], [(0, 224171911489), (0, 3743141319), (0, 85802657), (0, 1973682), (0, 52923)], [(0, 125980282), (0,
    7826707), (0, 280898), (0, 10124), (0, 480)], [(0, 193837), (0, 14610), (0, 848), (0, 57), (0, 4)]], 3, 4⟩,
    1099511627776, 0, 5460619790, ⟨[[(45935633955186, 0), (35352005175, 0), (229824275, 0), (409343, 0), (0, 582)],
    [(23116951093, 0), (54254781, 0), (0, 32310), (200, 0), (0, 1)], [(0, 20864292), (0, 49979), (0, 25)], [(25364,
    0), (95, 0)]], 3, 4⟩, 68719476736, 3564431,
    2627320173838556350541247989945777305909079868044540934071922346022652516312587984312447013859, ⟨0, 4,
    249205259956841, [59953457010, 22041712, 10805]⟩⟩) (.sx (.leaf ⟨856, 16, 41, 1235, 16, 671, ⟨[[(0,
    137438953472)], [(352187318272, 0)]], 3, 4⟩, ⟨[[(0, 477640005610), (0, 2610627807772), (0, 26212800076), (0,
    469379877), (0, 9991526)], [(0, 172634118704), (0, 3201323750), (0, 80770021), (0, 2224772), (0, 79470)], [(0,
    58604681), (0, 3832394), (0, 163806), (0, 7865), (0, 426)], [(0, 50059), (0, 4579), (0, 355), (0, 27), (0, 2)]],
    3, 4⟩, 1099511627776, 0, 722543934, ⟨[[(45628102036627, 0), (23218631892, 0), (110478890, 0), (143264, 0), (0,
    137)], [(11323875065, 0), (18886892, 0), (0, 8242), (37, 0)], [(0, 5053439), (0, 8661), (0, 3)], [(3027, 0), (8,
    0)]], 3, 4⟩, 68719476736, 414065,
    2973930097262560542073203103524384669207646432984670834752092360634026557790255128417522306490, ⟨0, 4,
    353707698630549, [43565364002, 8152201, 2034]⟩⟩) (.leaf ⟨887, 16, 41, 1092, 16, 601, ⟨[[(0, 412316860416)],
    [(352187318272, 0)]], 3, 4⟩, ⟨[[(0, 226882016936), (0, 2649495022369), (0, 32142639615), (0, 705163701), (0,
    21043297)], [(0, 166092450873), (0, 3669953898), (0, 113103110), (0, 4329782), (0, 204370)], [(0, 67914360), (0,
    5131683), (0, 303720), (0, 19448), (0, 1131)], [(0, 64876), (0, 8423), (0, 866), (0, 69), (0, 4)]], 3, 4⟩,
    1099511627776, 0, 1566451085, ⟨[[(45625089190874, 0), (22799432057, 0), (128590517, 0), (213294, 0), (0, 216)],
    [(10726282488, 0), (20841907, 0), (0, 12859), (61, 0)], [(0, 4658720), (0, 8786), (0, 3)], [(2664, 0), (8, 0)]],
    3, 4⟩, 68719476736, 475350,
    3027272638353904566992520179079940295644125398094550494186704986448829936628639747755340332109, ⟨0, 4,
    320488485495792, [37667228525, 6804051, 1639]⟩⟩))) (.sx (.sy (.leaf ⟨856, 16, 41, 1054, 16, 580, ⟨[[(0,
    137438953472)], [(352187318272, 0)]], 3, 4⟩, ⟨[[(0, 13695299523), (0, 2581985489773), (0, 32630160008), (0,
    765210595), (0, 24828382)], [(0, 168872136110), (0, 3898036858), (0, 128673790), (0, 5360610), (0, 260101)], [(0,
    77752400), (0, 6219140), (0, 399309), (0, 26196), (0, 1488)], [(0, 85595), (0, 11963), (0, 1242), (0, 97), (0,
    6)]], 3, 4⟩, 1099511627776, 0, 2259444801, ⟨[[(45291608709140, 0), (22989771734, 0), (138606358, 0), (235026, 0),
    (0, 242)], [(11026491324, 0), (22181764, 0), (0, 13593), (69, 0)], [(0, 4918696), (0, 9929), (0, 3)], [(2900, 0),
    (9, 0)]], 3, 4⟩, 68719476736, 563947,
    3592723909380706964246479397074051167365133282830090700798491281039414276551038203700570822470, ⟨0, 4,
    305738398220147, [37657095561, 7046612, 1758]⟩⟩) (.leaf ⟨856, 16, 41, 845, 16, 472, ⟨[[(0, 137438953472)],
    [(352187318272, 0)]], 3, 4⟩, ⟨[[(262629506234, 0), (0, 2511461270053), (0, 44607074097), (0, 1575734958), (0,
    69641640)], [(0, 161539735583), (0, 5164447136), (0, 258270627), (0, 14961704), (0, 791557)], [(0, 112043770),
    (0, 12772580), (0, 1136100), (0, 81460), (0, 4448)], [(0, 189161), (0, 35890), (0, 3985), (0, 296), (0, 16)]], 3,
    4⟩, 1099511627776, 0, 6847924994, ⟨[[(44964803380512, 0), (23135038618, 0), (192093818, 0), (463998, 0), (0,
    543)], [(10675681008, 0), (27846871, 0), (0, 25921), (154, 0)], [(0, 4763925), (0, 12107), (0, 3)], [(2753, 0),
    (12, 0)]], 3, 4⟩, 68719476736, 993914,
    4522992233821370214224933249448617262886128988039596827882740719906635439747285041651879043637, ⟨0, 4,
    248807799930878, [30645084663, 5734484, 1431]⟩⟩)) (.sy (.leaf ⟨887, 16, 41, 890, 16, 497, ⟨[[(0, 412316860416)],
    [(352187318272, 0)]], 3, 4⟩, ⟨[[(0, 113706611351), (0, 2593843763003), (0, 42943683665), (0, 1400238235), (0,
    59888225)], [(0, 159996628781), (0, 4757308196), (0, 218721096), (0, 12220374), (0, 654464)], [(0, 95779276), (0,
    10176656), (0, 876889), (0, 63786), (0, 3586)], [(0, 139525), (0, 26003), (0, 2950), (0, 226), (0, 12)]], 3, 4⟩,
    1099511627776, 0, 5005204441, ⟨[[(45296812243987, 0), (22864543117, 0), (172820647, 0), (401034, 0), (0, 454)],
    [(10394313948, 0), (25752133, 0), (0, 23440), (128, 0)], [(0, 4520826), (0, 10540), (0, 2)], [(2537, 0), (10,
    0)]], 3, 4⟩, 68719476736, 855722,
    4157254159638328207036747830551585261564115983097850353420030210846919846563620722181674703917, ⟨0, 4,
    265029579519815, [31149105785, 5626645, 1355]⟩⟩) (.skip))))
theorem c26 : checkC job ⟨6, 8, 7, 8, 9, 13⟩ 1 25 lims t26 656 48 32 81 3 256 = true := by decide +kernel

end PyX.Kron.S2c
