import Verif.Lemmas.P1hsJob

/-!
# Pressure from enthalpy and entropy in region 1, part B of the certificate
-/

namespace PyX.Kron.P1hs

set_option Elab.async false

def t5 : CTree :=
  .sy (.sy (.sy (.leaf ⟨327, 16, 1444, 389, 16, 1489, ⟨[[(28493888247627776, 0), (76217114874810064, 0), (0,
    3538491140173), (209765159, 0), (0, 9026)], [(0, 35727038738550331), (3554043272012, 0), (164206529, 0), (49464,
    0), (0, 4)], [(1014600715995, 0), (1034539926, 0), (139381, 0), (41, 0)], [(428025530, 0), (337935, 0), (95,
    0)]], 3, 4⟩, ⟨[[(0, 104322691941335040), (86675594472048277, 0), (0, 8052126514713), (876462893, 0), (0, 96122)],
    [(19152760314895292, 0), (4041727555379, 0), (0, 1092804), (62800, 0), (0, 10)], [(2544981946487, 0),
    (1176499048, 0), (103831, 0), (42, 0)], [(659735101, 0), (384306, 0), (90, 0)]], 3, 4⟩, 1152921504606846976,
    97575874237926, 146155449263187, ⟨[[(17525343987549670, 0), (0, 560703706087913), (90019897852, 0), (1013350879,
    0), (2781235, 0)], [(637583346252988, 0), (0, 741209596217), (0, 1961897966), (0, 4425839), (0, 5800)],
    [(278548656446, 0), (1343338455, 0), (0, 415060), (0, 843), (0, 1)], [(0, 464672247), (4280344, 0), (497, 0), (1,
    0)]], 3, 4⟩, 281474976710656, 137342111865,
    6945944879992742561932043496268747343753311890706835658237483777237330560360215964484157199962418405458037054013977121328791702444223965955,
    lc0⟩) (.leaf ⟨361, 16, 1492, 433, 16, 1557, ⟨[[(486151766698885120, 0), (76269465353874590, 0), (0,
    3435137896783), (204389631, 0), (0, 8379)], [(0, 35606464086667615), (3809035175119, 0), (220459757, 0), (46060,
    0), (0, 3)], [(1441891763447, 0), (1185142314, 0), (188020, 0), (42, 0)], [(577564864, 0), (427178, 0), (125,
    0)]], 3, 4⟩, ⟨[[(372236337017716736, 0), (85060440972437633, 0), (0, 7526620064640), (789180118, 0), (0, 82171)],
    [(21509175927165664, 0), (4248072412359, 0), (61308390, 0), (54071, 0), (0, 7)], [(3106910794513, 0),
    (1321744257, 0), (152267, 0), (40, 0)], [(843061890, 0), (476416, 0), (119, 0)]], 3, 4⟩, 1152921504606846976,
    122527562670322, 172312012905029, ⟨[[(17510793425081326, 0), (0, 547371225984992), (114727023212, 0),
    (1058496367, 0), (2738055, 0)], [(610724799323651, 0), (0, 724358622266), (0, 2069941615), (0, 4305638), (0,
    5348)], [(264382329794, 0), (1451983923, 0), (0, 377855), (0, 749), (0, 1)], [(0, 481890593), (4013524, 0), (582,
    0), (1, 0)]], 3, 4⟩, 281474976710656, 128058809654,
    6852298465063922860915168734909163432170138620205703981577532975536592167822053402419657596962680309439159906230954849262063343232289811203,
    lc0⟩)) (.sy (.leaf ⟨397, 16, 1541, 477, 16, 1621, ⟨[[(0, 188834663529447424), (76366852436350882, 0), (0,
    3332485206822), (199462170, 0), (0, 8021)], [(0, 35369005014431672), (4110576232428, 0), (275902477, 0), (44551,
    0), (0, 2)], [(1943332979926, 0), (1376122824, 0), (240553, 0), (45, 0)], [(768069809, 0), (542789, 0), (162,
    0)]], 3, 4⟩, ⟨[[(248037930465099776, 0), (83359577821486051, 0), (0, 7032339282720), (712594260, 0), (0, 70820)],
    [(23951380549041643, 0), (4486971616695, 0), (118440312, 0), (48283, 0), (0, 5)], [(3737430540314, 0),
    (1502131016, 0), (201407, 0), (40, 0)], [(1067616607, 0), (592490, 0), (153, 0)]], 3, 4⟩, 1152921504606846976,
    158438975557880, 211449091770930, ⟨[[(17802678811577992, 0), (0, 536098576811266), (137519115043, 0),
    (1106495177, 0), (2714179, 0)], [(585235265964562, 0), (0, 709913609360), (0, 2175602881), (0, 4218816), (0,
    5024)], [(251325164976, 0), (1553401029, 0), (0, 336579), (0, 677), (0, 1)], [(0, 500408642), (3777653, 0), (654,
    0), (1, 0)]], 3, 4⟩, 281474976710656, 119484413684,
    6031489212573628107881955931716620310929420260857795843776454019292846911958285192640603275126901315086915774760435270398643406474237844653,
    lc0⟩) (.leaf ⟨433, 16, 1591, 520, 16, 1681, ⟨[[(333801541044207616, 0), (76510539168605763, 0), (0,
    3230352395779), (194661826, 0), (0, 7849)], [(0, 34994375226876213), (4460028693893, 0), (332259704, 0), (44540,
    0), (0, 1)], [(2536108810087, 0), (1612092593, 0), (298829, 0), (50, 0)], [(1011158022, 0), (690942, 0), (207,
    0)]], 3, 4⟩, ⟨[[(430353749816246272, 0), (81599746212806516, 0), (0, 6567591003798), (644854638, 0), (0, 61480)],
    [(26483616954514305, 0), (4756693829088, 0), (172348289, 0), (44665, 0), (0, 3)], [(4448354155990, 0),
    (1719323219, 0), (252917, 0), (42, 0)], [(1342909309, 0), (736901, 0), (193, 0)]], 3, 4⟩, 1152921504606846976,
    208207124523850, 265382507687437, ⟨[[(17625568322288996, 0), (0, 525420380671200), (160631167884, 0),
    (1157623409, 0), (2703924, 0)], [(560591278405126, 0), (0, 700025660135), (0, 2269676354), (0, 4146485), (0,
    4782)], [(240762407934, 0), (1628103715, 0), (0, 295412), (0, 625), (0, 1)], [(0, 509258544), (3548650, 0), (705,
    0), (1, 0)]], 3, 4⟩, 281474976710656, 110833239679,
    6789272876932234139447396779150209322968039991121052023745682561673551668740720889276339066738472619002356757808402041629090758663899585709,
    lc0⟩))) (.sy (.sy (.leaf ⟨471, 16, 1643, 562, 16, 1736, ⟨[[(103726999405068288, 0), (76748546287198746, 0), (0,
    3130730029000), (189914514, 0), (0, 7777)], [(0, 34482097768571333), (4862827934549, 0), (391216400, 0), (45814,
    0)], [(3241725045967, 0), (1900221891, 0), (364908, 0), (56, 0)], [(1322093158, 0), (880242, 0), (264, 0)]], 3,
    4⟩, ⟨[[(328302116865179648, 0), (79756144742948197, 0), (0, 6127346009032), (584200340, 0), (0, 53659)],
    [(29093176826279162, 0), (5053390941851, 0), (224453571, 0), (42683, 0), (0, 2)], [(5249238187071, 0),
    (1974687203, 0), (308052, 0), (46, 0)], [(1679238485, 0), (914737, 0), (241, 0)]], 3, 4⟩, 1152921504606846976,
    276414511194767, 337634568284816, ⟨[[(17690824145911022, 0), (0, 516526322331064), (182638515825, 0),
    (1212889285, 0), (2716511, 0)], [(536895293656420, 0), (0, 691142891026), (0, 2363216119), (0, 4106123), (0,
    4628)], [(230366147242, 0), (1696462125, 0), (0, 253608), (0, 589), (0, 1)], [(0, 517018871), (3339461, 0), (745,
    0), (1, 0)]], 3, 4⟩, 281474976710656, 102633751341,
    7116361821457408895629020659855759042462368628322820331748342371080410389215718221386581394251314095072169641448322449394084312826001366189,
    lc0⟩) (.leaf ⟨511, 16, 1698, 603, 16, 1786, ⟨[[(0, 458526037809692672), (77123622469007781, 0), (0,
    3035281216566), (185227107, 0), (0, 7744)], [(0, 33825868750249045), (5326112615041, 0), (454418412, 0), (48259,
    0), (1, 0)], [(4086329319400, 0), (2249840675, 0), (441136, 0), (64, 0)], [(1720628049, 0), (1122099, 0), (336,
    0)]], 3, 4⟩, ⟨[[(0, 298710843320958976), (77852373437734701, 0), (0, 5711215471472), (529659383, 0), (0, 47028)],
    [(31780887270448598, 0), (5376439734068, 0), (275894480, 0), (41990, 0), (0, 1)], [(6152347761830, 0),
    (2271099707, 0), (368079, 0), (51, 0)], [(2089448120, 0), (1132702, 0), (301, 0)]], 3, 4⟩, 1152921504606846976,
    369625085257318, 432741895889617, ⟨[[(17664830096370178, 0), (0, 508868001543322), (205497988836, 0),
    (1276951645, 0), (2758509, 0)], [(513523066973768, 0), (0, 684665653316), (0, 2459020683), (0, 4098012), (0,
    4550)], [(220660224491, 0), (1753974644, 0), (0, 212962), (0, 568), (0, 1)], [(0, 519665568), (3140185, 0), (774,
    0), (1, 0)]], 3, 4⟩, 281474976710656, 94569040678,
    7141799581424495252141343773518470908747779835601140315211545942859699036966917368033630039782990815143188770488197758911638066070522829997,
    lc0⟩)) (.sy (.leaf ⟨551, 16, 1754, 642, 16, 1831, ⟨[[(346915149255540736, 0), (77541345228449172, 0), (0,
    2940288600320), (180345582, 0), (0, 7700)], [(0, 32956169496475183), (5848876326508, 0), (522666013, 0), (51747,
    0), (2, 0)], [(5093256491286, 0), (2668328171, 0), (529397, 0), (74, 0)], [(2228685816, 0), (1429137, 0), (427,
    0)]], 3, 4⟩, ⟨[[(0, 513437487460253696), (75906956162781044, 0), (0, 5318632812424), (480467179, 0), (0, 41347)],
    [(34547287140862756, 0), (5725595778739, 0), (327578333, 0), (42342, 0)], [(7170772168878, 0), (2612086093, 0),
    (434263, 0), (57, 0)], [(2588816142, 0), (1399014, 0), (373, 0)]], 3, 4⟩, 1152921504606846976, 496155622918027,
    557069279834439, ⟨[[(17221468126767588, 0), (0, 501619188943045), (230167601506, 0), (1347969765, 0), (2823016,
    0)], [(491028393375340, 0), (0, 682479079166), (0, 2551391496), (0, 4110665), (0, 4523)], [(212975772588, 0),
    (1793528210, 0), (0, 176856), (0, 560), (0, 1)], [(0, 514460324), (2951380, 0), (790, 0), (1, 0)]], 3, 4⟩,
    281474976710656, 86868727517,
    6972357044904532483851307013712633181473304650400004332555221286466120377361001815753067544066395613998663599284594681382599117253262318765,
    lc0⟩) (.leaf ⟨594, 16, 1814, 678, 16, 1869, ⟨[[(217038574173945856, 0), (78132426945852633, 0), (0,
    2850802589002), (175591503, 0), (0, 7638)], [(0, 31897846394333006), (6447321874145, 0), (598149526, 0), (56343,
    0), (2, 0)], [(6303814131703, 0), (3172293502, 0), (633367, 0), (87, 0)], [(2880275068, 0), (1821537, 0), (543,
    0)]], 3, 4⟩, ⟨[[(0, 193729513908076544), (73855256343403421, 0), (0, 4943585947233), (435540268, 0), (0, 36398)],
    [(37352633241298872, 0), (6094378843158, 0), (379835478, 0), (43519, 0), (1, 0)], [(8309646508444, 0),
    (2998633973, 0), (507389, 0), (64, 0)], [(3192134015, 0), (1721821, 0), (461, 0)]], 3, 4⟩, 1152921504606846976,
    668373996918295, 718144141766035, ⟨[[(17421134473680056, 0), (0, 496680638525176), (251824037756, 0),
    (1422000862, 0), (2913479, 0)], [(469509087460139, 0), (0, 676159387789), (0, 2642976217), (0, 4151213), (0,
    4557)], [(203171792934, 0), (1831069736, 0), (0, 140639), (0, 558), (0, 1)], [(0, 509763004), (2773444, 0), (799,
    0), (1, 0)]], 3, 4⟩, 281474976710656, 79573260880,
    6804912047693846807449108209974100826297903173386077194060886716161986869259271992778858087029264890820316391940027445452000425512084839597,
    lc0⟩)))
theorem c5 : checkC job ⟨6, 8, 6, 7, 9, 13⟩ 3 200 B1.zlims t5 531 121 160 1017 175 1896 = true := by decide +kernel

def t6 : CTree :=
  .sy (.sy (.sx (.sy (.sx (.leaf ⟨793, 16, 2294, 930, 16, 2522, ⟨[[(0, 446070476880478208), (93890086751106791, 0),
    (0, 3578054721521), (193110535, 0), (0, 9693)], [(0, 10616532945472442), (1592277389195, 0), (104679946, 0),
    (6977, 0)], [(382744599944, 0), (166683713, 0), (25646, 0), (2, 0)], [(38006934, 0), (20469, 0), (5, 0)]], 3, 4⟩,
    ⟨[[(0, 110834443846811648), (92754157526062823, 0), (0, 6214204905027), (510867061, 0), (0, 42564)],
    [(11576886948940199, 0), (1573013221024, 0), (57972996, 0), (6029, 0)], [(551179444425, 0), (164667090, 0),
    (20579, 0), (2, 0)], [(44862650, 0), (20222, 0), (4, 0)]], 3, 4⟩, 1152921504606846976, 3072435017455,
    5065806914764, ⟨[[(27382123639275044, 0), (0, 379993321206843), (115103367018, 0), (574981837, 0), (899284, 0)],
    [(375338909975444, 0), (0, 355549184159), (0, 1213297690), (0, 1416014), (0, 1173)], [(105501255268, 0),
    (979352425, 0), (0, 25444), (0, 138)], [(0, 312153260), (1087623, 0), (249, 0)]], 3, 4⟩, 281474976710656,
    32514270346,
    11109485852731801854181254541143250193299944163324539068075658003000239225635490657203527722102947448777098076533495835564679449940398425768,
    lc0⟩) (.leaf ⟨788, 16, 2288, 927, 16, 2507, ⟨[[(388849866266771456, 0), (94038874014127473, 0), (0,
    3541863161815), (194440688, 0), (0, 9643)], [(0, 10397084690223385), (1672326365227, 0), (117651918, 0), (8249,
    0)], [(410867272662, 0), (182090506, 0), (29263, 0), (3, 0)], [(42392778, 0), (23294, 0), (6, 0)]], 3, 4⟩, ⟨[[(0,
    210913229889470464), (92590773112289772, 0), (0, 6162041656503), (509387995, 0), (0, 42345)],
    [(11781338481365902, 0), (1646574277667, 0), (68274723, 0), (6926, 0)], [(582073534253, 0), (179286502, 0),
    (23633, 0), (2, 0)], [(49616093, 0), (22936, 0), (5, 0)]], 3, 4⟩, 1152921504606846976, 3232637312954,
    5251599803762, ⟨[[(25317772730695356, 0), (0, 380589845943490), (124599697832, 0), (599014195, 0), (936577, 0)],
    [(374764265682378, 0), (0, 370641303772), (0, 1241938079), (0, 1456762), (0, 1214)], [(111274828912, 0),
    (980581550, 0), (0, 29204), (0, 146)], [(0, 306273476), (1099442, 0), (254, 0)]], 3, 4⟩, 281474976710656,
    32644603774,
    10804524362770740709509675977359607204115597559142249595179471677575690890402051450715243448066244176872540037627434621485539815803827194430,
    lc0⟩)) (.sx (.leaf ⟨844, 16, 2360, 995, 16, 2621, ⟨[[(410625980171943936, 0), (94085987548395064, 0), (0,
    3479638584634), (184961827, 0), (0, 9600)], [(0, 10335145861534891), (1716125978052, 0), (115297407, 0), (7316,
    0)], [(457114795567, 0), (190882235, 0), (29074, 0), (3, 0)], [(47085317, 0), (24651, 0), (5, 0)]], 3, 4⟩,
    ⟨[[(3631800606654464, 0), (92062262818307289, 0), (0, 5931752323196), (473033943, 0), (0, 38616)],
    [(12611145865282759, 0), (1679213291346, 0), (66725784, 0), (6084, 0)], [(635410070202, 0), (186776490, 0),
    (23322, 0), (2, 0)], [(54511669, 0), (24121, 0), (5, 0)]], 3, 4⟩, 1152921504606846976, 3364691103245,
    5018824216231, ⟨[[(27146139078857496, 0), (0, 368731021082601), (120405566845, 0), (568597205, 0), (856412, 0)],
    [(360844211504836, 0), (0, 345405059412), (0, 1203038312), (0, 1351326), (0, 1097)], [(101123017598, 0),
    (972753792, 0), (0, 13835), (0, 133)], [(0, 306845605), (1011853, 0), (239, 0)]], 3, 4⟩, 281474976710656,
    29982103620,
    11056304585306792765424739309914943553619416125123742354497288484308241106984949013682213316550854309372921691904742073369851727129619449512,
    lc0⟩) (.leaf ⟨840, 16, 2353, 991, 16, 2604, ⟨[[(0, 331428478817533952), (94232496031375781, 0), (0,
    3439719477097), (186342287, 0), (0, 9539)], [(0, 10075326282418138), (1807673926491, 0), (130009408, 0), (8696,
    0)], [(491899535841, 0), (209459070, 0), (33355, 0), (3, 0)], [(52714526, 0), (28249, 0), (7, 0)]], 3, 4⟩,
    ⟨[[(244612390971506688, 0), (91880093228891657, 0), (0, 5875809057705), (471545257, 0), (0, 38389)],
    [(12844770942055532, 0), (1762547485085, 0), (78384835, 0), (7045, 0)], [(672875949869, 0), (204230172, 0),
    (26916, 0), (2, 0)], [(60510633, 0), (27544, 0), (6, 0)]], 3, 4⟩, 1152921504606846976, 3605091091836,
    5315395238740, ⟨[[(25696117130745916, 0), (0, 369996045312305), (128127353288, 0), (590571510, 0), (891646, 0)],
    [(360740966854219, 0), (0, 357659096646), (0, 1232590608), (0, 1392783), (0, 1139)], [(105514970883, 0),
    (980252467, 0), (0, 16216), (0, 140)], [(0, 304442672), (1026705, 0), (245, 0)]], 3, 4⟩, 281474976710656,
    30238741643,
    10800359571215289349545968017888852526765168866015080007514654195573346077712089546341320540839042369999293451117083055158333429214042589758,
    lc0⟩))) (.sy (.leaf ⟨730, 16, 2126, 849, 16, 2288, ⟨[[(0, 549644323459694592), (87967983729824142, 0), (0,
    3247554435196), (183853057, 0), (0, 8897)], [(0, 18734577742806968), (3371823735392, 0), (262577762, 0), (19939,
    0)], [(1713729822498, 0), (781177216, 0), (134456, 0), (15, 0)], [(371908498, 0), (211758, 0), (54, 0)]], 3, 4⟩,
    ⟨[[(348873236969160704, 0), (85070576106884348, 0), (0, 5598069034336), (467470294, 0), (0, 38681)],
    [(22313454536498007, 0), (3260765741564, 0), (159733725, 0), (15968, 0)], [(2338591560168, 0), (755447528, 0),
    (108205, 0), (11, 0)], [(424234557, 0), (204784, 0), (46, 0)]], 3, 4⟩, 1152921504606846976, 38953107441464,
    44589812814950, ⟨[[(23190755418842560, 0), (0, 415114905312513), (160288313804, 0), (808828575, 0), (1376979,
    0)], [(401414497613109, 0), (0, 452145999986), (0, 1623018710), (0, 2083966), (0, 1903)], [(135063927487, 0),
    (1234236888, 0), (0, 45149), (0, 231), (0, 1)], [(0, 371714922), (1498729, 0), (380, 0)]], 3, 4⟩,
    281474976710656, 43834558806,
    9967243070192114101062240825653720041142597506174769725234843774230530395236367557601194934259489320074238371184823932536582693561624055251,
    lc0⟩) (.leaf ⟨779, 16, 2192, 901, 16, 2357, ⟨[[(410388152866570240, 0), (88423125806419699, 0), (0,
    3155987800524), (176971333, 0), (0, 8807)], [(0, 18065349806544803), (3673653234328, 0), (292699856, 0), (21313,
    0), (1, 0)], [(2066479098672, 0), (908216547, 0), (155285, 0), (17, 0)], [(467072967, 0), (260659, 0), (66, 0)]],
    3, 4⟩, ⟨[[(0, 87352765322493952), (83769625850400885, 0), (0, 5289234687542), (429441278, 0), (0, 34762)],
    [(24182915988948764, 0), (3480317554227, 0), (181766737, 0), (16373, 0)], [(2695635346985, 0), (860419259, 0),
    (123496, 0), (12, 0)], [(517002445, 0), (246941, 0), (55, 0)]], 3, 4⟩, 1152921504606846976, 49872279893873,
    54908026793733, ⟨[[(22706304118718832, 0), (0, 405923440722900), (171851742119, 0), (825074348, 0), (1364860,
    0)], [(384608270524732, 0), (0, 445923171612), (0, 1639142487), (0, 2043867), (0, 1847)], [(130454959708, 0),
    (1232885346, 0), (0, 29396), (0, 229), (0, 1)], [(0, 362811818), (1398829, 0), (370, 0)]], 3, 4⟩,
    281474976710656, 40168546500,
    9988839620147619477277995641882017091110731966111392058031018567482788414270275744511713931472665394128577610381357532837565228166561287635,
    lc0⟩))) (.sx (.sy (.sx (.leaf ⟨897, 16, 2427, 1060, 16, 2718, ⟨[[(377242409139568640, 0), (94320402752958101, 0),
    (0, 3385858354029), (176676792, 0), (0, 9461)], [(0, 9996013384837194), (1850631042812, 0), (126557178, 0),
    (7690, 0)], [(542577404523, 0), (218238488, 0), (32803, 0), (3, 0)], [(58018713, 0), (29581, 0), (6, 0)]], 3, 4⟩,
    ⟨[[(199936210699026432, 0), (91337107320205733, 0), (0, 5664383469558), (438034586, 0), (0, 35095)],
    [(13696089920354867, 0), (1792096738711, 0), (75746797, 0), (6176, 0)], [(729763060952, 0), (211335741, 0),
    (26245, 0), (2, 0)], [(65906842, 0), (28646, 0), (6, 0)]], 3, 4⟩, 1152921504606846976, 3776713450343,
    5222002095017, ⟨[[(27221774133696104, 0), (0, 358479034491665), (124129748302, 0), (561798302, 0), (819484, 0)],
    [(347183112871341, 0), (0, 334290548781), (0, 1192733452), (0, 1295441), (0, 1034)], [(96272495772, 0),
    (966686092, 0), (0, 3478), (0, 129)], [(0, 302131136), (943694, 0), (229, 0)]], 3, 4⟩, 281474976710656,
    27686784559,
    10876634121849362670703267066895030529425621080339633056203000740128035294431849455187031073054610448851259914966828800058976547016201931326,
    lc0⟩) (.leaf ⟨893, 16, 2420, 1056, 16, 2699, ⟨[[(0, 374463397444583424), (94508100884253948, 0), (0,
    3343542866383), (178200871, 0), (0, 9397)], [(0, 9694747161689833), (1956060928352, 0), (143232067, 0), (9194,
    0)], [(585649927728, 0), (240672751, 0), (37876, 0), (4, 0)], [(65257257, 0), (34167, 0), (8, 0)]], 3, 4⟩, ⟨[[(0,
    398084165200510976), (91141985517142730, 0), (0, 5604976529516), (436582108, 0), (0, 34866)],
    [(13963039848600599, 0), (1886391485327, 0), (88860215, 0), (7212, 0)], [(775033436439, 0), (232100658, 0),
    (30464, 0), (3, 0)], [(73463513, 0), (32950, 0), (7, 0)]], 3, 4⟩, 1152921504606846976, 4175540429025,
    5641853551024, ⟨[[(25502201207432236, 0), (0, 359633250773208), (133545060527, 0), (587235289, 0), (858788, 0)],
    [(346737126041572, 0), (0, 348697857686), (0, 1226716419), (0, 1341074), (0, 1079)], [(101441932560, 0),
    (975036014, 0), (0, 5919), (0, 137)], [(0, 299200531), (958486, 0), (235, 0)]], 3, 4⟩, 281474976710656,
    27915335181,
    10571457958295614050783021953043207285923779020235950070027573525654801417299338449230103528263522006411201561483745351884774123749550524990,
    lc0⟩)) (.leaf ⟨888, 16, 2332, 1015, 16, 2533, ⟨[[(510673969093279744, 0), (88641198969648696, 0), (0,
    3065478130891), (158276626, 0), (0, 8667)], [(0, 17638573368965010), (3847743527714, 0), (276209034, 0), (16556,
    0)], [(2494488372423, 0), (981026173, 0), (148662, 0), (13, 0)], [(566378149, 0), (285785, 0), (63, 0)]], 3, 4⟩,
    ⟨[[(0, 324087400333312000), (81781188257451950, 0), (0, 4863580541801), (365972186, 0), (0, 28777)],
    [(27085025719289890, 0), (3549963690294, 0), (166482727, 0), (12292, 0)], [(3115298772516, 0), (905103801, 0),
    (114631, 0), (9, 0)], [(606883337, 0), (263668, 0), (51, 0)]], 3, 4⟩, 1152921504606846976, 61370653302204,
    65281051042209, ⟨[[(26126404560627904, 0), (0, 386362606906648), (163459368263, 0), (773158168, 0), (1214758,
    0)], [(356475925144319, 0), (0, 393688804786), (0, 1571868461), (0, 1840001), (0, 1607)], [(108619473099, 0),
    (1215165145, 0), (5068, 0), (0, 202)], [(0, 358741647), (1198268, 0), (331, 0)]], 3, 4⟩, 281474976710656,
    33782315467,
    10274595652901416501130928727008254730998375480154119773810072229697107477480838519834322738149488839326381956794635857580053972876733337043,
    lc0⟩)) (.sy (.leaf ⟨831, 16, 2259, 951, 16, 2421, ⟨[[(0, 573843777015119872), (88914607970103600, 0), (0,
    3067528802867), (169947252, 0), (0, 8684)], [(0, 17254547693857242), (4005272203395, 0), (325170552, 0), (22858,
    0), (1, 0)], [(2477585661140, 0), (1054453570, 0), (178751, 0), (19, 0)], [(584127694, 0), (320092, 0), (80,
    0)]], 3, 4⟩, ⟨[[(0, 61229312406978560), (82397418804046444, 0), (0, 4994811184126), (394298348, 0), (0, 31277)],
    [(26114337833843564, 0), (3711697084447, 0), (204391313, 0), (16896, 0)], [(3094225138402, 0), (977165107, 0),
    (140127, 0), (13, 0)], [(627150066, 0), (296630, 0), (66, 0)]], 3, 4⟩, 1152921504606846976, 64031730840335,
    68071960704685, ⟨[[(23036443357743536, 0), (0, 398524383144577), (179577970838, 0), (839082466, 0), (1359369,
    0)], [(369221707093530, 0), (0, 435275517829), (0, 1655873072), (0, 2016519), (0, 1810)], [(123916520977, 0),
    (1237179028, 0), (0, 13753), (0, 227), (0, 1)], [(0, 357398095), (1311748, 0), (360, 0)]], 3, 4⟩,
    281474976710656, 36966126270,
    9946834793061370501541946494377221917419944062123534452343724510737552574328701165919035547239317678955128692523548392926480985227371105747,
    lc0⟩) (.leaf ⟨883, 16, 2328, 1000, 16, 2481, ⟨[[(411492515496329216, 0), (89480447791334312, 0), (0,
    2983807474060), (162894575, 0), (0, 8543)], [(0, 16294844659842915), (4370959161252, 0), (360349446, 0), (24539,
    0), (1, 0)], [(2957002352859, 0), (1222889350, 0), (205338, 0), (21, 0)], [(728066549, 0), (392396, 0), (97,
    0)]], 3, 4⟩, ⟨[[(0, 439307373959446528), (80999639890040692, 0), (0, 4716898387176), (361973400, 0), (0, 28189)],
    [(28119225418281273, 0), (3956686927418, 0), (227723460, 0), (17490, 0)], [(3539573612499, 0), (1106985933, 0),
    (158326, 0), (15, 0)], [(757825211, 0), (355205, 0), (79, 0)]], 3, 4⟩, 1152921504606846976, 82401164138526,
    84717315787638, ⟨[[(22598173929331084, 0), (0, 390904099175809), (190890922016, 0), (861082060, 0), (1369763,
    0)], [(353860811627440, 0), (0, 430604966057), (0, 1675969913), (0, 2001238), (0, 1787)], [(119910689118, 0),
    (1232100576, 0), (0, 2218), (0, 229), (0, 1)], [(0, 346675778), (1228243, 0), (348, 0)]], 3, 4⟩, 281474976710656,
    33882548862,
    9172901788054853207093080668957401663631082744825972577854151144690139016261213377609290186257308667901294477386949531208899962853270900179,
    lc0⟩)))) (.sy (.sx (.sy (.leaf ⟨943, 16, 2403, 1064, 16, 2595, ⟨[[(0, 125157342072668160), (89187223417592627,
    0), (0, 2994020736400), (150885439, 0), (0, 8514)], [(0, 16752283613568878), (4170437931567, 0), (302714119, 0),
    (17390, 0)], [(2943592109024, 0), (1123106546, 0), (167568, 0), (14, 0)], [(695007954, 0), (343114, 0), (74,
    0)]], 3, 4⟩, ⟨[[(547375904125091840, 0), (80427986150563746, 0), (0, 4609739472583), (336135196, 0), (0, 26029)],
    [(29042314158342191, 0), (3760851738049, 0), (183682394, 0), (12398, 0)], [(3530866041219, 0), (1012804237, 0),
    (127062, 0), (9, 0)], [(723015234, 0), (309416, 0), (60, 0)]], 3, 4⟩, 1152921504606846976, 77182170888765,
    79478572320301, ⟨[[(26609723172694988, 0), (0, 379862790255805), (167730557817, 0), (782191753, 0), (1211669,
    0)], [(342547749294060, 0), (0, 381093590602), (0, 1578684090), (0, 1815654), (0, 1577)], [(101943389548, 0),
    (1209434735, 0), (16323, 0), (0, 201)], [(0, 350223004), (1121276, 0), (318, 0)]], 3, 4⟩, 281474976710656,
    30991129930,
    9116584327971565895844457099837648928516780389718118258776076613920410004756352436516330431872862407467419628685903169390027341729181617619,
    lc0⟩) (.leaf ⟨1000, 16, 2477, 1112, 16, 2652, ⟨[[(0, 559952868645404672), (89829045838558506, 0), (0,
    2929260109481), (143537972, 0), (0, 8362)], [(0, 15724568739533282), (4523908768152, 0), (330978465, 0), (18125,
    0)], [(3461225850984, 0), (1284072375, 0), (188528, 0), (16, 0)], [(850024307, 0), (411126, 0), (88, 0)]], 3, 4⟩,
    ⟨[[(369565085360979968, 0), (79018733579410239, 0), (0, 4369080754366), (308450410, 0), (0, 23574)],
    [(31048984750280399, 0), (3979487239914, 0), (200883015, 0), (12389, 0)], [(3987014932152, 0), (1129543033, 0),
    (140219, 0), (10, 0)], [(857359095, 0), (361650, 0), (69, 0)]], 3, 4⟩, 1152921504606846976, 97045880971879,
    96719394212449, ⟨[[(26670721567642572, 0), (0, 373713015265958), (174420685289, 0), (799491671, 0), (1225326,
    0)], [(328663520736884, 0), (0, 372368681439), (0, 1592889099), (0, 1806773), (0, 1563)], [(96807881375, 0),
    (1200779217, 0), (25167, 0), (0, 202)], [(0, 339005645), (1049401, 0), (305, 0)]], 3, 4⟩, 281474976710656,
    28360801480,
    7645200146509305453472764863829029605091371853974441473326075754468759539538980475472875148020299876184886759491237250580760640660797803987,
    lc0⟩)) (.leaf ⟨507, 16, 1277, 594, 16, 1423, ⟨[[(0, 545644057493372928), (94872416348649332, 0), (0,
    6014296178982), (638818080, 0), (0, 69891)], [(0, 7623144143045520), (5233097357088, 0), (878032286, 0), (114143,
    0), (6, 0)], [(2006984033150, 0), (1598207744, 0), (528879, 0), (107, 0)], [(528296802, 0), (556952, 0), (272,
    0)]], 3, 4⟩, ⟨[[(0, 145113372643033088), (87560241887304183, 0), (0, 9614289364329), (1413119467, 0), (0,
    215001)], [(17356926053678465, 0), (4829762833515, 0), (586217084, 0), (81683, 0), (1, 0)], [(2389771152005, 0),
    (1475027853, 0), (419663, 0), (77, 0)], [(555075383, 0), (514025, 0), (227, 0)]], 3, 4⟩, 1152921504606846976,
    179601035138487, 239054613660755, ⟨[[(23086577531869620, 0), (0, 687986290056139), (655101647145, 0),
    (5209367691, 0), (14688197, 0)], [(634656232977040, 0), (0, 1429950710228), (0, 10555719883), (0, 22215424), (0,
    35565)], [(403630151273, 0), (8056654953, 0), (173895, 0), (0, 4936), (0, 19)], [(0, 2318945271), (13961792, 0),
    (7449, 0), (8, 0)]], 3, 4⟩, 281474976710656, 410819125431,
    8860237807878051684139322206042596966045612628407292164969913352384368694315719659664140275916431500920785130433699268115064701334241562067,
    lc0⟩)) (.sx (.leaf ⟨569, 16, 1356, 663, 16, 1533, ⟨[[(218618106806534144, 0), (95108597872676337, 0), (0,
    5948871525421), (554369232, 0), (0, 68312)], [(0, 7256634469347937), (5350016566753, 0), (787207571, 0), (78756,
    0), (0, 2)], [(2293557796563, 0), (1637182864, 0), (469211, 0), (75, 0)], [(597674213, 0), (561930, 0), (235,
    0)]], 3, 4⟩, ⟨[[(229620020185137152, 0), (86330311142638668, 0), (0, 9064047194000), (1216404807, 0), (0,
    183299)], [(19188717849920935, 0), (4856223361050, 0), (508430592, 0), (53977, 0), (0, 4)], [(2670711157179, 0),
    (1486074962, 0), (362829, 0), (51, 0)], [(617052552, 0), (510065, 0), (192, 0)]], 3, 4⟩, 1152921504606846976,
    168131307995545, 207210091557249, ⟨[[(26407763132206388, 0), (0, 650052132722163), (590104944621, 0),
    (4699541051, 0), (12693663, 0)], [(590123156746520, 0), (0, 1235204327140), (0, 9800410993), (0, 19489753), (0,
    29888)], [(331613390900, 0), (7684427939, 0), (400933, 0), (0, 4261), (0, 16)], [(0, 2230094614), (11812659, 0),
    (6311, 0), (6, 0)]], 3, 4⟩, 281474976710656, 342497767202,
    7886542042487474565757556571528182522206426523521010425257889764128945628265371602945343018688229499757812600985827438002105204399698759123,
    lc0⟩) (.leaf ⟨564, 16, 1347, 652, 16, 1498, ⟨[[(25764086326624256, 0), (95867427068360622, 0), (0,
    5689061771329), (575023149, 0), (0, 67721)], [(0, 5990323648949741), (6213522326079, 0), (1056786230, 0),
    (127938, 0), (4, 0)], [(2780460710228, 0), (2120688708, 0), (689065, 0), (138, 0)], [(802118008, 0), (824575, 0),
    (397, 0)]], 3, 4⟩, ⟨[[(154435639394435072, 0), (85600509774409775, 0), (0, 8713057671605), (1205087357, 0), (0,
    179714)], [(20130544202494557, 0), (5548085464188, 0), (708124382, 0), (87031, 0)], [(3116935950209, 0),
    (1893573657, 0), (534898, 0), (97, 0)], [(806155514, 0), (736267, 0), (323, 0)]], 3, 4⟩, 1152921504606846976,
    230193409741654, 264801110330205, ⟨[[(22947015268063772, 0), (0, 658189655821372), (694927337215, 0),
    (5298388250, 0), (14560979, 0)], [(587710437359243, 0), (0, 1378541137076), (0, 10597560158), (0, 21569343), (0,
    33897)], [(377155844690, 0), (7927271964, 0), (341240, 0), (0, 4948), (0, 18)], [(0, 2200700076), (12357820, 0),
    (6805, 0), (7, 0)]], 3, 4⟩, 281474976710656, 353359943793,
    5536609894753927532529720306209425149344172644704775459987427924945588570213751169713731877863369298402460313587984053161601694379398024659,
    lc0⟩)))
theorem c6 : checkC job ⟨6, 8, 6, 7, 9, 13⟩ 3 200 B1.zlims t6 289 121 160 1367 175 1896 = true := by decide +kernel

def t7 : CTree :=
  .sy (.sx (.sx (.leaf ⟨648, 16, 1471, 788, 16, 1758, ⟨[[(495130041993396224, 0), (98484378760479808, 0), (0,
    5929683366484), (497395354, 0), (0, 67938)], [(0, 3053598521762566), (3089563782417, 0), (435729280, 0), (33892,
    0), (0, 5)], [(754850021454, 0), (505860110, 0), (136180, 0), (20, 0)], [(103373924, 0), (91738, 0), (36, 0)]],
    3, 4⟩, ⟨[[(331540155668234240, 0), (91847818538349094, 0), (0, 9110689809466), (1127653953, 0), (0, 168971)],
    [(11794518729953221, 0), (2881367555156, 0), (294039768, 0), (22292, 0), (0, 5)], [(887072610913, 0), (471771748,
    0), (108612, 0), (14, 0)], [(108928797, 0), (85556, 0), (30, 0)]], 3, 4⟩, 1152921504606846976, 39079686499732,
    65923431483601, ⟨[[(27203374356043188, 0), (0, 571647078462432), (500370857153, 0), (3607419311, 0), (8766996,
    0)], [(533296182711407, 0), (0, 1027607555449), (0, 7923648354), (0, 14023534), (0, 19291)], [(280363838092, 0),
    (6488540781, 0), (408974, 0), (0, 3030), (0, 10)], [(0, 1938248696), (8764836, 0), (4368, 0), (4, 0)]], 3, 4⟩,
    281474976710656, 255130251367,
    10178400999882155614655910707648206807729142933284507723089240828987117365683369839187968195468342137457815473416768993953205092547550263641,
    lc0⟩) (.leaf ⟨644, 16, 1463, 783, 16, 1740, ⟨[[(351606247624278016, 0), (98723208989132578, 0), (0,
    5784083149592), (504148833, 0), (0, 68586)], [(0, 2654563613861332), (3333465578711, 0), (505860102, 0), (45075,
    0), (0, 4)], [(831709964425, 0), (576748962, 0), (165585, 0), (28, 0)], [(120791841, 0), (112483, 0), (48, 0)]],
    3, 4⟩, ⟨[[(0, 331260203481694208), (91626159587101994, 0), (0, 8940223388124), (1122363291, 0), (0, 168400)],
    [(12118662334615239, 0), (3093828211426, 0), (348885044, 0), (30107, 0), (0, 4)], [(962666367375, 0), (535287426,
    0), (132814, 0), (20, 0)], [(126003856, 0), (104397, 0), (40, 0)]], 3, 4⟩, 1152921504606846976, 41463401393147,
    68050794881260, ⟨[[(25182649458167752, 0), (0, 573797925845633), (549478896075, 0), (3841284645, 0), (9405771,
    0)], [(532641940848321, 0), (0, 1100538501486), (0, 8268041256), (0, 14789546), (0, 20572)], [(306545647498, 0),
    (6617169770, 0), (385887, 0), (0, 3290), (0, 10)], [(0, 1935709637), (9021788, 0), (4562, 0), (4, 0)]], 3, 4⟩,
    281474976710656, 260852474784,
    3937406002758784660637996305122541555921288830680268240508836772718684855603628469965699700470369909747409485912310148186350630900825912771,
    lc0⟩)) (.leaf ⟨625, 16, 1421, 708, 16, 1565, ⟨[[(108245423829680128, 0), (97143852965085828, 0), (0,
    5415999475573), (509781520, 0), (0, 67328)], [(0, 3882796656085428), (7385469573678, 0), (1258897945, 0),
    (138394, 0)], [(3811867372707, 0), (2803563948, 0), (897307, 0), (180, 0)], [(1207941919, 0), (1215972, 0), (579,
    0)]], 3, 4⟩, ⟨[[(0, 544907150889451520), (83489312878477055, 0), (0, 7909468738695), (1022155034, 0), (0,
    152540)], [(23154103582212109, 0), (6347367961747, 0), (834501853, 0), (88710, 0), (0, 3)], [(4021787327900, 0),
    (2409494997, 0), (677250, 0), (125, 0)], [(1157276259, 0), (1045055, 0), (457, 0)]], 3, 4⟩, 1152921504606846976,
    330395436621164, 339703894203629, ⟨[[(22521965964029636, 0), (0, 631952722283428), (745366530023, 0),
    (5510092485, 0), (14950875, 0)], [(543147555111141, 0), (0, 1347556687700), (0, 10761230863), (0, 21413450), (0,
    33153)], [(357360383505, 0), (7785149523, 0), (440741, 0), (0, 5056), (0, 17)], [(0, 2063107646), (10982564, 0),
    (6212, 0), (6, 0)]], 3, 4⟩, 281474976710656, 304574119134,
    4398065262780568801225825360043456127339477500794048643634402871184867251194703154627476698767812485082515281296245650686724321562102125822,
    lc0⟩)) (.sx (.sy (.leaf ⟨1324, 16, 2905, 1319, 16, 2862, ⟨[[(0, 333480955875950592), (94674464614159705, 0), (0,
    2719175695946), (106506529, 0), (0, 8117)], [(0, 7855648806319508), (6854325136947, 0), (492696469, 0), (16264,
    0), (0, 2)], [(7478376685345, 0), (2468022077, 0), (335309, 0), (26, 0)], [(2239828231, 0), (994703, 0), (200,
    0)]], 3, 4⟩, ⟨[[(0, 372789226204561408), (71356143357554278, 0), (0, 3357676560549), (196390312, 0), (0, 14917)],
    [(41754800812803334, 0), (5166104810675, 0), (276630661, 0), (7960, 0), (0, 2)], [(6962716105438, 0),
    (1860148223, 0), (218618, 0), (15, 0)], [(1890933932, 0), (749708, 0), (137, 0)]], 3, 4⟩, 1152921504606846976,
    303596925908803, 252855331900279, ⟨[[(26352125518954248, 0), (0, 351196338647218), (214516952339, 0), (953220428,
    0), (1457975, 0)], [(264667327983823, 0), (0, 340799415687), (0, 1700858807), (0, 1880617), (0, 1620)],
    [(76102531829, 0), (1120962490, 0), (48033, 0), (0, 219)], [(0, 267415838), (743747, 0), (239, 0)]], 3, 4⟩,
    281474976710656, 17765127409,
    9799874093760895376787969994204312135034426716450262418993686207797264410726582978074027226363209615607397392065194653119654497542936475993,
    lc0⟩) (.leaf ⟨1399, 16, 3006, 1353, 16, 2889, ⟨[[(205552251676655616, 0), (96035540096795911, 0), (0,
    2704132098332), (98548854, 0), (0, 8275)], [(0, 5583205823976655), (7455327652179, 0), (525868073, 0), (13549,
    0), (0, 3)], [(8675894723200, 0), (2806787145, 0), (376131, 0), (29, 0)], [(2704476726, 0), (1184237, 0), (236,
    0)]], 3, 4⟩, ⟨[[(0, 426036050361581568), (69727096777145233, 0), (0, 3191940571497), (178075797, 0), (0, 13790)],
    [(44008435555157931, 0), (5412978905360, 0), (286432515, 0), (5556, 0), (0, 2)], [(7713291519699, 0),
    (2037882212, 0), (237184, 0), (16, 0)], [(2191313547, 0), (859821, 0), (156, 0)]], 3, 4⟩, 1152921504606846976,
    380684268519781, 304317279692385, ⟨[[(26215669249685628, 0), (0, 348138641678318), (224406511779, 0),
    (1000322025, 0), (1541421, 0)], [(252796296125162, 0), (0, 336452881558), (0, 1729414569), (0, 1915289), (0,
    1652)], [(72679885185, 0), (1098037064, 0), (49356, 0), (0, 223)], [(0, 251214344), (690843, 0), (225, 0)]], 3,
    4⟩, 281474976710656, 16124467195,
    9959017680082461279743173473232224124435634202824785272543309469933575252982455392191068180280923276452560609604491419505304847693900953945,
    lc0⟩)) (.leaf ⟨690, 16, 1500, 759, 16, 1622, ⟨[[(446787695968124928, 0), (98728228077341281, 0), (0,
    5203807354664), (439850257, 0), (0, 69917)], [(0, 1201005229704763), (8779683315102, 0), (1480596298, 0),
    (141069, 0), (0, 8)], [(5184237920645, 0), (3697746766, 0), (1170466, 0), (237, 0)], [(1807932801, 0), (1788262,
    0), (843, 0)]], 3, 4⟩, ⟨[[(0, 309361777736810496), (81155290280696592, 0), (0, 7194520693027), (857105172, 0),
    (0, 132495)], [(26409733642851235, 0), (7216960760721, 0), (957662104, 0), (83471, 0), (0, 9)], [(5134132911562,
    0), (3039573565, 0), (852880, 0), (160, 0)], [(1642810486, 0), (1469964, 0), (640, 0)]], 3, 4⟩,
    1152921504606846976, 501483275279637, 472409232334746, ⟨[[(22513930118477728, 0), (0, 610838681801860),
    (790108021929, 0), (5788249275, 0), (15680523, 0)], [(502310911434287, 0), (0, 1312489310511), (0, 10963295557),
    (0, 21522136), (0, 32915)], [(334905475501, 0), (7614571136, 0), (499852, 0), (0, 5148), (0, 16)], [(0,
    1917493683), (9762664, 0), (5645, 0), (5, 0)]], 3, 4⟩, 281474976710656, 262974097044,
    8484990201835635441396433993088328706492052669540969851084267310185766202996769173162193601728834107038175165340647664943516254796686873854,
    lc0⟩))
theorem c7 : checkC job ⟨6, 8, 6, 7, 9, 13⟩ 3 200 B1.zlims t7 289 121 160 3259 175 3792 = true := by decide +kernel

def t8 : CTree :=
  .sy (.sx (.sx (.leaf ⟨777, 16, 1619, 933, 16, 1951, ⟨[[(0, 167976196189454336), (99961544303414149, 0), (0,
    5588114367681), (348746151, 0), (0, 69072)], [(0, 734506814613394), (4115829521797, 0), (531698450, 0), (6096,
    0), (0, 19)], [(1302039200544, 0), (801955536, 0), (202690, 0), (29, 0)], [(207574903, 0), (172933, 0), (65,
    0)]], 3, 4⟩, ⟨[[(0, 281718993554898944), (89381837487782520, 0), (0, 7969020386257), (814736137, 0), (0,
    130870)], [(15494372874219012, 0), (3680219308417, 0), (353041180, 0), (0, 4044), (0, 16)], [(1415678271831, 0),
    (717078352, 0), (157392, 0), (20, 0)], [(206659633, 0), (154630, 0), (53, 0)]], 3, 4⟩, 1152921504606846976,
    38213139471855, 50310130387282, ⟨[[(27209463829357372, 0), (0, 517941330337452), (515637754564, 0), (3569010392,
    0), (8370599, 0)], [(463103454624152, 0), (0, 934685709612), (0, 7727563193), (0, 12884024), (0, 16687)],
    [(245989104215, 0), (6095854529, 0), (451021, 0), (0, 2886), (0, 8)], [(0, 1720295156), (6915419, 0), (3458, 0),
    (2, 0)]], 3, 4⟩, 281474976710656, 191536846823,
    9794845593254492175689040038002904174196421996404454750208945310237143268532750803972228974816031429884467647327039660570405245130200332633,
    lc0⟩) (.leaf ⟨772, 16, 1609, 923, 16, 1923, ⟨[[(0, 33300728772558848), (100383269076857569, 0), (0,
    5412923819525), (349963564, 0), (0, 72943)], [(0, 64980938631717), (4509077762879, 0), (638700524, 0), (22923,
    0), (0, 17)], [(1459258408214, 0), (939100052, 0), (257512, 0), (42, 0)], [(250697434, 0), (222031, 0), (91,
    0)]], 3, 4⟩, ⟨[[(0, 405574940570550272), (89020591554120406, 0), (0, 7760545606793), (803402590, 0), (0,
    132672)], [(15985489831959364, 0), (3998681986614, 0), (433430354, 0), (7801, 0), (0, 15)], [(1558056063559, 0),
    (832800555, 0), (200669, 0), (30, 0)], [(246113473, 0), (196899, 0), (74, 0)]], 3, 4⟩, 1152921504606846976,
    45688750376587, 56272200160362, ⟨[[(25341430597748992, 0), (0, 521551542596518), (570921602223, 0), (3852073009,
    0), (9146892, 0)], [(462545669803257, 0), (0, 1011438684689), (0, 8142773491), (0, 13780855), (0, 18114)],
    [(271329338195, 0), (6260489540, 0), (436236, 0), (0, 3166), (0, 8)], [(0, 1726152157), (7170255, 0), (3652, 0),
    (3, 0)]], 3, 4⟩, 281474976710656, 197107413650,
    8737776997919935128681809439004076434850078968928923350730455912173496004455524461542850024633108771443783147045549658451306819450529009107,
    lc0⟩)) (.sy (.leaf ⟨1447, 16, 3047, 1328, 16, 2774, ⟨[[(519456336500490240, 0), (97587363832539756, 0), (0,
    2481519845525), (92869840, 0), (0, 9094)], [(2454239631823188, 0), (9735628612667, 0), (806133732, 0), (32680,
    0), (0, 2)], [(12675564485404, 0), (4432469545, 0), (697631, 0), (71, 0)], [(4754159488, 0), (2324621, 0), (545,
    0)]], 3, 4⟩, ⟨[[(572651942104006656, 0), (66310936146556167, 0), (0, 2810058584730), (155069106, 0), (0, 12742)],
    [(48522145792096383, 0), (6615391808195, 0), (435650888, 0), (15201, 0), (0, 2)], [(10250797096712, 0),
    (3011877701, 0), (422996, 0), (40, 0)], [(3551002393, 0), (1579588, 0), (343, 0)]], 3, 4⟩, 1152921504606846976,
    785270517625719, 579887143201720, ⟨[[(22941947745719728, 0), (0, 357813293540982), (291721411886, 0),
    (1290047388, 0), (2099756, 0)], [(243202317310364, 0), (0, 391722674128), (0, 2042983787), (0, 2385201), (0,
    2165)], [(82708852278, 0), (1177199655, 0), (50029, 0), (0, 292), (0, 1)], [(0, 244357739), (721454, 0), (253,
    0)]], 3, 4⟩, 281474976710656, 16425944377,
    9927116761771126179992066413925916641335522353345778953804673738026155749459217847736289461841683345649440999408827182488863942270609052926,
    lc0⟩) (.sx (.leaf ⟨1537, 16, 3172, 1671, 16, 3444, ⟨[[(139288991625117696, 0), (99185155928290778, 0), (0,
    2538844876087), (81651197, 0), (0, 9598)], [(2232661232154804, 0), (5070575138417, 0), (391073896, 0), (10677,
    0), (0, 2)], [(3473438782618, 0), (1167219465, 0), (174635, 0), (17, 0)], [(657962709, 0), (309133, 0), (69,
    0)]], 3, 4⟩, ⟨[[(0, 318763680780779520), (79447268782606079, 0), (0, 3329828874562), (170236448, 0), (0, 14802)],
    [(30765766863137999, 0), (4061528583929, 0), (246984503, 0), (4836, 0), (0, 2)], [(3303822071828, 0), (934942308,
    0), (124629, 0), (11, 0)], [(579033906, 0), (247615, 0), (51, 0)]], 3, 4⟩, 1152921504606846976, 53375427459116,
    46602990871834, ⟨[[(23645921197761668, 0), (0, 288980614973941), (195465907697, 0), (718009994, 0), (958800, 0)],
    [(231503819296165, 0), (0, 306395805411), (0, 1354114991), (0, 1287465), (0, 949)], [(75971197316, 0),
    (924557158, 0), (33860, 0), (0, 155)], [(0, 226500994), (534027, 0), (154, 0)]], 3, 4⟩, 281474976710656,
    12852600877,
    9901744844011436545064931586295346855997725357843970268291899224130505746672341622289451238055180452085135922515773786696443627638021263721,
    lc0⟩) (.leaf ⟨1499, 16, 3091, 1640, 16, 3368, ⟨[[(0, 569632389893980160), (97919315431197807, 0), (0,
    2370774106898), (83193139, 0), (0, 9711)], [(3935160331217068, 0), (5549914723025, 0), (476889012, 0), (20294,
    0), (0, 1)], [(3905163469518, 0), (1390508644, 0), (229354, 0), (25, 0)], [(800059537, 0), (401724, 0), (98,
    0)]], 3, 4⟩, ⟨[[(394059078102679552, 0), (78712512186289989, 0), (0, 3189975794462), (168366770, 0), (0, 14780)],
    [(31757516366750678, 0), (4461302944626, 0), (310559565, 0), (11377, 0), (0, 1)], [(3689117280348, 0),
    (1117761375, 0), (166129, 0), (17, 0)], [(702376440, 0), (322926, 0), (73, 0)]], 3, 4⟩, 1152921504606846976,
    69806189565726, 60754901804563, ⟨[[(22211563904443024, 0), (0, 293441288851257), (216290556724, 0), (790937868,
    0), (1079362, 0)], [(235844471237783, 0), (0, 336248538194), (0, 1478053098), (0, 1438376), (0, 1085)],
    [(84949291591, 0), (998258396, 0), (34820, 0), (0, 180)], [(0, 242287987), (592771, 0), (176, 0)]], 3, 4⟩,
    281474976710656, 14277814668,
    9743469163382896042057687805660611878013789014990339894703241610298975422777743046632233672413077768885499566062364012792633829669868197118,
    lc0⟩)))) (.sx (.sx (.leaf ⟨838, 16, 1681, 1003, 16, 2040, ⟨[[(0, 566928620937281536), (99848849308806676, 0), (0,
    5474896755529), (260680440, 0), (0, 73811)], [(800647463092586, 0), (4658434825625, 0), (541824511, 0), (0,
    28515), (0, 31)], [(1670432203565, 0), (991405640, 0), (243847, 0), (34, 0)], [(287363230, 0), (233124, 0), (86,
    0)]], 3, 4⟩, ⟨[[(0, 204774454053306368), (87916844104699541, 0), (0, 7534172265979), (672606293, 0), (0,
    120566)], [(17592790277715862, 0), (4101748704882, 0), (350476761, 0), (0, 33324), (0, 25)], [(1763761130913, 0),
    (872931994, 0), (187764, 0), (24, 0)], [(280015845, 0), (205265, 0), (70, 0)]], 3, 4⟩, 1152921504606846976,
    46584586336690, 53021415248451, ⟨[[(27395743053245364, 0), (0, 495690115866309), (520506803958, 0), (3595928213,
    0), (8352492, 0)], [(436296876497017, 0), (0, 903255676930), (0, 7745456380), (0, 12622221), (0, 15880)],
    [(235027508341, 0), (6004659495, 0), (449666, 0), (0, 2862), (0, 7)], [(0, 1655337440), (6343050, 0), (3163, 0),
    (2, 0)]], 3, 4⟩, 281474976710656, 172177833895,
    7537969184480867496275018427189286055459440874965686361191025620835643016528700381272185267868214706588489467966124723235794378039370201433,
    lc0⟩) (.leaf ⟨823, 16, 1651, 990, 16, 2006, ⟨[[(0, 214771104260947968), (99234625378533376, 0), (0,
    5233060501279), (251523295, 0), (0, 79605)], [(1633700219506384, 0), (5090816332889, 0), (664989962, 0), (0,
    7751), (0, 28)], [(1868929304534, 0), (1165509026, 0), (314067, 0), (52, 0)], [(349592546, 0), (303330, 0), (123,
    0)]], 3, 4⟩, ⟨[[(0, 194206216584429568), (87480984477634478, 0), (0, 7313318121039), (655061191, 0), (0,
    124402)], [(18190882991810486, 0), (4487845073201, 0), (447710482, 0), (0, 18467), (0, 23)], [(1956409901938, 0),
    (1027462709, 0), (245156, 0), (37, 0)], [(339013244, 0), (267403, 0), (100, 0)]], 3, 4⟩, 1152921504606846976,
    57689653617349, 62468520356645, ⟨[[(25510175214879752, 0), (0, 499887230542637), (581587977683, 0), (3917527221,
    0), (9233795, 0)], [(440611497113977, 0), (0, 997009714576), (0, 8307979500), (0, 13775449), (0, 17625)],
    [(267411190790, 0), (6332905108, 0), (446183, 0), (0, 3238), (0, 8)], [(0, 1721424293), (6833950, 0), (3478, 0),
    (2, 0)]], 3, 4⟩, 281474976710656, 185315459130,
    10302581831516934421027881533267241016717103686708610636367155743721849630423365868555008571951546338205570172163801377935028255281477995987,
    lc0⟩)) (.sy (.sx (.leaf ⟨1573, 16, 3185, 1716, 16, 3487, ⟨[[(445310752019972096, 0), (97835637738726137, 0), (0,
    2470345879523), (68205344, 0), (0, 10076)], [(4072318452724703, 0), (5369819072722, 0), (402394125, 0), (7647,
    0), (0, 3)], [(3920094434672, 0), (1301137219, 0), (193933, 0), (19, 0)], [(778251570, 0), (362881, 0), (81,
    0)]], 3, 4⟩, ⟨[[(0, 402640184743821312), (78140027742952501, 0), (0, 3201263735506), (151866482, 0), (0, 14331)],
    [(32619994708735835, 0), (4288803354435, 0), (253974004, 0), (2448, 0), (0, 2)], [(3692337219408, 0),
    (1039201059, 0), (138558, 0), (12, 0)], [(680694148, 0), (289828, 0), (60, 0)]], 3, 4⟩, 1152921504606846976,
    65751919113215, 56913475170031, ⟨[[(23566557524967244, 0), (0, 285039623364269), (202285981416, 0), (745893226,
    0), (1000756, 0)], [(227699234098639, 0), (0, 311810830316), (0, 1406532111), (0, 1335255), (0, 980)],
    [(77499503999, 0), (954628367, 0), (35109, 0), (0, 164)], [(0, 231912919), (540162, 0), (157, 0)]], 3, 4⟩,
    281474976710656, 12917338477,
    10195594276440377061362669186561059412547618396015472872587327889792673294968089825014586518785626508299604964765991168992335071737121968489,
    lc0⟩) (.leaf ⟨1530, 16, 3096, 1681, 16, 3402, ⟨[[(524196408746573824, 0), (96444416623935956, 0), (0,
    2294389216226), (69342100, 0), (0, 10283)], [(5946506226073579, 0), (5900528414326, 0), (498133803, 0), (18559,
    0), (0, 2)], [(4428207215361, 0), (1563268268, 0), (258034, 0), (29, 0)], [(954864744, 0), (476899, 0), (116,
    0)]], 3, 4⟩, ⟨[[(0, 344341123615948800), (77311556656667104, 0), (0, 3054432152321), (149579115, 0), (0, 14379)],
    [(33694232524147170, 0), (4729968335930, 0), (324965669, 0), (9901, 0), (0, 1)], [(4142847221985, 0),
    (1253143598, 0), (187148, 0), (20, 0)], [(833192475, 0), (382291, 0), (87, 0)]], 3, 4⟩, 1152921504606846976,
    86881354094594, 75163138886760, ⟨[[(21802963435179284, 0), (0, 289477837882327), (227809262820, 0), (832486878,
    0), (1143461, 0)], [(232097461993333, 0), (0, 347781241964), (0, 1550727368), (0, 1510265), (0, 1136)],
    [(88380702197, 0), (1037786548, 0), (35656, 0), (0, 194)], [(0, 249128140), (605699, 0), (181, 0)]], 3, 4⟩,
    281474976710656, 14492028896,
    10215532103996605405479956415963379128407743254429591163095299807751096877447941444461908594167760133615152966810362497826064369701188637033,
    lc0⟩)) (.sx (.leaf ⟨1608, 16, 3195, 1757, 16, 3524, ⟨[[(0, 162325729153646592), (96431529227495401, 0), (0,
    2413830081117), (53860446, 0), (0, 10721)], [(6020179175559240, 0), (5671598168975, 0), (409697594, 0), (3667,
    0), (0, 3)], [(4413886204696, 0), (1448533505, 0), (215290, 0), (21, 0)], [(918549999, 0), (425262, 0), (94,
    0)]], 3, 4⟩, ⟨[[(565187624252997632, 0), (76758437411764212, 0), (0, 3084605973774), (133528973, 0), (0, 14053)],
    [(34514646139838714, 0), (4514529807475, 0), (257700045, 0), (0, 622), (0, 2)], [(4116800756347, 0), (1153016750,
    0), (153895, 0), (14, 0)], [(798223721, 0), (338504, 0), (70, 0)]], 3, 4⟩, 1152921504606846976, 80676492167986,
    69439824554899, ⟨[[(23923656828367156, 0), (0, 282170451640002), (206594424063, 0), (773735037, 0), (1045522,
    0)], [(224556448706535, 0), (0, 314224521490), (0, 1462208910), (0, 1388397), (0, 1015)], [(77850325822, 0),
    (988927531, 0), (36992, 0), (0, 173)], [(0, 238815036), (548481, 0), (161, 0)]], 3, 4⟩, 281474976710656,
    13037848512,
    10258355230191091907289271574941813529837984787602093972145838020463126106203182750545702921822956571505357720519954327241215494955599761769,
    lc0⟩) (.leaf ⟨1560, 16, 3097, 1718, 16, 3431, ⟨[[(0, 5408792104140800), (94892674489364386, 0), (0,
    2230029310040), (54463024, 0), (0, 11034)], [(8076091741781700, 0), (6257781258616, 0), (516545736, 0), (16067,
    0), (0, 2)], [(5009846845420, 0), (1755451021, 0), (290204, 0), (33, 0)], [(1137122017, 0), (565090, 0), (136,
    0)]], 3, 4⟩, ⟨[[(434031333218975744, 0), (75867231049392982, 0), (0, 2932639183108), (130800614, 0), (0, 14186)],
    [(35691611415347809, 0), (5003131581640, 0), (337162067, 0), (7880, 0), (0, 2)], [(4644494106232, 0),
    (1403493040, 0), (210751, 0), (22, 0)], [(986525614, 0), (451792, 0), (102, 0)]], 3, 4⟩, 1152921504606846976,
    107728103434879, 92691181917713, ⟨[[(22103500433070792, 0), (0, 286938448547895), (234711807885, 0), (871237885,
    0), (1207683, 0)], [(229360759088969, 0), (0, 353796459728), (0, 1625952457), (0, 1587253), (0, 1192)],
    [(89798487560, 0), (1084077506, 0), (37774, 0), (0, 208)], [(0, 258713242), (621912, 0), (188, 0)]], 3, 4⟩,
    281474976710656, 14799416910,
    10612292908511912618395015273106345310730940012164653214842003853082026762448262356097159157360610043470463620423410073016090478916422963561,
    lc0⟩))))
theorem c8 : checkC job ⟨6, 8, 6, 7, 9, 13⟩ 3 200 B1.zlims t8 289 121 160 3609 175 3792 = true := by decide +kernel

def t9 : CTree :=
  .sy (.sy (.sy (.leaf ⟨639, 16, 1877, 712, 16, 1901, ⟨[[(69763487225348096, 0), (78846519749543807, 0), (0,
    2764759551097), (170871412, 0), (0, 7548)], [(0, 30592366709189632), (7126341754613, 0), (682031814, 0), (62039,
    0), (3, 0)], [(7755875969467, 0), (3775761419, 0), (756243, 0), (103, 0)], [(3713851421, 0), (2321954, 0), (691,
    0)]], 3, 4⟩, ⟨[[(0, 318451203913285632), (71756681999679968, 0), (0, 4589027720933), (394724915, 0), (0, 32083)],
    [(40210952052434174, 0), (6485544837377, 0), (433352445, 0), (45414, 0), (1, 0)], [(9585520747637, 0),
    (3436246931, 0), (588978, 0), (74, 0)], [(3921046038, 0), (2113165, 0), (568, 0)]], 3, 4⟩, 1152921504606846976,
    902277313613952, 925979495285113, ⟨[[(17429869297286156, 0), (0, 492724127464458), (275996029185, 0),
    (1511527559, 0), (3047237, 0)], [(448386730674082, 0), (0, 672811479698), (0, 2744595571), (0, 4230632), (0,
    4655)], [(194297600140, 0), (1861366319, 0), (0, 107853), (0, 567), (0, 2)], [(0, 500336095), (2606359, 0), (802,
    0), (1, 0)]], 3, 4⟩, 281474976710656, 72701991913,
    6747900447277519929852638339734852485225891572666170900967177263085754396853202649381324554227103350812535104423785226574350497495599684781,
    lc0⟩) (.leaf ⟨686, 16, 1943, 743, 16, 1927, ⟨[[(13218467559899136, 0), (79679256729658081, 0), (0,
    2681901561492), (166207472, 0), (0, 7431)], [(0, 28996860382204513), (7895279889692, 0), (775826268, 0), (68886,
    0), (4, 0)], [(9497181959062, 0), (4497336047, 0), (902193, 0), (122, 0)], [(4779747766, 0), (2960219, 0), (880,
    0)]], 3, 4⟩, ⟨[[(68984692248805376, 0), (69623502601690598, 0), (0, 4254488918422), (357627272, 0), (0, 28306)],
    [(43117708043039405, 0), (6898872586200, 0), (488551979, 0), (47930, 0), (2, 0)], [(11012194879045, 0),
    (3929759147, 0), (680468, 0), (85, 0)], [(4799700043, 0), (2586631, 0), (698, 0)]], 3, 4⟩, 1152921504606846976,
    1219702753975006, 1193638610751311, ⟨[[(17617512495419892, 0), (0, 490063187427605), (299575609948, 0),
    (1608997828, 0), (3212671, 0)], [(428222709679561, 0), (0, 668268023207), (0, 2847747231), (0, 4335058), (0,
    4800)], [(184987823637, 0), (1885240106, 0), (0, 77400), (0, 581), (0, 2)], [(0, 488636662), (2448543, 0), (799,
    0), (1, 0)]], 3, 4⟩, 281474976710656, 66350407034,
    7151466032496112402351018654490750403871526350089420850741683737197422711850228121219689210924276764359836290796544771649846055568353664173,
    lc0⟩)) (.sx (.leaf ⟨447, 16, 1202, 526, 16, 1315, ⟨[[(313981268258324480, 0), (94632497166053669, 0), (0,
    6142137786303), (727698861, 0), (0, 69962)], [(0, 8050168960556265), (5035010291517, 0), (950114538, 0), (152058,
    0), (14, 0)], [(1702507949164, 0), (1510346512, 0), (570660, 0), (141, 0)], [(443651360, 0), (520385, 0), (291,
    0)]], 3, 4⟩, ⟨[[(449061500696657920, 0), (88715876747056333, 0), (0, 10281135572419), (1643309871, 0), (0,
    253944)], [(15470813700669592, 0), (4720210982688, 0), (650060063, 0), (112313, 0), (7, 0)], [(2080468339433, 0),
    (1415916509, 0), (462793, 0), (105, 0)], [(474839450, 0), (487850, 0), (248, 0)]], 3, 4⟩, 1152921504606846976,
    204732168992614, 297246438535401, ⟨[[(19450929237183848, 0), (0, 728825809495536), (711495682696, 0),
    (5734485700, 0), (17014090, 0)], [(683510887628244, 0), (0, 1633115101938), (0, 11242626201), (0, 25235486), (0,
    42135)], [(480606112928, 0), (8276470856, 0), (0, 195349), (0, 5692), (0, 23)], [(0, 2346718441), (16389405, 0),
    (8570, 0), (11, 0)]], 3, 4⟩, 281474976710656, 488921142396,
    6278483657029553036931397434807143003285125168757191324147190081479812218769416482187719964158518205727163508382455737272040830634034779390,
    lc0⟩) (.leaf ⟨442, 16, 1192, 519, 16, 1289, ⟨[[(0, 37870184401141760), (95149291930529991, 0), (0,
    5825241916365), (768086527, 0), (0, 63961)], [(0, 7080940500175583), (5820957454771, 0), (1276202175, 0),
    (241649, 0), (33, 0)], [(2057873876523, 0), (1951744185, 0), (836835, 0), (247, 0)], [(588392626, 0), (754558,
    0), (476, 0)]], 3, 4⟩, ⟨[[(316657249077428224, 0), (88170232500749259, 0), (0, 9893167393678), (1644870855, 0),
    (0, 245921)], [(16241625635034495, 0), (5393998859591, 0), (907591454, 0), (178172, 0), (20, 0)],
    [(2427875431851, 0), (1808586644, 0), (683247, 0), (188, 0)], [(615118599, 0), (699213, 0), (406, 0)]], 3, 4⟩,
    1152921504606846976, 268555410237779, 358672444682954, ⟨[[(16057030340503810, 0), (0, 736006813444598),
    (819358188378, 0), (6379176609, 0), (19168747, 0)], [(682056912962055, 0), (0, 1783121039550), (0, 12076969592),
    (0, 27635619), (0, 47153)], [(526849924124, 0), (8518025139, 0), (0, 306761), (0, 6549), (0, 27)], [(0,
    2313131721), (17149935, 0), (9219, 0), (12, 0)]], 3, 4⟩, 281474976710656, 506003737081,
    8387981800214396473475456835353921718233804107474823788297317477437417773732580729865646466071283151300734473523496489826437960808296750253,
    lc0⟩))) (.sy (.sx (.leaf ⟨501, 16, 1268, 585, 16, 1392, ⟨[[(548993722209075200, 0), (95562819438786361, 0), (0,
    5725814829543), (669379847, 0), (0, 66757)], [(0, 6503283905686646), (6074723421757, 0), (1182453045, 0),
    (183406, 0), (18, 0)], [(2434183083905, 0), (2074295091, 0), (780141, 0), (193, 0)], [(703057466, 0), (810947,
    0), (451, 0)]], 3, 4⟩, ⟨[[(0, 430742425261572096), (86888424819638213, 0), (0, 9238432816879), (1407145244, 0),
    (0, 209195)], [(18215027582032403, 0), (5523310764910, 0), (818791382, 0), (130514, 0), (9, 0)], [(2791946735165,
    0), (1886007907, 0), (621800, 0), (142, 0)], [(719736230, 0), (737336, 0), (376, 0)]], 3, 4⟩,
    1152921504606846976, 244439471715282, 300405694984265, ⟨[[(18792363318997796, 0), (0, 693812776995978),
    (779560385057, 0), (5882774810, 0), (16809689, 0)], [(630998964088391, 0), (0, 1601133746080), (0, 11396053800),
    (0, 24498931), (0, 40133)], [(458922064291, 0), (8248304090, 0), (60630, 0), (0, 5760), (0, 22)], [(0,
    2255955423), (14560695, 0), (7994, 0), (9, 0)]], 3, 4⟩, 281474976710656, 422569304398,
    5169806471221493864522175653600057273384278293928731126100230497008104792097696891228136468954141673772818662400019017087574376720872023000,
    lc0⟩) (.sy (.leaf ⟨931, 16, 2396, 1001, 16, 2396, ⟨[[(291998345183363072, 0), (92709624844373770, 0), (0,
    2636183529957), (176929649, 0), (0, 7267)], [(0, 10975901394274450), (6576392317590, 0), (744361721, 0), (70477,
    0), (5, 0)], [(5291772036602, 0), (2459023419, 0), (531630, 0), (80, 0)], [(1654842097, 0), (1056848, 0), (334,
    0)]], 3, 4⟩, ⟨[[(568072092522119168, 0), (77418683717634434, 0), (0, 4039698872272), (327743845, 0), (0, 23481)],
    [(32944373179460701, 0), (5491723623013, 0), (491190116, 0), (46998, 0), (3, 0)], [(5489650755693, 0),
    (2053447597, 0), (395187, 0), (55, 0)], [(1542439261, 0), (882538, 0), (258, 0)]], 3, 4⟩, 1152921504606846976,
    255872639594699, 235140564855025, ⟨[[(15944181427174264, 0), (0, 398416961193900), (274191868864, 0),
    (1147777137, 0), (1884427, 0)], [(332759805780183, 0), (0, 509546899378), (0, 1990865630), (0, 2475987), (0,
    2339)], [(135989115531, 0), (1283775385, 0), (0, 7114), (0, 312), (0, 1)], [(0, 314197336), (1225308, 0), (384,
    0)]], 3, 4⟩, 281474976710656, 31453092980,
    7982596422509041382544357414056015442855865319962095972398697396905935612895151948357691546998100736621111864255572254438469909465378987181,
    lc0⟩) (.leaf ⟨992, 16, 2477, 1037, 16, 2426, ⟨[[(0, 520418513861738496), (94002038972239895, 0), (0,
    2538645706716), (172741842, 0), (0, 7021)], [(0, 8869933069564516), (7365103788064, 0), (850118862, 0), (80829,
    0), (6, 0)], [(6431438906316, 0), (2958976319, 0), (644008, 0), (98, 0)], [(2138890844, 0), (1363855, 0), (433,
    0)]], 3, 4⟩, ⟨[[(468656738792374272, 0), (75642840530579526, 0), (0, 3758595620045), (300589143, 0), (0, 20954)],
    [(35366046427888877, 0), (5926651989923, 0), (549654336, 0), (52173, 0), (4, 0)], [(6337618082509, 0),
    (2381069350, 0), (464221, 0), (66, 0)], [(1908932678, 0), (1097485, 0), (323, 0)]], 3, 4⟩, 1152921504606846976,
    349896751121422, 308265210619083, ⟨[[(16135826744174938, 0), (0, 395044658582249), (291012598284, 0),
    (1211643726, 0), (1991618, 0)], [(317832672431656, 0), (0, 505925329961), (0, 2048939227), (0, 2539018), (0,
    2412)], [(130196317328, 0), (1285744193, 0), (3851, 0), (0, 322), (0, 1)], [(0, 303575613), (1151128, 0), (374,
    0)]], 3, 4⟩, 281474976710656, 28785129248,
    8392189579439623288663311996738697664934670242726204161405221287142492173691458787360047815321973487898360553277721279862229599787933113517,
    lc0⟩))) (.sx (.leaf ⟨559, 16, 1337, 639, 16, 1458, ⟨[[(0, 302224749292421120), (96784418537962689, 0), (0,
    5346470162633), (611614516, 0), (0, 64508)], [(0, 4454006483127862), (7352424291579, 0), (1464168929, 0),
    (221159, 0), (21, 0)], [(3442278566960, 0), (2845109069, 0), (1068479, 0), (268, 0)], [(1107103310, 0), (1261128,
    0), (699, 0)]], 3, 4⟩, ⟨[[(0, 2728209755668480), (84740812476985917, 0), (0, 8277945374287), (1200534837, 0), (0,
    173800)], [(21214558816720820, 0), (6437507375214, 0), (1008735089, 0), (151483, 0), (11, 0)], [(3702321724188,
    0), (2491070956, 0), (829788, 0), (194, 0)], [(1078757436, 0), (1104197, 0), (565, 0)]], 3, 4⟩,
    1152921504606846976, 348207430364569, 372756533709217, ⟨[[(19503852309182132, 0), (0, 668188696871826),
    (820947695686, 0), (6059176022, 0), (17024766, 0)], [(584906240050108, 0), (0, 1541167481090), (0, 11587444484),
    (0, 24240960), (0, 39210)], [(424611144460, 0), (8238150287, 0), (272991, 0), (0, 5836), (0, 21)], [(0,
    2177270772), (13027228, 0), (7431, 0), (8, 0)]], 3, 4⟩, 281474976710656, 367429584123,
    5267217803942857184744376441281965768873224336936298722155825815567724125601905296749372129880425409547272378851084269007659525089893852120,
    lc0⟩) (.sy (.leaf ⟨1055, 16, 2563, 1070, 16, 2449, ⟨[[(264774210786426880, 0), (95491446088088757, 0), (0,
    2444333383901), (168897151, 0), (0, 6804)], [(0, 6399168314126824), (8268412363958, 0), (972290346, 0), (93062,
    0), (7, 0)], [(7812499286715, 0), (3567627003, 0), (782490, 0), (121, 0)], [(2766266722, 0), (1762657, 0), (561,
    0)]], 3, 4⟩, ⟨[[(35434777031737344, 0), (73812017023722502, 0), (0, 3490545148677), (275575576, 0), (0, 18716)],
    [(37865616929065844, 0), (6391234180333, 0), (612910940, 0), (58023, 0), (4, 0)], [(7299373271626, 0),
    (2757668418, 0), (545021, 0), (79, 0)], [(2357759454, 0), (1362481, 0), (404, 0)]], 3, 4⟩, 1152921504606846976,
    482564803191642, 406248508301131, ⟨[[(15774346464629910, 0), (0, 391628729383741), (313464679529, 0),
    (1294001822, 0), (2136631, 0)], [(302749312890038, 0), (0, 507841209155), (0, 2116651319), (0, 2623375), (0,
    2510)], [(126082484988, 0), (1280268422, 0), (11368, 0), (0, 337), (0, 1)], [(0, 289154346), (1078831, 0), (362,
    0)]], 3, 4⟩, 281474976710656, 26282156644,
    8380152513149598057088930810529855735093489623292041842830782968904687356143489743421130757269748898407774777582792743179615657287134878893,
    lc0⟩) (.leaf ⟨1123, 16, 2655, 1099, 16, 2465, ⟨[[(0, 144689407967363072), (97209809141677600, 0), (0,
    2353440079545), (165392385, 0), (0, 6631)], [(0, 3503416392259250), (9306995210325, 0), (1114148443, 0), (107579,
    0), (9, 0)], [(9491321170544, 0), (4311845244, 0), (954156, 0), (149, 0)], [(3581544801, 0), (2282780, 0), (730,
    0)]], 3, 4⟩, ⟨[[(244784513693515776, 0), (71933705614761399, 0), (0, 3235417699989), (252507139, 0), (0, 16744)],
    [(40442689933592881, 0), (6887027755005, 0), (681423169, 0), (64618, 0), (5, 0)], [(8389317695755, 0),
    (3190696589, 0), (639796, 0), (95, 0)], [(2906757607, 0), (1689221, 0), (505, 0)]], 3, 4⟩, 1152921504606846976,
    676959166105054, 542831195007413, ⟨[[(15950867046780800, 0), (0, 389890015101547), (333606050604, 0),
    (1383577794, 0), (2307399, 0)], [(288503877955528, 0), (0, 505431668580), (0, 2187708570), (0, 2722727), (0,
    2629)], [(120352362785, 0), (1275202628, 0), (19102, 0), (0, 351), (0, 1)], [(0, 275608503), (1010107, 0), (350,
    0)]], 3, 4⟩, 281474976710656, 24038077569,
    8269959079383078541432313505984159555262512607575257755244160679138954108858102251849892621300860244292288084051670963595865216618996571309,
    lc0⟩))))
theorem c9 : checkC job ⟨6, 8, 6, 7, 9, 13⟩ 3 200 B1.zlims t9 531 121 160 1367 175 1896 = true := by decide +kernel

def t10 : CTree :=
  .sy (.sx (.leaf ⟨620, 16, 1410, 689, 16, 1514, ⟨[[(0, 398219009281753088), (98347528895913492, 0), (0,
    5010064332714), (552635969, 0), (0, 64444)], [(0, 1783852638471588), (8924303629802, 0), (1805585112, 0),
    (265148, 0), (23, 0)], [(4831442794752, 0), (3903600083, 0), (1469825, 0), (376, 0)], [(1736097166, 0), (1959029,
    0), (1082, 0)]], 3, 4⟩, ⟨[[(443805520377806848, 0), (82407267320754059, 0), (0, 7410588071762), (1018920593, 0),
    (0, 146802)], [(24504289635480555, 0), (7477843959364, 0), (1221418348, 0), (174172, 0), (12, 0)],
    [(4864669681750, 0), (3270900847, 0), (1104082, 0), (264, 0)], [(1602893980, 0), (1641508, 0), (843, 0)]], 3, 4⟩,
    1152921504606846976, 544395410302470, 526641199718775, ⟨[[(19787828626166740, 0), (0, 646203662123295),
    (874423974330, 0), (6373975364, 0), (17828373, 0)], [(541346027966733, 0), (0, 1502037794389), (0, 11883295809),
    (0, 24463724), (0, 39208)], [(397251207850, 0), (8171388244, 0), (403671, 0), (0, 6007), (0, 21)], [(0,
    2061670853), (11672426, 0), (6873, 0), (7, 0)]], 3, 4⟩, 281474976710656, 319850027806,
    4934110691774212955023302957001102204000250087519819107747418139437470593092595133339369943470864657987101477806550450364759096098945016792,
    lc0⟩) (.sx (.leaf ⟨621, 16, 1414, 745, 16, 1627, ⟨[[(321735744131825664, 0), (100392842222090626, 0), (0,
    4639680037613), (617674468, 0), (0, 56998)], [(80432481226897, 0), (5296569184154, 0), (1236848480, 0), (225880,
    0), (33, 0)], [(1488850311464, 0), (1307280072, 0), (561361, 0), (170, 0)], [(297776857, 0), (368295, 0), (228,
    0)]], 3, 4⟩, ⟨[[(164767154264735744, 0), (90143868417945471, 0), (0, 7680184110993), (1140508915, 0), (0,
    152887)], [(14209626472584370, 0), (4755849371679, 0), (925178504, 0), (164580, 0), (22, 0)], [(1580265361202,
    0), (1173821562, 0), (458292, 0), (132, 0)], [(291990942, 0), (330696, 0), (192, 0)]], 3, 4⟩,
    1152921504606846976, 81256058584288, 103954321076249, ⟨[[(16648551112812312, 0), (0, 592932303675788),
    (837374420274, 0), (5401598679, 0), (14009900, 0)], [(532565603234144, 0), (0, 1500362536822), (0, 10534783300),
    (0, 20193113), (0, 30149)], [(434134464826, 0), (7539148915, 0), (265958, 0), (0, 5113), (0, 16)], [(0,
    1982548278), (10808799, 0), (5962, 0), (5, 0)]], 3, 4⟩, 281474976710656, 303052962445,
    6697772117247303376496745774903726619742416944948081645200290386987882271660157319013716669657680374274031768586644994095085744191124627522,
    lc0⟩) (.leaf ⟨610, 16, 1387, 735, 16, 1598, ⟨[[(0, 564437380574871552), (99813771512556433, 0), (0,
    4221736080668), (670828558, 0), (0, 45024)], [(841146827941241, 0), (5886207726875, 0), (1524644793, 0), (322530,
    0), (60, 0)], [(1698514766396, 0), (1587349231, 0), (749376, 0), (259, 0)], [(367819359, 0), (487587, 0), (334,
    0)]], 3, 4⟩, ⟨[[(0, 146015934314577920), (89740002647721610, 0), (0, 7294073315932), (1168110887, 0), (0,
    142553)], [(14761854425873975, 0), (5292138439317, 0), (1164460646, 0), (240412, 0), (43, 0)], [(1785143467713,
    0), (1427144993, 0), (618109, 0), (203, 0)], [(358979384, 0), (438377, 0), (283, 0)]], 3, 4⟩,
    1152921504606846976, 112820103033822, 133708994476923, ⟨[[(15140175009335772, 0), (0, 599207231778132),
    (915371318142, 0), (5882795963, 0), (15532890, 0)], [(538520210088729, 0), (0, 1617329293439), (0, 11348674288),
    (0, 22175249), (0, 33762)], [(472036663904, 0), (8009563353, 0), (247215, 0), (0, 5833), (0, 18)], [(0,
    2077221190), (11722556, 0), (6622, 0), (6, 0)]], 3, 4⟩, 281474976710656, 328636019497,
    8494165834317254182315412929118475027703892749472682780569353702404079513265830401110133348624365759557299277872041813021956171734414138541,
    lc0⟩))) (.sx (.leaf ⟨670, 16, 1456, 734, 16, 1557, ⟨[[(197128206721351680, 0), (98132932059491264, 0), (0,
    4622961947002), (478022005, 0), (0, 66484)], [(1623863768378428, 0), (10625403175999, 0), (2169963853, 0),
    (308175, 0), (25, 0)], [(6603727307097, 0), (5250732885, 0), (1990269, 0), (519, 0)], [(2657001523, 0), (2976613,
    0), (1641, 0), (1, 0)]], 3, 4⟩, ⟨[[(0, 93010984855666688), (79773365534693282, 0), (0, 6625342317556),
    (854290360, 0), (0, 127182)], [(28053573438894584, 0), (8637509893199, 0), (1453531071, 0), (196906, 0), (13,
    0)], [(6331756986095, 0), (4268379890, 0), (1464495, 0), (360, 0)], [(2359550907, 0), (2419722, 0), (1247, 0)]],
    3, 4⟩, 1152921504606846976, 868209324455406, 795113108502488, ⟨[[(19215930502151016, 0), (0, 626833311311381),
    (964055045457, 0), (6949590190, 0), (19564453, 0)], [(509690018479865, 0), (0, 1539561476181), (0, 12671504890),
    (0, 25951066), (0, 41404)], [(399600694918, 0), (8432875431, 0), (476606, 0), (0, 6627), (0, 21)], [(0,
    2039839105), (11198160, 0), (6802, 0), (6, 0)]], 3, 4⟩, 281474976710656, 301368305545,
    7571011023107425616743170339465945378063065856727428131965525852845229745517504031508543807606003755974740120303352951440334584030697149694,
    lc0⟩) (.sx (.leaf ⟨661, 16, 1436, 802, 16, 1690, ⟨[[(482372788848558080, 0), (98877231844153894, 0), (0,
    4095150028591), (547792421, 0), (0, 56277)], [(2128562956795272, 0), (6348688597607, 0), (1523887365, 0),
    (283063, 0), (44, 0)], [(2054646797636, 0), (1798580224, 0), (788791, 0), (249, 0)], [(466527360, 0), (579425,
    0), (367, 0)]], 3, 4⟩, ⟨[[(0, 443110803271843840), (88459497142514799, 0), (0, 6843172874427), (982352594, 0),
    (0, 131933)], [(16614266692058802, 0), (5679788869332, 0), (1159182168, 0), (208238, 0), (31, 0)],
    [(2132919160066, 0), (1609081274, 0), (647849, 0), (195, 0)], [(451895834, 0), (518377, 0), (309, 0)]], 3, 4⟩,
    1152921504606846976, 114813650586204, 127892166571869, ⟨[[(16281746233291488, 0), (0, 568676014121721),
    (904850884153, 0), (5737146573, 0), (14851125, 0)], [(509039220033864, 0), (0, 1552281222980), (0, 11237593146),
    (0, 21230431), (0, 31243)], [(451898735548, 0), (7997692822, 0), (332154, 0), (0, 5669), (0, 17)], [(0,
    2072311572), (10822096, 0), (6101, 0), (5, 0)]], 3, 4⟩, 281474976710656, 300007694819,
    3985475700839702357006830722390778155076906330583979048658678570951793627323729828822402273073010842202714392681877490603800588237554015273,
    lc0⟩) (.leaf ⟨646, 16, 1402, 787, 16, 1652, ⟨[[(348358279239041024, 0), (98147715278997071, 0), (0,
    3587322017034), (618671143, 0), (0, 39571)], [(3136451297543744, 0), (7159986563449, 0), (1934480912, 0),
    (429989, 0), (90, 0)], [(2383797217732, 0), (2246532158, 0), (1102827, 0), (411, 0)], [(594108539, 0), (806109,
    0), (585, 0)]], 3, 4⟩, ⟨[[(128909151101124608, 0), (87914017275583295, 0), (0, 6373160913958), (1022901010, 0),
    (0, 117848)], [(17334377931353044, 0), (6413426748067, 0), (1502258798, 0), (325074, 0), (67, 0)],
    [(2450187111599, 0), (2012290010, 0), (915510, 0), (328, 0)], [(572621685, 0), (722057, 0), (498, 0)]], 3, 4⟩,
    1152921504606846976, 228845880219786, 235608116918445, ⟨[[(14862130095992230, 0), (0, 576943302056832),
    (995781296174, 0), (6327224249, 0), (16752556, 0)], [(516986893153022, 0), (0, 1689033715768), (0, 12259108690),
    (0, 23718493), (0, 35740)], [(495834535865, 0), (8608640857, 0), (319173, 0), (0, 6590), (0, 20)], [(0,
    2201958518), (11952003, 0), (6925, 0), (6, 0)]], 3, 4⟩, 281474976710656, 331659382116,
    5070117820590783324819942767362865843442653485329890183162717187613768242306452148511536756674853542583760856285856326237751908900621917357,
    lc0⟩)))
theorem c10 : checkC job ⟨6, 8, 6, 7, 9, 13⟩ 3 200 B1.zlims t10 531 121 160 3259 175 3792 = true := by decide +kernel

end PyX.Kron.P1hs
