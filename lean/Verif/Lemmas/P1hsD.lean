import Verif.Lemmas.P1hsJob

/-!
# Pressure from enthalpy and entropy in region 1, part D of the certificate
-/

namespace PyX.Kron.P1hs

set_option Elab.async false

def t17 : CTree :=
  .sy (.sy (.sy (.leaf ⟨353, 16, 1623, 413, 16, 1551, ⟨[[(31484646329745408, 0), (87599648504441850, 0), (0,
    3860426074906), (270209066, 0), (0, 12078)], [(0, 19434415406364499), (2619331982219, 0), (199258569, 0), (57845,
    0), (0, 1)], [(497647033440, 0), (465341107, 0), (97152, 0), (27, 0)], [(115788588, 0), (100117, 0), (38, 0)]],
    3, 4⟩, ⟨[[(0, 119987936543965184), (92323542677249088, 0), (0, 8359166126913), (950775238, 0), (0, 104857)],
    [(11321250373006801, 0), (2760581944960, 0), (81710926, 0), (60327, 0), (0, 6)], [(954675479959, 0), (490435068,
    0), (79599, 0), (25, 0)], [(153839444, 0), (105516, 0), (35, 0)]], 3, 4⟩, 1152921504606846976, 28310998803259,
    46658951854500, ⟨[[(5207819641707561, 0), (0, 527044546522280), (129360719465, 0), (1025248844, 0), (2580839,
    0)], [(555405499326450, 0), (0, 686575121773), (0, 1682517919), (0, 3605108), (0, 4516)], [(240247986120, 0),
    (892308563, 0), (0, 330509), (0, 639), (0, 1)], [(0, 237621004), (2775055, 0), (287, 0)]], 3, 4⟩,
    281474976710656, 80787554650,
    1870542580458627846396499941982851298880248933203860361483685950690321293768908171776248046856934189056858871795719084244762765737849589335,
    lc0⟩) (.leaf ⟨392, 16, 1677, 463, 16, 1631, ⟨[[(0, 187300732484648960), (87822607501586678, 0), (0,
    3704258784515), (263460159, 0), (0, 10141)], [(0, 19105994790468828), (2872412062499, 0), (268117610, 0), (59295,
    0), (1, 0)], [(696033049226, 0), (561864759, 0), (131867, 0), (32, 0)], [(161165073, 0), (135441, 0), (53, 0)]],
    3, 4⟩, ⟨[[(0, 267862018417098752), (91281835488068942, 0), (0, 7816001315322), (860992350, 0), (0, 89034)],
    [(12934402553523272, 0), (2985552955009, 0), (148967928, 0), (57396, 0), (0, 3)], [(1195798969977, 0),
    (583995944, 0), (111689, 0), (28, 0)], [(205581253, 0), (140776, 0), (49, 0)]], 3, 4⟩, 1152921504606846976,
    31189313688892, 46003173565004, ⟨[[(5244780400559219, 0), (0, 511199700614470), (156184596824, 0), (1057502384,
    0), (2496883, 0)], [(531193947943908, 0), (0, 676267452774), (0, 1766465512), (0, 3469282), (0, 4098)],
    [(231296839762, 0), (982255654, 0), (0, 302792), (0, 569), (0, 1)], [(0, 254278560), (2605096, 0), (348, 0), (1,
    0)]], 3, 4⟩, 281474976710656, 75799689814,
    3563082830898655998957561370689462334137303892326837241879792463417476412277646428302922408296400955963911491137208335398705036711814827607,
    lc0⟩)) (.sy (.leaf ⟨432, 16, 1731, 512, 16, 1707, ⟨[[(0, 486584607563579392), (88072276336854584, 0), (0,
    3545231981086), (258565251, 0), (0, 8732)], [(0, 18646953786796165), (3181347061191, 0), (342099681, 0), (63738,
    0), (3, 0)], [(939588213606, 0), (688140662, 0), (174084, 0), (39, 0)], [(222692288, 0), (184324, 0), (73, 0)]],
    3, 4⟩, ⟨[[(572777228301762560, 0), (90125132039149802, 0), (0, 7298091614035), (783062976, 0), (0, 76189)],
    [(14652383097314717, 0), (3255500321753, 0), (217497734, 0), (57828, 0)], [(1481048590272, 0), (704180369, 0),
    (149465, 0), (33, 0)], [(273619746, 0), (188620, 0), (68, 0)]], 3, 4⟩, 1152921504606846976, 38410028926096,
    51163533416499, ⟨[[(5738427253004758, 0), (0, 497333855187098), (178484939307, 0), (1082910715, 0), (2417052,
    0)], [(508960771599593, 0), (0, 665946763221), (0, 1834829983), (0, 3346304), (0, 3773)], [(223034905191, 0),
    (1059857805, 0), (0, 271680), (0, 514), (0, 1)], [(0, 271605149), (2451757, 0), (395, 0), (1, 0)]], 3, 4⟩,
    281474976710656, 71164302921,
    4939045344336448022985179227879289926185158986410810710366153444501931441817130927321237098915259251777195228860717200954693889778177085015,
    lc0⟩) (.leaf ⟨473, 16, 1787, 562, 16, 1779, ⟨[[(0, 273674287159050240), (88456190594863689, 0), (0,
    3385916747354), (255311934, 0), (0, 7630)], [(0, 18054578771110440), (3556246927173, 0), (424868438, 0), (71238,
    0), (5, 0)], [(1242477489631, 0), (852210910, 0), (227029, 0), (50, 0)], [(306776805, 0), (252067, 0), (102,
    0)]], 3, 4⟩, ⟨[[(0, 174488796234514432), (88889331432376355, 0), (0, 6803795368933), (714984982, 0), (0, 65581)],
    [(16488246984672793, 0), (3573660697335, 0), (290204817, 0), (61256, 0), (2, 0)], [(1821006966797, 0),
    (856383906, 0), (195372, 0), (41, 0)], [(363432828, 0), (253301, 0), (93, 0)]], 3, 4⟩, 1152921504606846976,
    50474255867659, 62220131052953, ⟨[[(5318660897540529, 0), (0, 484062659216524), (204997101344, 0), (1125153806,
    0), (2380737, 0)], [(486332212213170, 0), (0, 663524412347), (0, 1910013240), (0, 3264921), (0, 3551)],
    [(217319562792, 0), (1120692602, 0), (0, 242307), (0, 478), (0, 1)], [(0, 281051888), (2304644, 0), (432, 0), (1,
    0)]], 3, 4⟩, 281474976710656, 66313953093,
    5877103683931210935822890769834073815347891605045455096461324026904263819955815225245882503230881147820801389530907549158705386629528096343,
    lc0⟩))) (.sy (.sy (.leaf ⟨515, 16, 1844, 610, 16, 1845, ⟨[[(219727149715554304, 0), (88927462618231041, 0), (0,
    3222766488182), (253309975, 0), (0, 6638)], [(0, 17289137826487969), (4004545093315, 0), (519831122, 0), (82065,
    0), (7, 0)], [(1620921708393, 0), (1063701366, 0), (294521, 0), (64, 0)], [(421862637, 0), (345858, 0), (142,
    0)]], 3, 4⟩, ⟨[[(0, 50977671819821056), (87509094857565658, 0), (0, 6324663682042), (654580682, 0), (0, 56582)],
    [(18436763867865972, 0), (3940673736939, 0), (369541876, 0), (67569, 0), (4, 0)], [(2226162025427, 0),
    (1046735631, 0), (252106, 0), (52, 0)], [(481817125, 0), (340342, 0), (127, 0)]], 3, 4⟩, 1152921504606846976,
    69668423273326, 80574218363690, ⟨[[(5166808161004230, 0), (0, 472604600629666), (229335471444, 0), (1167024135,
    0), (2360693, 0)], [(465099743752037, 0), (0, 661489906183), (0, 1978057910), (0, 3204685), (0, 3396)],
    [(211759626739, 0), (1172487583, 0), (0, 213210), (0, 454), (0, 1)], [(0, 289302503), (2170360, 0), (458, 0), (1,
    0)]], 3, 4⟩, 281474976710656, 61732242335,
    6364327066694692594488923316378341469327222618947270006687313516789736330049300279491624504883976642355617727625588175872568679931067567703,
    lc0⟩) (.leaf ⟨559, 16, 1902, 657, 16, 1906, ⟨[[(0, 118847673598738432), (89492534862811429, 0), (0,
    3054523468537), (252552604, 0), (0, 5613)], [(0, 16317833343485209), (4538317843900, 0), (631137024, 0), (96822,
    0), (10, 0)], [(2096124299771, 0), (1336039884, 0), (381779, 0), (83, 0)], [(579830488, 0), (476126, 0), (198,
    0)]], 3, 4⟩, ⟨[[(0, 119245969298554880), (86067633487584238, 0), (0, 5864227225171), (601343917, 0), (0, 48828)],
    [(20520988602411617, 0), (4364635301008, 0), (458570360, 0), (77021, 0), (6, 0)], [(2712572750652, 0),
    (1284909308, 0), (323477, 0), (67, 0)], [(638527634, 0), (457904, 0), (175, 0)]], 3, 4⟩, 1152921504606846976,
    100122924546390, 110010721710844, ⟨[[(5274419516743416, 0), (0, 462751203101344), (252789058919, 0), (1213010774,
    0), (2362946, 0)], [(445004885853581, 0), (0, 660255614312), (0, 2048124378), (0, 3172679), (0, 3302)],
    [(206329445773, 0), (1222127731, 0), (0, 184770), (0, 440), (0, 1)], [(0, 297504191), (2051486, 0), (478, 0)]],
    3, 4⟩, 281474976710656, 57537038111,
    6825665516926632182687058698931759170682429967923801961306234573541077051469720782331145060048164079946025191901888880868936184991344037463,
    lc0⟩)) (.sy (.leaf ⟨604, 16, 1962, 702, 16, 1960, ⟨[[(262212362452598784, 0), (90204830892529711, 0), (0,
    2881268258519), (253342035, 0), (0, 4443)], [(0, 15109873007183284), (5175823170979, 0), (764268968, 0), (116543,
    0), (14, 0)], [(2696783832599, 0), (1688246365, 0), (496322, 0), (110, 0)], [(797794209, 0), (658504, 0), (278,
    0)]], 3, 4⟩, ⟨[[(0, 279594476002213888), (84503822656996194, 0), (0, 5415867728108), (554022003, 0), (0, 41965)],
    [(22734549634383855, 0), (4848707536134, 0), (560086442, 0), (90020, 0), (9, 0)], [(3295763666577, 0),
    (1581548017, 0), (414109, 0), (87, 0)], [(845725291, 0), (616886, 0), (241, 0)]], 3, 4⟩, 1152921504606846976,
    153950778806225, 160997111747328, ⟨[[(5069700138160226, 0), (0, 453939875244965), (278693262275, 0), (1271304411,
    0), (2400835, 0)], [(425273059617206, 0), (0, 662822292642), (0, 2123706338), (0, 3173561), (0, 3268)],
    [(201793000118, 0), (1262521203, 0), (0, 159321), (0, 436), (0, 1)], [(0, 301019503), (1939820, 0), (493, 0)]],
    3, 4⟩, 281474976710656, 53429609635,
    6983501540619569761620485344534164497462635072542726160599757934363593823468457851691978600111566420505046821651026307681971114834010115671,
    lc0⟩) (.leaf ⟨652, 16, 2025, 744, 16, 2006, ⟨[[(0, 476950952105082880), (91115036829142630, 0), (0,
    2702235000561), (256128517, 0), (0, 3018)], [(0, 13623336793414878), (5940968578619, 0), (926414532, 0), (142832,
    0), (18, 0)], [(3461212951362, 0), (2146840844, 0), (649206, 0), (149, 0)], [(1100574756, 0), (916943, 0), (397,
    0)]], 3, 4⟩, ⟨[[(0, 98738171487059968), (82808331249627475, 0), (0, 4977338566710), (512056438, 0), (0, 35750)],
    [(25079311280441615, 0), (5399346925848, 0), (677549346, 0), (107337, 0), (13, 0)], [(3995648684624, 0),
    (1951119309, 0), (530609, 0), (116, 0)], [(1120083478, 0), (833348, 0), (336, 0)]], 3, 4⟩, 1152921504606846976,
    271316433442401, 269458051591375, ⟨[[(5406659528226261, 0), (0, 447480678521807), (302941317481, 0), (1336472306,
    0), (2469412, 0)], [(406596522448802, 0), (0, 663405501250), (0, 2204565026), (0, 3206209), (0, 3290)],
    [(195992790901, 0), (1303740891, 0), (0, 134200), (0, 439), (0, 1)], [(0, 305116468), (1838478, 0), (504, 0)]],
    3, 4⟩, 281474976710656, 49608006233,
    6920435064302706346203880512385789920518096444198564034986538246416064419386896669411171456078552066598769245180397979538537635272282934871,
    lc0⟩)))
theorem c17 : checkC job ⟨6, 8, 6, 7, 9, 13⟩ 3 200 B1.zlims t17 1909 121 320 1017 175 1896 = true := by decide +kernel

def t18 : CTree :=
  .sy (.sy (.sy (.leaf ⟨347, 16, 1615, 411, 16, 1535, ⟨[[(293572257371914240, 0), (87827240393030638, 0), (0,
    3787169053256), (284566969, 0), (0, 12219)], [(0, 19077095607874141), (2849714330416, 0), (252530529, 0), (72902,
    0)], [(589094710790, 0), (546093570, 0), (129454, 0), (37, 0)], [(145091550, 0), (131064, 0), (54, 0)]], 3, 4⟩,
    ⟨[[(44180985131499520, 0), (92062318869986673, 0), (0, 8248211483263), (956989797, 0), (0, 105086)],
    [(11690414870088323, 0), (2987129143544, 0), (125886486, 0), (73406, 0), (0, 5)], [(1067515802840, 0),
    (572426506, 0), (109094, 0), (33, 0)], [(187605874, 0), (137384, 0), (50, 0)]], 3, 4⟩, 1152921504606846976,
    34715210973697, 53991430950129, ⟨[[(1638171474175260, 0), (0, 528905029630415), (146783155168, 0), (1098280620,
    0), (2759295, 0)], [(554474735468562, 0), (0, 712620498138), (0, 1748817503), (0, 3774662), (0, 4771)],
    [(247568286376, 0), (872865617, 0), (0, 349083), (0, 680), (0, 1)], [(0, 215672169), (2809649, 0), (286, 0)]], 3,
    4⟩, 281474976710656, 80783137044,
    2202663309751876609213955231656815048655713118192928356996690047001316682696412175157457735562575154539299918302799441762831243437393575936,
    lc0⟩) (.leaf ⟨386, 16, 1668, 460, 16, 1611, ⟨[[(0, 250112252796665856), (88077464721695048, 0), (0,
    3611341782148), (278429039, 0), (0, 9644)], [(0, 18637835168838398), (3153613307279, 0), (340654225, 0), (77509,
    0), (3, 0)], [(823916581408, 0), (672442298, 0), (177382, 0), (46, 0)], [(204813650, 0), (181123, 0), (76, 0)]],
    3, 4⟩, ⟨[[(0, 187566196831879168), (90912047231388327, 0), (0, 7677335341475), (865967412, 0), (0, 88446)],
    [(13385904670486676, 0), (3255105523834, 0), (210195931, 0), (72620, 0), (0, 1)], [(1346185262163, 0),
    (694083397, 0), (152936, 0), (39, 0)], [(254471358, 0), (186952, 0), (71, 0)]], 3, 4⟩, 1152921504606846976,
    40786284248578, 56741415815589, ⟨[[(1790229244206589, 0), (0, 513929629665224), (176216648195, 0), (1140031387,
    0), (2693247, 0)], [(530349881182606, 0), (0, 705881726682), (0, 1847129238), (0, 3661414), (0, 4374)],
    [(239328603021, 0), (972336706, 0), (0, 322767), (0, 613), (0, 1)], [(0, 234719917), (2652891, 0), (355, 0), (1,
    0)]], 3, 4⟩, 281474976710656, 76194821569,
    2651874783645736365741250219857422070404361749933083841721464122694450720004326333974354113750055381297917789857105040945987320219568604972,
    lc0⟩)) (.sy (.leaf ⟨425, 16, 1722, 508, 16, 1683, ⟨[[(565807148169887744, 0), (88423149124979168, 0), (0,
    3433154936410), (275194723, 0), (0, 7632)], [(0, 18055150824894640), (3531976966500, 0), (438817941, 0), (86662,
    0), (6, 0)], [(1118121542059, 0), (840939979, 0), (238061, 0), (58, 0)], [(287645383, 0), (251868, 0), (108,
    0)]], 3, 4⟩, ⟨[[(462595683973529600, 0), (89678262681711259, 0), (0, 7133913023725), (788051339, 0), (0, 74942)],
    [(15204506191194106, 0), (3582111260705, 0), (299170040, 0), (76505, 0), (2, 0)], [(1681539462031, 0),
    (852876618, 0), (206708, 0), (49, 0)], [(344206385, 0), (255443, 0), (99, 0)]], 3, 4⟩, 1152921504606846976,
    52786216162725, 66934549176108, ⟨[[(1710312292103352, 0), (0, 499906118713141), (203787004649, 0), (1179921873,
    0), (2635980, 0)], [(507236029561250, 0), (0, 701359447645), (0, 1928561871), (0, 3556189), (0, 4063)],
    [(232527472882, 0), (1048573180, 0), (0, 293540), (0, 562), (0, 1)], [(0, 248827424), (2497625, 0), (405, 0), (1,
    0)]], 3, 4⟩, 281474976710656, 71383163449,
    3387514238213640641367696370744420612572259094723510570043757879321461929845230660164053439946459697481736219100616492870933430058570123052,
    lc0⟩) (.leaf ⟨467, 16, 1778, 556, 16, 1750, ⟨[[(0, 371431386393346048), (88920497797440389, 0), (0,
    3251736772210), (274542438, 0), (0, 5876)], [(0, 17306470274002923), (3998132826435, 0), (552597316, 0), (100840,
    0), (10, 0)], [(1491232134332, 0), (1064295808, 0), (317075, 0), (77, 0)], [(403277159, 0), (352148, 0), (154,
    0)]], 3, 4⟩, ⟨[[(219019127842930688, 0), (88344229866512794, 0), (0, 6611104116017), (720672597, 0), (0, 63691)],
    [(17155006415027477, 0), (3972222088321, 0), (397021310, 0), (84905, 0), (5, 0)], [(2087505499617, 0),
    (1057398416, 0), (274559, 0), (63, 0)], [(464880282, 0), (349866, 0), (139, 0)]], 3, 4⟩, 1152921504606846976,
    73467505715164, 86827581398194, ⟨[[(2007579676567951, 0), (0, 488195757528410), (230504234585, 0), (1227162413,
    0), (2611880, 0)], [(485005422693690, 0), (0, 698803201617), (0, 2014872848), (0, 3492066), (0, 3859)],
    [(226102527156, 0), (1123476009, 0), (0, 262737), (0, 526), (0, 1)], [(0, 264295206), (2361056, 0), (449, 0), (1,
    0)]], 3, 4⟩, 281474976710656, 66903338872,
    4163663605908120973376163468284883299347155369796506974157584128142255334949213291407859005336005847274148774903367314522800040544015124268,
    lc0⟩))) (.sy (.sy (.leaf ⟨509, 16, 1834, 603, 16, 1811, ⟨[[(0, 144328123222786048), (89476352327163155, 0), (0,
    3060780805502), (276071387, 0), (0, 4106)], [(0, 16333687126355192), (4563187923223, 0), (687616650, 0), (120965,
    0), (14, 0)], [(1966112529646, 0), (1358413487, 0), (421630, 0), (103, 0)], [(564847088, 0), (494628, 0), (220,
    0)]], 3, 4⟩, ⟨[[(0, 425164353890025472), (86897889184100738, 0), (0, 6103852736474), (662109262, 0), (0, 54034)],
    [(19245912245222578, 0), (4431689358866, 0), (508110097, 0), (98204, 0), (9, 0)], [(2581050331776, 0),
    (1319267735, 0), (361941, 0), (84, 0)], [(627441517, 0), (480374, 0), (197, 0)]], 3, 4⟩, 1152921504606846976,
    112029881273405, 124234527876870, ⟨[[(1640965172046502, 0), (0, 477148748609370), (260763569800, 0), (1288873225,
    0), (2627514, 0)], [(463309940950424, 0), (0, 702941888255), (0, 2106481454), (0, 3466832), (0, 3743)],
    [(221876232031, 0), (1184050156, 0), (0, 234668), (0, 507), (0, 1)], [(0, 273336615), (2235759, 0), (482, 0), (1,
    0)]], 3, 4⟩, 281474976710656, 62522938348,
    4518455869140512207407651111196304604165096087406202170564064494349350342422974251636053058393970833650798183483353090050318332614006966060,
    lc0⟩) (.leaf ⟨553, 16, 1892, 647, 16, 1865, ⟨[[(0, 386336391164329984), (90199752883417790, 0), (0,
    2861137243460), (280345673, 0), (0, 2091)], [(0, 15110131049413497), (5252643267405, 0), (852419730, 0), (148968,
    0), (20, 0)], [(2576924063461, 0), (1748613599, 0), (563229, 0), (141, 0)], [(792605110, 0), (699974, 0), (321,
    0)]], 3, 4⟩, ⟨[[(142841949003710464, 0), (85330387983674046, 0), (0, 5608213122891), (611267754, 0), (0, 45472)],
    [(21485714012241759, 0), (4969083324727, 0), (637436256, 0), (117371, 0), (14, 0)], [(3183138762348, 0),
    (1654216027, 0), (476574, 0), (113, 0)], [(847013582, 0), (662186, 0), (281, 0)]], 3, 4⟩, 1152921504606846976,
    202694982630856, 211874226029216, ⟨[[(1965899460042040, 0), (0, 468531833579434), (287056366934, 0), (1348574150,
    0), (2659300, 0)], [(443199958724899, 0), (0, 703944677528), (0, 2191809785), (0, 3461862), (0, 3684)],
    [(216378267573, 0), (1241058504, 0), (0, 205707), (0, 496), (0, 1)], [(0, 283490859), (2120950, 0), (508, 0), (1,
    0)]], 3, 4⟩, 281474976710656, 58413052164,
    4636885543821843297701003013796676534550236890660729734766700692781814333551739817053417840835239508027319699257978707079521814340601643008,
    lc0⟩)) (.sy (.leaf ⟨598, 16, 1953, 689, 16, 1910, ⟨[[(513854065794220032, 0), (91146599335201938, 0), (0,
    2650513083926), (288112823, 0), (425, 0)], [(0, 13584885703736043), (6098298788670, 0), (1058373303, 0), (187983,
    0), (29, 0)], [(3369697194087, 0), (2271140463, 0), (759671, 0), (198, 0)], [(1116918485, 0), (1001573, 0), (477,
    0)]], 3, 4⟩, ⟨[[(0, 369015729342119936), (83591300922958070, 0), (0, 5118168637249), (567248210, 0), (0, 37573)],
    [(23870632751578954, 0), (5592800311585, 0), (790841026, 0), (144097, 0), (20, 0)], [(3918034250482, 0),
    (2082881723, 0), (629738, 0), (157, 0)], [(1144436294, 0), (918550, 0), (408, 0)]], 3, 4⟩, 1152921504606846976,
    488281620368566, 480775611764629, ⟨[[(1424117660259890, 0), (0, 460549487649905), (321511593727, 0), (1438242028,
    0), (2760244, 0)], [(422458600576578, 0), (0, 713983619107), (0, 2296758510), (0, 3514244), (0, 3717)],
    [(212884367560, 0), (1286299317, 0), (0, 181623), (0, 502), (0, 1)], [(0, 285603458), (2011088, 0), (527, 0), (1,
    0)]], 3, 4⟩, 281474976710656, 54225362593,
    7148888794947453928211711352770146823006841165409025983785001183776007249384726444932407158892625563783335806432718882315713328971037802496,
    lc0⟩) (.sx (.leaf ⟨680, 16, 2121, 809, 16, 2169, ⟨[[(391958387524632576, 0), (96644300990941512, 0), (0,
    2629041016827), (301475067, 0), (1613, 0)], [(0, 6414199709497519), (3572692856752, 0), (632503863, 0), (111073,
    0), (18, 0)], [(1086404493403, 0), (717789357, 0), (241199, 0), (63, 0)], [(189258726, 0), (169321, 0), (81,
    0)]], 3, 4⟩, ⟨[[(0, 275391594311319552), (90672002945050612, 0), (0, 5227477423639), (579610138, 0), (0, 35183)],
    [(14408063760821828, 0), (3351912258743, 0), (491353709, 0), (87386, 0), (13, 0)], [(1268353825749, 0),
    (673432349, 0), (205788, 0), (52, 0)], [(197004717, 0), (158858, 0), (72, 0)]], 3, 4⟩, 1152921504606846976,
    30733093497584, 32691368984634, ⟨[[(2410920937732434, 0), (0, 409669051668741), (279097029493, 0), (1097693710,
    0), (1861989, 0)], [(384418076288424, 0), (0, 608650147734), (0, 1832984169), (0, 2461792), (0, 2338)],
    [(185876200174, 0), (1085199395, 0), (0, 112324), (0, 331), (0, 1)], [(0, 252216560), (1475940, 0), (376, 0)]],
    3, 4⟩, 281474976710656, 40247685406,
    4521983514694297251607079777615696127306926535275249048307700418567123080976120959573888983949207658972885648108758321034949773054514084971,
    lc0⟩) (.leaf ⟨675, 16, 2109, 801, 16, 2141, ⟨[[(241389812126580736, 0), (97001552830027589, 0), (0,
    2446675438707), (330655781, 0), (6863, 0)], [(0, 5819788019389470), (3930059624867, 0), (760885161, 0), (146972,
    0), (27, 0)], [(1230896636529, 0), (852227928, 0), (309227, 0), (90, 0)], [(228445402, 0), (215633, 0), (112,
    0)]], 3, 4⟩, ⟨[[(428923576902090752, 0), (90343487370068857, 0), (0, 5029638053322), (596386832, 0), (0, 30783)],
    [(14864404331439163, 0), (3660305239701, 0), (597205083, 0), (116050, 0), (20, 0)], [(1407162319260, 0),
    (793732068, 0), (263833, 0), (74, 0)], [(234662007, 0), (200832, 0), (98, 0)]], 3, 4⟩, 1152921504606846976,
    65009971006879, 65952422639666, ⟨[[(954872066962688, 0), (0, 412879243531952), (297084651462, 0), (1163630528,
    0), (1992736, 0)], [(384638071156991, 0), (0, 631966997530), (0, 1910628415), (0, 2597725), (0, 2501)],
    [(191583564496, 0), (1106100740, 0), (0, 120541), (0, 357), (0, 1)], [(0, 250180694), (1519865, 0), (393, 0)]],
    3, 4⟩, 281474976710656, 41115307593,
    9550937492810553758246712664848306473778530618898960519767869331481445991847842793751771425316432329582505172570383294590857870415929278464,
    lc0⟩))))
theorem c18 : checkC job ⟨6, 8, 6, 7, 9, 13⟩ 3 200 B1.zlims t18 2151 121 320 1017 175 1896 = true := by decide +kernel

def t19 : CTree :=
  .sy (.sx (.sy (.leaf ⟨712, 16, 2106, 816, 16, 2159, ⟨[[(0, 118956390498041856), (90074566315274603, 0), (0,
    2929702201112), (209293850, 0), (0, 7325)], [(0, 15347628839265123), (4920152705476, 0), (585159537, 0), (65999,
    0), (5, 0)], [(2870784886647, 0), (1522124886, 0), (363137, 0), (62, 0)], [(782008133, 0), (551227, 0), (193,
    0)]], 3, 4⟩, ⟨[[(0, 180596892562620416), (82977134196003050, 0), (0, 5095861242295), (461309616, 0), (0, 35839)],
    [(25059857176355650, 0), (4532468908905, 0), (408119979, 0), (49024, 0), (3, 0)], [(3457246779414, 0),
    (1402188943, 0), (294018, 0), (47, 0)], [(819975535, 0), (507793, 0), (164, 0)]], 3, 4⟩, 1152921504606846976,
    115126978327228, 119148766819408, ⟨[[(12286722480940572, 0), (0, 427727811874107), (247080592279, 0),
    (1100140306, 0), (1926693, 0)], [(393984713586451, 0), (0, 569150632643), (0, 1953417724), (0, 2645336), (0,
    2567)], [(168928889496, 0), (1276678355, 0), (0, 80085), (0, 335), (0, 1)], [(0, 329707993), (1618431, 0), (442,
    0)]], 3, 4⟩, 281474976710656, 44617696574,
    7772800946786113607406296663048622783629094762066478212269918326306061926575923438875597357189631004463582826850063482337432129151971857794,
    lc0⟩) (.leaf ⟨762, 16, 2173, 860, 16, 2208, ⟨[[(514459669146501120, 0), (90902245521379597, 0), (0,
    2801552407543), (205830300, 0), (0, 6897)], [(0, 13982089816833834), (5525338326093, 0), (679580393, 0), (76561,
    0), (7, 0)], [(3560585567145, 0), (1857904439, 0), (448679, 0), (77, 0)], [(1032591095, 0), (727634, 0), (257,
    0)]], 3, 4⟩, ⟨[[(0, 479090757592940544), (81379615559411033, 0), (0, 4741807883611), (424071018, 0), (0, 31638)],
    [(27304305873648462, 0), (4946521466374, 0), (472615800, 0), (55271, 0), (4, 0)], [(4076608015103, 0),
    (1663276282, 0), (356023, 0), (58, 0)], [(1042550600, 0), (651410, 0), (212, 0)]], 3, 4⟩, 1152921504606846976,
    160189129637322, 159442585049401, ⟨[[(11969973184606288, 0), (0, 420573992063139), (267242429437, 0),
    (1149627923, 0), (1976317, 0)], [(376552998635963, 0), (0, 569201910125), (0, 2006868720), (0, 2660948), (0,
    2576)], [(164433464926, 0), (1290688992, 0), (0, 62377), (0, 340), (0, 1)], [(0, 324054530), (1523370, 0), (438,
    0)]], 3, 4⟩, 281474976710656, 41052789879,
    8217799137974194315155924992569018783081330787197247250144884581201051408074831133242452559215376773456593144878748564053452376640187504002,
    lc0⟩)) (.sy (.leaf ⟨706, 16, 2099, 801, 16, 2105, ⟨[[(548227474624479232, 0), (91059350256968803, 0), (0,
    2754519365188), (228905859, 0), (0, 5384)], [(0, 13759620578791231), (5748604018634, 0), (798720705, 0), (105801,
    0), (11, 0)], [(3525091036674, 0), (2006790025, 0), (544145, 0), (109, 0)], [(1070664421, 0), (822887, 0), (322,
    0)]], 3, 4⟩, ⟨[[(0, 290329281219657728), (82058993320773339, 0), (0, 4852743448993), (464624429, 0), (0, 33742)],
    [(26219875899601298, 0), (5180408793140, 0), (570125448, 0), (77894, 0), (7, 0)], [(4047012891316, 0),
    (1808437780, 0), (438120, 0), (83, 0)], [(1083911022, 0), (741552, 0), (269, 0)]], 3, 4⟩, 1152921504606846976,
    192443257535057, 191972973279326, ⟨[[(8499188723632527, 0), (0, 433555421739306), (287222324680, 0), (1244532255,
    0), (2214669, 0)], [(390769240161859, 0), (0, 617762950097), (0, 2108077619), (0, 2923321), (0, 2913)],
    [(180666616475, 0), (1298949726, 0), (0, 96029), (0, 387), (0, 1)], [(0, 314786193), (1671899, 0), (471, 0)]], 3,
    4⟩, 281474976710656, 45059096268,
    7959660865692248614100648810377397422096455577732316594775111032542530428738363665224886043924926300422269095091195471708061496841347503490,
    lc0⟩) (.leaf ⟨757, 16, 2166, 841, 16, 2145, ⟨[[(298319329199128576, 0), (92062152527714386, 0), (0,
    2598236999351), (229203744, 0), (0, 4437)], [(0, 12016761532207739), (6551294070045, 0), (948119872, 0), (127525,
    0), (15, 0)], [(4436297137742, 0), (2508544752, 0), (694314, 0), (142, 0)], [(1447073977, 0), (1119735, 0), (447,
    0)]], 3, 4⟩, ⟨[[(0, 183749814878601216), (80325169166743716, 0), (0, 4471782705895), (429044544, 0), (0, 29180)],
    [(28640402861746667, 0), (5716071045363, 0), (670347490, 0), (91388, 0), (10, 0)], [(4827409526877, 0),
    (2188730939, 0), (545719, 0), (106, 0)], [(1405910744, 0), (976980, 0), (363, 0)]], 3, 4⟩, 1152921504606846976,
    306988663695442, 292411908847579, ⟨[[(8629337581733854, 0), (0, 428107551243002), (309971185687, 0), (1311506985,
    0), (2303761, 0)], [(373562333603958, 0), (0, 618484891674), (0, 2181892391), (0, 2974813), (0, 2970)],
    [(175310414531, 0), (1324319669, 0), (0, 76512), (0, 396), (0, 1)], [(0, 312555658), (1582489, 0), (472, 0)]], 3,
    4⟩, 281474976710656, 41665594638,
    8378803642765721591468978824061100671587953134076897962508626233136979739219642544498884151555089217956369759992212873651369579752305431938,
    lc0⟩))) (.sx (.sy (.leaf ⟨815, 16, 2243, 901, 16, 2250, ⟨[[(222065562990018560, 0), (91883156020281520, 0), (0,
    2673776571193), (202988501, 0), (0, 6408)], [(0, 12346911810896141), (6224633049321, 0), (789810525, 0), (89560,
    0), (8, 0)], [(4406834138998, 0), (2273341118, 0), (555878, 0), (97, 0)], [(1364126600, 0), (962287, 0), (342,
    0)]], 3, 4⟩, ⟨[[(0, 446897269033140224), (79698670941950982, 0), (0, 4400846586939), (390134441, 0), (0, 27877)],
    [(29649372958516427, 0), (5399193961326, 0), (544054367, 0), (62856, 0), (5, 0)], [(4794456101856, 0),
    (1971876822, 0), (430661, 0), (71, 0)], [(1323418960, 0), (834680, 0), (275, 0)]], 3, 4⟩, 1152921504606846976,
    225717614132185, 215853022502044, ⟨[[(12082422788458598, 0), (0, 415108496755114), (285982882321, 0),
    (1204467461, 0), (2047539, 0)], [(360060042294486, 0), (0, 567145508038), (0, 2064779941), (0, 2697301), (0,
    2616)], [(158866788343, 0), (1305548762, 0), (0, 45525), (0, 348), (0, 1)], [(0, 318797876), (1436315, 0), (433,
    0)]], 3, 4⟩, 281474976710656, 37790533416,
    8750094569108144227074967257885072882207057316243489134348546736181736135549847569575001975216886663099173551004358266494488352769649644930,
    lc0⟩) (.leaf ⟨871, 16, 2317, 938, 16, 2284, ⟨[[(0, 443715730170183680), (93057086376029763, 0), (0,
    2546498950604), (200948764, 0), (0, 5857)], [(0, 10399714818170321), (7036628406454, 0), (919662460, 0), (105589,
    0), (10, 0)], [(5449023245817, 0), (2789884649, 0), (691314, 0), (123, 0)], [(1804268434, 0), (1276048, 0), (457,
    0)]], 3, 4⟩, ⟨[[(370777537226211328, 0), (77916720952466087, 0), (0, 4071348779106), (359143212, 0), (0, 24490)],
    [(32086153037918166, 0), (5891770668344, 0), (623401235, 0), (71942, 0), (6, 0)], [(5624289446392, 0),
    (2335971092, 0), (520701, 0), (88, 0)], [(1677087925, 0), (1068436, 0), (356, 0)]], 3, 4⟩, 1152921504606846976,
    326372436369376, 298954725240208, ⟨[[(12577295702789848, 0), (0, 411415368923488), (303096220629, 0),
    (1265282841, 0), (2141944, 0)], [(344423533548505, 0), (0, 562416689700), (0, 2125768938), (0, 2752359), (0,
    2682)], [(152088045583, 0), (1318770449, 0), (0, 29597), (0, 357), (0, 1)], [(0, 312922985), (1354054, 0), (426,
    0)]], 3, 4⟩, 281474976710656, 34751616511,
    9290262497750659696361426679853352165087210620024870040426944483811495892827233185192778608445821710904942726935060185285539841151315711362,
    lc0⟩)) (.sy (.leaf ⟨811, 16, 2238, 877, 16, 2176, ⟨[[(36000957602988032, 0), (93329466665510795, 0), (0,
    2439001676147), (231296566, 0), (0, 3283)], [(0, 9921144625596941), (7505990035501, 0), (1130038302, 0), (155655,
    0), (19, 0)], [(5585534426616, 0), (3152903654, 0), (892768, 0), (189, 0)], [(1962841361, 0), (1534771, 0), (628,
    0)]], 3, 4⟩, ⟨[[(304025694434885632, 0), (78465640378138952, 0), (0, 4099991824077), (397105770, 0), (0, 24977)],
    [(31171292794307317, 0), (6310571953854, 0), (785241569, 0), (108334, 0), (13, 0)], [(5747019204929, 0),
    (2650766292, 0), (681349, 0), (137, 0)], [(1822915324, 0), (1290341, 0), (494, 0)]], 3, 4⟩, 1152921504606846976,
    565144540776735, 510914933075180, ⟨[[(8894916990551401, 0), (0, 424307450918463), (333659136272, 0), (1391926596,
    0), (2431399, 0)], [(356748454411542, 0), (0, 618852238552), (0, 2263364659), (0, 3055199), (0, 3069)],
    [(169245728389, 0), (1345585264, 0), (0, 58689), (0, 410), (0, 1)], [(0, 307922599), (1495787, 0), (470, 0)]], 3,
    4⟩, 281474976710656, 38398489844,
    8883492426531765730370722141494693033997252244170420968844595294874305595329894327905762496941673649024054742973075294122338142034984146306,
    lc0⟩) (.sx (.leaf ⟨902, 16, 2405, 1045, 16, 2529, ⟨[[(177439772014280704, 0), (98021148463378818, 0), (0,
    2443111163405), (233527894, 0), (0, 3342)], [(0, 4268862262844609), (4251698842755, 0), (635197019, 0), (85375,
    0), (10, 0)], [(1709056515255, 0), (941838802, 0), (262400, 0), (55, 0)], [(312999423, 0), (240751, 0), (97,
    0)]], 3, 4⟩, ⟨[[(0, 282779050413916160), (87551720765868921, 0), (0, 4361124880849), (415988333, 0), (0, 25227)],
    [(18995033423662740, 0), (3797584048921, 0), (472840026, 0), (63285, 0), (7, 0)], [(1848058731505, 0),
    (841243028, 0), (213437, 0), (42, 0)], [(307508874, 0), (215037, 0), (81, 0)]], 3, 4⟩, 1152921504606846976,
    35094831403741, 34712256821755, ⟨[[(9532939219302834, 0), (0, 367219982615933), (268968262799, 0), (973215497,
    0), (1479971, 0)], [(328008713915156, 0), (0, 515494864966), (0, 1708111232), (0, 1996608), (0, 1760)],
    [(149908857822, 0), (1098290214, 0), (0, 29169), (0, 259), (0, 1)], [(0, 269430722), (1094572, 0), (313, 0)]], 3,
    4⟩, 281474976710656, 28975124536,
    8452476860963668656794391845663996822046264561923787183726710544726419037464501513100819472750596649131657958020354400631687204795433850242,
    lc0⟩) (.leaf ⟨896, 16, 2392, 1032, 16, 2488, ⟨[[(549456707934748672, 0), (98573149864539317, 0), (0,
    2260230009393), (256468520, 0), (0, 99)], [(0, 3364375754459332), (4728261519840, 0), (777338164, 0), (117289,
    0), (17, 0)], [(1951278852582, 0), (1136764903, 0), (345876, 0), (82, 0)], [(385000408, 0), (316344, 0), (141,
    0)]], 3, 4⟩, ⟨[[(0, 189147837163372544), (87088134194995516, 0), (0, 4164304269856), (427126627, 0), (0, 22523)],
    [(19623968979873356, 0), (4177359395684, 0), (582803774, 0), (87275, 0), (12, 0)], [(2061687335556, 0),
    (1004317449, 0), (280582, 0), (63, 0)], [(371840909, 0), (279486, 0), (117, 0)]], 3, 4⟩, 1152921504606846976,
    65777199820391, 62740463915484, ⟨[[(7697848987872297, 0), (0, 370423090867797), (292163703836, 0), (1049718901,
    0), (1617741, 0)], [(327335367819285, 0), (0, 543457131367), (0, 1799492868), (0, 2137723), (0, 1917)],
    [(156895911420, 0), (1124483249, 0), (0, 34883), (0, 284), (0, 1)], [(0, 267524368), (1131811, 0), (331, 0)]], 3,
    4⟩, 281474976710656, 29629551881,
    7616964441978226117491485941622993816831516474149439621112702518308088290946935956234959138634469459624867608885898526041186985546293465580,
    lc0⟩))))
theorem c19 : checkC job ⟨6, 8, 6, 7, 9, 13⟩ 3 200 B1.zlims t19 773 121 160 2559 175 3792 = true := by decide +kernel

def t20 : CTree :=
  .sx (.sy (.sy (.leaf ⟨929, 16, 2396, 973, 16, 2311, ⟨[[(277260032298450944, 0), (94461979089785218, 0), (0,
    2419387712473), (199887231, 0), (0, 5243)], [(0, 8086163710207988), (7984288950493, 0), (1073943460, 0), (125461,
    0), (13, 0)], [(6737907245464, 0), (3435775339, 0), (864015, 0), (158, 0)], [(2391034685, 0), (1698636, 0), (617,
    0)]], 3, 4⟩, ⟨[[(0, 89175573331968000), (76083613640307004, 0), (0, 3755285190739), (331090372, 0), (0, 21438)],
    [(34632443630042209, 0), (6430878979621, 0), (712297238, 0), (82827, 0), (8, 0)], [(6586575924675, 0),
    (2767316607, 0), (630204, 0), (109, 0)], [(2123409198, 0), (1368153, 0), (465, 0)]], 3, 4⟩, 1152921504606846976,
    497160978032654, 434150636467418, ⟨[[(12201918721766002, 0), (0, 407295980729198), (328711415408, 0),
    (1351792550, 0), (2287119, 0)], [(328082188720336, 0), (0, 566216346767), (0, 2203045034), (0, 2840387), (0,
    2788)], [(147803443809, 0), (1323168106, 0), (0, 18265), (0, 374), (0, 1)], [(0, 301190333), (1273458, 0), (418,
    0)]], 3, 4⟩, 281474976710656, 31821181214,
    9754667468439148683683656252275686774638895508738362218067347557616908671776430278012616528603056554845724443094932977669936175711147758978,
    lc0⟩) (.leaf ⟨991, 16, 2479, 1003, 16, 2329, ⟨[[(0, 182333106318606336), (96057114441812869, 0), (0,
    2289820672106), (199825215, 0), (0, 4550)], [(0, 5333084688792324), (9088755897050, 0), (1257798628, 0), (150199,
    0), (16, 0)], [(8332403320420, 0), (4245211826, 0), (1085816, 0), (204, 0)], [(3174827951, 0), (2271648, 0),
    (841, 0)]], 3, 4⟩, ⟨[[(447004839643447296, 0), (74146091586465874, 0), (0, 3449316882359), (305527503, 0), (0,
    18660)], [(37262168274095658, 0), (7015573297884, 0), (811759320, 0), (95831, 0), (10, 0)], [(7696755915787, 0),
    (3276861550, 0), (763810, 0), (137, 0)], [(2685216052, 0), (1753476, 0), (610, 0)]], 3, 4⟩, 1152921504606846976,
    832955553835406, 689786911644242, ⟨[[(12518834859832888, 0), (0, 405538835165284), (351331722408, 0),
    (1446422706, 0), (2463850, 0)], [(313014585487132, 0), (0, 565015512590), (0, 2286506550), (0, 2952017), (0,
    2927)], [(141545632876, 0), (1330644944, 0), (0, 6471), (0, 391), (0, 1)], [(0, 291103262), (1199730, 0), (409,
    0)]], 3, 4⟩, 281474976710656, 29243333840,
    9966156884155891774228346912592739156814688664828499847800293802695115535499282479088262390057156910589319873770103193550430212916416583042,
    lc0⟩)) (.sx (.sy (.leaf ⟨1082, 16, 2631, 1215, 16, 2765, ⟨[[(504182906441170944, 0), (99698098578540591, 0), (0,
    2297649707758), (195681023, 0), (0, 4965)], [(0, 1673313155306940), (5010851597682, 0), (678757000, 0), (78032,
    0), (8, 0)], [(2456879673253, 0), (1217442988, 0), (303234, 0), (55, 0)], [(484202501, 0), (338084, 0), (122,
    0)]], 3, 4⟩, ⟨[[(91966049832665088, 0), (84758563433464276, 0), (0, 3791956262026), (326634672, 0), (0, 19812)],
    [(23016910223579161, 0), (4259986790653, 0), (484638084, 0), (54865, 0), (5, 0)], [(2481957201417, 0),
    (1035011903, 0), (235343, 0), (41, 0)], [(449817104, 0), (287423, 0), (97, 0)]], 3, 4⟩, 1152921504606846976,
    50552947946109, 46891011798919, ⟨[[(13091808943167864, 0), (0, 342871024337329), (266641086534, 0), (938099474,
    0), (1367555, 0)], [(291554565657159, 0), (0, 463001946810), (0, 1654965442), (0, 1817521), (0, 1543)],
    [(127887218756, 0), (1073544042, 0), (2930, 0), (0, 234)], [(0, 259925636), (886067, 0), (265, 0)]], 3, 4⟩,
    281474976710656, 22544988654,
    9002541220233254230417790407725228827433156385862414211135917470029816101380234773338392887631895404232425582679397188770256605060833138967,
    lc0⟩) (.leaf ⟨1140, 16, 2697, 1258, 16, 2804, ⟨[[(430272015363473408, 0), (100623254217616963, 0), (0,
    2148211957458), (194028670, 0), (0, 4279)], [(171295275063826, 0), (5654477284504, 0), (786228457, 0), (92711,
    0), (10, 0)], [(2995959860420, 0), (1488087247, 0), (377736, 0), (71, 0)], [(634484182, 0), (447506, 0), (166,
    0)]], 3, 4⟩, ⟨[[(0, 97479635503415296), (83380667209369881, 0), (0, 3511737542145), (305000661, 0), (0, 17449)],
    [(24916263147035115, 0), (4685538073361, 0), (554193387, 0), (64119, 0), (7, 0)], [(2915443899622, 0),
    (1233091779, 0), (287399, 0), (52, 0)], [(571438260, 0), (370822, 0), (130, 0)]], 3, 4⟩, 1152921504606846976,
    77182709093031, 68875031010664, ⟨[[(13058865251782068, 0), (0, 338167697846771), (281805694659, 0), (985700041,
    0), (1440909, 0)], [(280277533704557, 0), (0, 465570336541), (0, 1707901789), (0, 1869904), (0, 1590)],
    [(125759542742, 0), (1084617320, 0), (8104, 0), (0, 245)], [(0, 255364267), (850564, 0), (261, 0)]], 3, 4⟩,
    281474976710656, 21185728106,
    8897016419183563053825974950435179914230841446330329722521585722062867686246042418893372031415868280283846622592201543467773425714786654487,
    lc0⟩)) (.sy (.leaf ⟨1077, 16, 2618, 1196, 16, 2710, ⟨[[(0, 150053674768400384), (100488201599556193, 0), (0,
    2103272400792), (217249033, 0), (0, 2371)], [(0, 390426981879376), (5637808105116, 0), (845931466, 0), (111072,
    0), (14, 0)], [(2837316931486, 0), (1496033596, 0), (410454, 0), (86, 0)], [(606404897, 0), (456069, 0), (184,
    0)]], 3, 4⟩, ⟨[[(0, 260001545189326848), (84146711204643460, 0), (0, 3586567895896), (335890062, 0), (0, 17682)],
    [(23819865824490018, 0), (4720982193899, 0), (605956519, 0), (78302, 0), (10, 0)], [(2790667072554, 0),
    (1252747138, 0), (316531, 0), (64, 0)], [(551473158, 0), (381902, 0), (146, 0)]], 3, 4⟩, 1152921504606846976,
    92655810425076, 83109343377740, ⟨[[(11391985490753952, 0), (0, 347050397056625), (292652243092, 0), (1026785829,
    0), (1525134, 0)], [(290595551145288, 0), (0, 492030505258), (0, 1761728490), (0, 1975285), (0, 1713)],
    [(134608382620, 0), (1107204639, 0), (0, 602), (0, 261)], [(0, 259508713), (920838, 0), (283, 0)]], 3, 4⟩,
    281474976710656, 23129645858,
    9118530223821574227400920675981766614137530154283375443006300112848778213684829311291951070745941148427367653432158590013652979382179042690,
    lc0⟩) (.leaf ⟨1111, 16, 2628, 1235, 16, 2741, ⟨[[(448858640931094528, 0), (99473918313780991, 0), (0,
    1883729743842), (215740358, 0), (0, 921)], [(1697874544757587, 0), (6297278770783, 0), (977389997, 0), (133693,
    0), (18, 0)], [(3428208746219, 0), (1825009186, 0), (516440, 0), (114, 0)], [(794239790, 0), (610683, 0), (257,
    0)]], 3, 4⟩, ⟨[[(0, 95413995239636992), (82691875968526196, 0), (0, 3283263427410), (316848932, 0), (0, 14833)],
    [(25842215889611239, 0), (5234877683316, 0), (703779275, 0), (94599, 0), (13, 0)], [(3308240703128, 0),
    (1517115600, 0), (397805, 0), (85, 0)], [(713089287, 0), (507656, 0), (203, 0)]], 3, 4⟩, 1152921504606846976,
    177305150868520, 155801464273521, ⟨[[(11293191194665784, 0), (0, 342830620246734), (311530757821, 0),
    (1088629326, 0), (1625879, 0)], [(285057979992063, 0), (0, 507873566739), (0, 1866985424), (0, 2092483), (0,
    1823)], [(138467536668, 0), (1169115251, 0), (4635, 0), (0, 287), (0, 1)], [(0, 271265670), (943752, 0), (298,
    0)]], 3, 4⟩, 281474976710656, 23514934196,
    8964597052102605282256288685777168625384228799078553637488561375860003578041859592973162430912357685581220956992528391064498241379280804119,
    lc0⟩)))) (.sy (.sx (.sy (.leaf ⟨956, 16, 2469, 1092, 16, 2578, ⟨[[(521702086146654208, 0), (98961503184883419,
    0), (0, 2258557453471), (235980867, 0), (0, 1905)], [(0, 2770958584433348), (4855472943664, 0), (752666670, 0),
    (104605, 0), (14, 0)], [(2128529295636, 0), (1178075133, 0), (336998, 0), (74, 0)], [(421458541, 0), (329423, 0),
    (138, 0)]], 3, 4⟩, ⟨[[(0, 422173967410266112), (86287734359007489, 0), (0, 4018216194083), (391043467, 0), (0,
    21497)], [(20779903582717867, 0), (4233643852070, 0), (555746303, 0), (76463, 0), (10, 0)], [(2212638004528, 0),
    (1027201799, 0), (269448, 0), (56, 0)], [(401478736, 0), (287235, 0), (113, 0)]], 3, 4⟩, 1152921504606846976,
    59429133955504, 56077965091419, ⟨[[(9398701534982206, 0), (0, 360831465800126), (286067509288, 0), (1016059119,
    0), (1534777, 0)], [(314679634130688, 0), (0, 518361170608), (0, 1757633291), (0, 2031520), (0, 1791)],
    [(147593753224, 0), (1112716175, 0), (0, 20181), (0, 268), (0, 1)], [(0, 266399865), (1045688, 0), (310, 0)]], 3,
    4⟩, 281474976710656, 27112860028,
    8900747779780521130096986264503501932238272896402157550260118173654313504294991602639684725394923527504386888320714217610212048612503033218,
    lc0⟩) (.leaf ⟨1013, 16, 2535, 1135, 16, 2618, ⟨[[(0, 428933349145706496), (100072417865676718, 0), (0,
    2065534572034), (240802734, 0), (0, 111)], [(0, 1000693372676336), (5568264078962, 0), (896854466, 0), (129920,
    0), (18, 0)], [(2654643319361, 0), (1482355573, 0), (437811, 0), (101, 0)], [(570535011, 0), (455930, 0), (199,
    0)]], 3, 4⟩, ⟨[[(0, 283836844024791040), (84912540894649069, 0), (0, 3678651655197), (369362375, 0), (0, 17846)],
    [(22679709257526289, 0), (4724732962401, 0), (653822385, 0), (93458, 0), (13, 0)], [(2648219585505, 0),
    (1257794914, 0), (342958, 0), (76, 0)], [(525541639, 0), (386861, 0), (160, 0)]], 3, 4⟩, 1152921504606846976,
    116755304455951, 105264748208501, ⟨[[(9698016077510674, 0), (0, 356201606943650), (302317507996, 0), (1066704064,
    0), (1611394, 0)], [(302180762787155, 0), (0, 519449868952), (0, 1816165550), (0, 2087087), (0, 1845)],
    [(144202868936, 0), (1130751347, 0), (0, 11383), (0, 279), (0, 1)], [(0, 264148157), (1002267, 0), (307, 0)]], 3,
    4⟩, 281474976710656, 25427664307,
    9111981008877678812199155198154156509785477076991243713832621658928300170274945491841962030938551888212379053492706881760262920921260725634,
    lc0⟩)) (.sy (.leaf ⟨951, 16, 2456, 1075, 16, 2529, ⟨[[(0, 56551070227234816), (99682924249822998, 0), (0,
    2043691137762), (264909367, 0), (2454, 0)], [(0, 1652011748056491), (5460926450078, 0), (938665002, 0), (148629,
    0), (23, 0)], [(2459389980307, 0), (1449994171, 0), (458314, 0), (115, 0)], [(529014663, 0), (446668, 0), (208,
    0)]], 3, 4⟩, ⟨[[(322086605723533312, 0), (85716059189549770, 0), (0, 3792676082141), (405550938, 0), (0, 18002)],
    [(21510095005114563, 0), (4695780128315, 0), (695644359, 0), (108940, 0), (17, 0)], [(2490893771498, 0),
    (1246831262, 0), (364493, 0), (88, 0)], [(493870619, 0), (384084, 0), (170, 0)]], 3, 4⟩, 1152921504606846976,
    147942996361574, 134530790775648, ⟨[[(8032114596937703, 0), (0, 365562297804848), (309465065543, 0), (1101361659,
    0), (1693214, 0)], [(314334595278831, 0), (0, 545007541075), (0, 1860610249), (0, 2192734), (0, 1973)],
    [(153438289720, 0), (1146252920, 0), (0, 24443), (0, 296), (0, 1)], [(0, 266632486), (1085474, 0), (329, 0)]], 3,
    4⟩, 281474976710656, 27818110356,
    7931478519346889467753289976945446680125316020521806051473575216081836960966795570443914139246984530105992180004972216148169750836768428524,
    lc0⟩) (.leaf ⟨1002, 16, 2508, 1115, 16, 2561, ⟨[[(0, 258755464196784128), (100432579097667853, 0), (0,
    1800310421770), (276260969, 0), (5842, 0)], [(389111293424370, 0), (6307717130020, 0), (1137333103, 0), (190817,
    0), (33, 0)], [(3092501210450, 0), (1856504461, 0), (613813, 0), (163, 0)], [(729497864, 0), (636939, 0), (311,
    0)]], 3, 4⟩, ⟨[[(0, 181319792456892416), (84260188628833953, 0), (0, 3421637281022), (388627870, 0), (0, 13248)],
    [(23537881783836558, 0), (5292002256319, 0), (834155901, 0), (138215, 0), (23, 0)], [(3013688136861, 0),
    (1557556497, 0), (479643, 0), (124, 0)], [(660137315, 0), (534374, 0), (249, 0)]], 3, 4⟩, 1152921504606846976,
    387482697357161, 340002480149477, ⟨[[(7925720846002793, 0), (0, 360958947802864), (332679008360, 0), (1173632263,
    0), (1809143, 0)], [(302797781336248, 0), (0, 555453094396), (0, 1950461616), (0, 2292180), (0, 2075)],
    [(153057386288, 0), (1180134975, 0), (0, 16753), (0, 316), (0, 1)], [(0, 267471565), (1060896, 0), (334, 0)]], 3,
    4⟩, 281474976710656, 26659968492,
    8076446245148069066806873715183470813418085843854222435098675730315459347847947717117488931601793494496236576168690145169791832112093483500,
    lc0⟩))) (.sx (.sy (.leaf ⟨1056, 16, 2566, 1174, 16, 2649, ⟨[[(0, 519678343209811968), (99922277063738900, 0), (0,
    1834412557773), (245129344, 0), (2171, 0)], [(1076936306051847, 0), (6323586638277, 0), (1060947096, 0), (161596,
    0), (25, 0)], [(3271292841189, 0), (1852323879, 0), (568532, 0), (139, 0)], [(766855725, 0), (630501, 0), (287,
    0)]], 3, 4⟩, ⟨[[(0, 125183135703891968), (83446870246440468, 0), (0, 3342101142986), (351193634, 0), (0, 14150)],
    [(24706803723864521, 0), (5280939638313, 0), (771460307, 0), (115792, 0), (18, 0)], [(3171086851636, 0),
    (1546908607, 0), (441235, 0), (104, 0)], [(691049518, 0), (526542, 0), (229, 0)]], 3, 4⟩, 1152921504606846976,
    264744935336795, 232185409421471, ⟨[[(9767567535258116, 0), (0, 352155369069802), (322010809126, 0), (1131858900,
    0), (1717930, 0)], [(294025654103336, 0), (0, 531308987740), (0, 1913303006), (0, 2196053), (0, 1952)],
    [(145603001238, 0), (1180226699, 0), (0, 4665), (0, 302), (0, 1)], [(0, 271216010), (1004023, 0), (317, 0)]], 3,
    4⟩, 281474976710656, 25131312243,
    9151467796824155861951293286550982636515758898386701473065190376964527187189742931106272496523993042842311563905161488241547182305657984386,
    lc0⟩) (.leaf ⟨1080, 16, 2552, 1208, 16, 2670, ⟨[[(0, 260522204647129088), (98190100061830396, 0), (0,
    1566174362609), (248745131, 0), (5039, 0)], [(3408780724143466, 0), (7091317077070, 0), (1243956448, 0), (200923,
    0), (33, 0)], [(3973916299262, 0), (2294686418, 0), (736536, 0), (191, 0)], [(1021854249, 0), (868777, 0), (413,
    0)]], 3, 4⟩, ⟨[[(444888627889045504, 0), (81878190932125134, 0), (0, 3006427783227), (336803674, 0), (0, 10239)],
    [(26866187433939456, 0), (5913266339793, 0), (914497256, 0), (145554, 0), (24, 0)], [(3801296457771, 0),
    (1913479796, 0), (574439, 0), (144, 0)], [(914167415, 0), (724450, 0), (329, 0)]], 3, 4⟩, 1152921504606846976,
    666896057161749, 579447986098596, ⟨[[(9873882631496388, 0), (0, 349209252383330), (343895979310, 0), (1211703462,
    0), (1857205, 0)], [(291162081350663, 0), (0, 554424044834), (0, 2061407160), (0, 2374087), (0, 2126)],
    [(152200430803, 0), (1276379343, 0), (1332, 0), (0, 341), (0, 1)], [(0, 292574928), (1062741, 0), (346, 0)]], 3,
    4⟩, 281474976710656, 26507550506,
    8965573618132293318555178011405048729451644928742936007935542706686510354284630309657668424922963568440341608462336010715365605162598241666,
    lc0⟩)) (.sy (.leaf ⟨1026, 16, 2493, 1149, 16, 2582, ⟨[[(0, 102757587835158528), (98681311676214535, 0), (0,
    1495942089351), (285646714, 0), (10167, 0)], [(2728421413026566, 0), (7137087911892, 0), (1356216031, 0),
    (243082, 0), (45, 0)], [(3802246382889, 0), (2339689614, 0), (813836, 0), (230, 0)], [(990008319, 0), (897604,
    0), (457, 0)]], 3, 4⟩, ⟨[[(485840268664766464, 0), (82678254082009814, 0), (0, 3046824119057), (376806244, 0),
    (0, 7999)], [(25707651755862490, 0), (5979672926533, 0), (1006567148, 0), (178119, 0), (32, 0)], [(3653080316578,
    0), (1960264300, 0), (639334, 0), (175, 0)], [(889087682, 0), (752040, 0), (366, 0)]], 3, 4⟩,
    1152921504606846976, 1086587032020355, 946659665571958, ⟨[[(8092066821502071, 0), (0, 358054673097352),
    (356314635713, 0), (1258407131, 0), (1957046, 0)], [(299969579189543, 0), (0, 580569393928), (0, 2107524124), (0,
    2483125), (0, 2267)], [(160238902106, 0), (1282873114, 0), (0, 10114), (0, 359), (0, 1)], [(0, 290530586),
    (1126725, 0), (367, 0)]], 3, 4⟩, 281474976710656, 28229796483,
    8104039608944194087556980673902011014350808858317530766664061602103745154685665713827879346776339585759623658130690847547437095671870018028,
    lc0⟩) (.sx (.leaf ⟨1080, 16, 2551, 1319, 16, 2905, ⟨[[(7447340026429440, 0), (99519370596741413, 0), (0,
    1312892578378), (292358766, 0), (12813, 0)], [(2479255122139394, 0), (4008240038442, 0), (778649607, 0), (143399,
    0), (27, 0)], [(1149440534521, 0), (711868253, 0), (252617, 0), (72, 0)], [(161225185, 0), (148093, 0), (76,
    0)]], 3, 4⟩, ⟨[[(538721500574515200, 0), (90326096726561611, 0), (0, 3067492235377), (401183797, 0), (0, 5014)],
    [(15419089860357092, 0), (3637971936967, 0), (631167586, 0), (114725, 0), (21, 0)], [(1185806959445, 0),
    (646108192, 0), (215863, 0), (60, 0)], [(156188763, 0), (134413, 0), (66, 0)]], 3, 4⟩, 1152921504606846976,
    45730029693655, 43559684466814, ⟨[[(8501187419061073, 0), (0, 318402201596194), (303137456361, 0), (965111122,
    0), (1358697, 0)], [(288986651688025, 0), (0, 525199529859), (0, 1768145233), (0, 1872870), (0, 1543)],
    [(157445392904, 0), (1175284830, 0), (0, 2279), (0, 273)], [(0, 288949699), (981119, 0), (295, 0)]], 3, 4⟩,
    281474976710656, 25685826644,
    7704058627235495814243821279486308790604743347463168765727320524368066223522154136334188026073498083457244277782541386012207499243496690156,
    lc0⟩) (.leaf ⟨1066, 16, 2516, 1305, 16, 2867, ⟨[[(0, 274930991795535872), (99153943776607449, 0), (0,
    1093304262352), (327186213, 0), (20241, 0)], [(3023466384609330, 0), (4320673634652, 0), (902967394, 0), (181457,
    0), (37, 0)], [(1259175744416, 0), (820494465, 0), (311508, 0), (95, 0)], [(187789780, 0), (181676, 0), (98,
    0)]], 3, 4⟩, ⟨[[(533834917144166400, 0), (90052752844988744, 0), (0, 2863155122026), (427174259, 0), (1108, 0)],
    [(15812410741615396, 0), (3924085519198, 0), (738590492, 0), (146560, 0), (29, 0)], [(1291747276910, 0),
    (745182516, 0), (267439, 0), (79, 0)], [(181424841, 0), (165001, 0), (86, 0)]], 3, 4⟩, 1152921504606846976,
    92631121199229, 87664166030548, ⟨[[(7693056552823788, 0), (0, 321015268656361), (319597148309, 0), (1021171661,
    0), (1456687, 0)], [(291502226338311, 0), (0, 549599711192), (0, 1859975379), (0, 1997514), (0, 1669)],
    [(165107438523, 0), (1226748054, 0), (0, 4512), (0, 299), (0, 1)], [(0, 299049252), (1039182, 0), (318, 0)]], 3,
    4⟩, 281474976710656, 27174499201,
    6777582339381234631982498505075079500781125660039014532843383888581057019264579629145150370706642712727957917072807279438386186323879964705,
    lc0⟩)))))
theorem c20 : checkC job ⟨6, 8, 6, 7, 9, 13⟩ 3 200 B1.zlims t20 773 121 160 2909 175 3792 = true := by decide +kernel

def t21 : CTree :=
  .sy (.sx (.leaf ⟨597, 16, 1358, 723, 16, 1566, ⟨[[(32942752633061376, 0), (99219874687648587, 0), (0,
    3724047495268), (750770900, 0), (0, 24007)], [(1697288797195607, 0), (6609228333834, 0), (1915029283, 0),
    (474063, 0), (113, 0)], [(1960044992898, 0), (1965429231, 0), (1034855, 0), (419, 0)], [(464561377, 0), (671301,
    0), (524, 0)]], 3, 4⟩, ⟨[[(331392238912798720, 0), (89286533109465603, 0), (0, 6831957215719), (1215634757, 0),
    (0, 124963)], [(15380054584257481, 0), (5947549181196, 0), (1491448325, 0), (361397, 0), (85, 0)],
    [(2038629755464, 0), (1768661397, 0), (862302, 0), (336, 0)], [(450982469, 0), (604094, 0), (448, 0)]], 3, 4⟩,
    1152921504606846976, 229665725561297, 244228712696959, ⟨[[(13351131274270960, 0), (0, 605698278074306),
    (1007910028390, 0), (6442592724, 0), (17331318, 0)], [(545094490861976, 0), (0, 1755968872596), (0, 12267604825),
    (0, 24472688), (0, 38049)], [(517196607309, 0), (8517924985, 0), (209418, 0), (0, 6700), (0, 21)], [(0,
    2173816411), (12778892, 0), (7398, 0), (7, 0)]], 3, 4⟩, 281474976710656, 358373789533,
    9404790942447104055338041557781708112921817694270740630935879130881562752836979348209889095539993141510215777961551343796075757173732202775,
    lc0⟩) (.sy (.leaf ⟨1136, 16, 2615, 1269, 16, 2762, ⟨[[(0, 289415234479456256), (97748565408222460, 0), (0,
    1649272554105), (214569404, 0), (828, 0)], [(4007746023519567, 0), (6999096292252, 0), (1126676979, 0), (161856,
    0), (24, 0)], [(4115042507310, 0), (2221839490, 0), (652564, 0), (153, 0)], [(1038166825, 0), (820869, 0), (360,
    0)]], 3, 4⟩, ⟨[[(385410842556628992, 0), (81124421014113286, 0), (0, 2983431286933), (300440996, 0), (0, 11964)],
    [(27977609631587413, 0), (5808756701029, 0), (819448525, 0), (115675, 0), (17, 0)], [(3921690337526, 0),
    (1843970205, 0), (504881, 0), (114, 0)], [(925642007, 0), (681264, 0), (285, 0)]], 3, 4⟩, 1152921504606846976,
    385047090842481, 334511551207325, ⟨[[(11617533026187356, 0), (0, 340359985222168), (329933069000, 0),
    (1161568761, 0), (1754420, 0)], [(282445991180618, 0), (0, 526850057456), (0, 2005990049), (0, 2257872), (0,
    1980)], [(143731664747, 0), (1261233860, 0), (10793, 0), (0, 322), (0, 1)], [(0, 292124769), (996714, 0), (324,
    0)]], 3, 4⟩, 281474976710656, 24741702053,
    8319051787979400325603226699620415387350506352694978173751312299351784769623688079955315612089796932029063386312207646597130799227782224151,
    lc0⟩) (.leaf ⟨1155, 16, 2593, 1299, 16, 2773, ⟨[[(521820729770770432, 0), (95859846528117345, 0), (0,
    1410891719948), (215370528, 0), (2990, 0)], [(6547213368989548, 0), (7785548672365, 0), (1304675809, 0), (198433,
    0), (31, 0)], [(4937818154952, 0), (2717955677, 0), (833395, 0), (206, 0)], [(1363698514, 0), (1113698, 0), (508,
    0)]], 3, 4⟩, ⟨[[(0, 221432117101592576), (79459710606000935, 0), (0, 2686682703758), (286942143, 0), (0, 8957)],
    [(30236223770675775, 0), (6453561807379, 0), (958244181, 0), (143340, 0), (22, 0)], [(4652684085559, 0),
    (2252955532, 0), (647797, 0), (156, 0)], [(1208193204, 0), (923161, 0), (404, 0)]], 3, 4⟩, 1152921504606846976,
    924008150180792, 796607384603283, ⟨[[(11241970707334438, 0), (0, 337454764956757), (357647014410, 0),
    (1262798822, 0), (1934814, 0)], [(279822719427916, 0), (0, 558147841151), (0, 2182988689), (0, 2476977), (0,
    2191)], [(152876448866, 0), (1367528398, 0), (14353, 0), (0, 370), (0, 1)], [(0, 314051512), (1065774, 0), (356,
    0)]], 3, 4⟩, 281474976710656, 26338417016,
    7069425103975190632460630648837134147206543290368610492432225800093888450903623296470639633317089893829822672860184985058905144976013711639,
    lc0⟩))) (.sx (.leaf ⟨629, 16, 1363, 770, 16, 1609, ⟨[[(102730524921167872, 0), (97242231630608770, 0), (0,
    2960304974258), (731427517, 0), (0, 6425)], [(4283028766129356, 0), (8176048933679, 0), (2521074625, 0), (682992,
    0), (191, 0)], [(2805686285495, 0), (2886580343, 0), (1627301, 0), (736, 0)], [(782791357, 0), (1190944, 0),
    (1010, 0), (1, 0)]], 3, 4⟩, ⟨[[(341762800394043392, 0), (87263174387159052, 0), (0, 5793006460339), (1096093398,
    0), (0, 90427)], [(18146257013441864, 0), (7337017794982, 0), (1998646857, 0), (530749, 0), (147, 0)],
    [(2856169228619, 0), (2590357704, 0), (1367202, 0), (599, 0)], [(750750705, 0), (1068728, 0), (868, 0), (1, 0)]],
    3, 4⟩, 1152921504606846976, 884654843122832, 859932470934897, ⟨[[(13321051755339764, 0), (0, 586605354482208),
    (1109519411439, 0), (7086299232, 0), (19268401, 0)], [(526475166143893, 0), (0, 1859224557738), (0, 13571384318),
    (0, 26997014), (0, 41817)], [(550343386248, 0), (9393015144, 0), (298758, 0), (0, 7852), (0, 24)], [(0,
    2368685937), (13435060, 0), (8036, 0), (7, 0)]], 3, 4⟩, 281474976710656, 373443117483,
    5978797065359642771340911660097421171238658179937459655511953275215648797564924928837746063014301617128801779784252498150598044273265793303,
    lc0⟩) (.sx (.leaf ⟨631, 16, 1366, 814, 16, 1694, ⟨[[(269981895267844096, 0), (99046578772980344, 0), (0,
    2447725148050), (885957918, 0), (40572, 0)], [(2698829757918567, 0), (4688493196543, 0), (1617624195, 0),
    (513915, 0), (170, 0)], [(824612700108, 0), (917530268, 0), (580989, 0), (297, 0)], [(127105648, 0), (211961, 0),
    (196, 0)]], 3, 4⟩, ⟨[[(100792896903053312, 0), (93372306646184685, 0), (0, 5663567201639), (1280073014, 0), (0,
    56633)], [(10140709279107241, 0), (4419894456522, 0), (1366088507, 0), (427216, 0), (140, 0)], [(873979429220,
    0), (864965944, 0), (516615, 0), (257, 0)], [(127366672, 0), (199818, 0), (178, 0)]], 3, 4⟩, 1152921504606846976,
    223940100694668, 238067083153458, ⟨[[(11800984478002480, 0), (0, 551447943243250), (1054881246659, 0),
    (6269643968, 0), (16189838, 0)], [(520036936617220, 0), (0, 1833055010170), (0, 12448810770), (0, 23547274), (0,
    34673)], [(573165843287, 0), (8907627291, 0), (213720, 0), (0, 6945), (0, 20)], [(0, 2322772439), (12739632, 0),
    (7273, 0), (6, 0)]], 3, 4⟩, 281474976710656, 360487649183,
    5899479740608101873443615476923247062371308142006032705171278216208351802630986025457740975229841446409011719368432745385921878770116909335,
    lc0⟩) (.leaf ⟨623, 16, 1347, 805, 16, 1671, ⟨[[(64243562387472384, 0), (98843888133652281, 0), (0,
    1991160417719), (1015347257, 0), (88882, 0)], [(3078292247837602, 0), (5101051692542, 0), (1909828520, 0),
    (672864, 0), (240, 0)], [(913117707271, 0), (1076419515, 0), (735010, 0), (398, 0)], [(151109918, 0), (266289,
    0), (255, 0)]], 3, 4⟩, ⟨[[(206774187217911808, 0), (93212590289541670, 0), (0, 5228049687406), (1381203573, 0),
    (0, 15284)], [(10443755064599531, 0), (4810436441147, 0), (1628121529, 0), (565440, 0), (200, 0)],
    [(962140998944, 0), (1015094136, 0), (656650, 0), (346, 0)], [(150929805, 0), (251118, 0), (232, 0)]], 3, 4⟩,
    1152921504606846976, 590875475042508, 601250540230951, ⟨[[(11065429243765226, 0), (0, 556005688656406),
    (1114568991814, 0), (6654367281, 0), (17429790, 0)], [(524391475490718, 0), (0, 1923606105493), (0, 13128129182),
    (0, 25197670), (0, 37642)], [(602907594904, 0), (9319096411, 0), (197808, 0), (0, 7603), (0, 22)], [(0,
    2410600314), (13521043, 0), (7850, 0), (7, 0)]], 3, 4⟩, 281474976710656, 382556099550,
    6038877381094692197870401918498523176714484571184228832874907024770069024650108314613972711715607969148620697050905198454258078500952553292,
    lc0⟩)))
theorem c21 : checkC job ⟨6, 8, 6, 7, 9, 13⟩ 3 200 B1.zlims t21 1425 121 320 3259 175 3792 = true := by decide +kernel

def t22 : CTree :=
  .sx (.sy (.sx (.leaf ⟨683, 16, 1414, 886, 16, 1792, ⟨[[(0, 506695915922653184), (98383820416279815, 0), (0,
    2477218197860), (707491480, 0), (3482, 0)], [(3636189850166693, 0), (5044645932630, 0), (1610427986, 0), (463000,
    0), (141, 0)], [(990129445397, 0), (1033316428, 0), (609470, 0), (292, 0)], [(159523750, 0), (250407, 0), (219,
    0)]], 3, 4⟩, ⟨[[(0, 511527296202571776), (92516283826661236, 0), (0, 5406052493764), (1059802565, 0), (0,
    71922)], [(11426081624628353, 0), (4743787067156, 0), (1356631476, 0), (383173, 0), (116, 0)], [(1042018607655,
    0), (971690218, 0), (540808, 0), (252, 0)], [(159212422, 0), (235473, 0), (198, 0)]], 3, 4⟩, 1152921504606846976,
    138078052187288, 148161927753238, ⟨[[(13619486617927330, 0), (0, 523350103984521), (1023995028706, 0),
    (6084304847, 0), (15438511, 0)], [(492000219030085, 0), (0, 1747881346609), (0, 12287540681), (0, 22488790), (0,
    31859)], [(545495452893, 0), (8881591762, 0), (285931, 0), (0, 6638), (0, 17)], [(0, 2325513744), (11759308, 0),
    (6642, 0), (5, 0)]], 3, 4⟩, 281474976710656, 328968580393,
    4564020941430665773278530762657602538366294348350066200635847665297211421973992561163249961098546177651683034860562763410729469935782060884,
    lc0⟩) (.leaf ⟨672, 16, 1391, 874, 16, 1764, ⟨[[(300189051461959680, 0), (98047725524268412, 0), (0,
    2015119567778), (825066513, 0), (44876, 0)], [(4077931273204893, 0), (5501864479928, 0), (1916499526, 0),
    (620435, 0), (207, 0)], [(1099926786203, 0), (1220760267, 0), (782536, 0), (400, 0)], [(191411923, 0), (319621,
    0), (291, 0)]], 3, 4⟩, ⟨[[(155075924874362880, 0), (92260302726513401, 0), (0, 4964235149165), (1150852837, 0),
    (0, 36378)], [(11773388978435427, 0), (5177108186490, 0), (1631213458, 0), (520149, 0), (173, 0)],
    [(1151231466243, 0), (1148702952, 0), (698146, 0), (347, 0)], [(190447401, 0), (300755, 0), (264, 0)]], 3, 4⟩,
    1152921504606846976, 352757822429409, 359421957798447, ⟨[[(12697337349797646, 0), (0, 527897962224018),
    (1090952541451, 0), (6498377570, 0), (16741509, 0)], [(496890726901400, 0), (0, 1850719115473), (0, 13023604227),
    (0, 24223958), (0, 34866)], [(580078967805, 0), (9328596473, 0), (267129, 0), (0, 7331), (0, 19)], [(0,
    2421682720), (12577400, 0), (7232, 0), (6, 0)]], 3, 4⟩, 281474976710656, 352001240683,
    4310136971306249896216015964102310167036992829206838070388410331926559311438893030416842921507728547892603868736360621960887816826494092575,
    lc0⟩)) (.sx (.leaf ⟨712, 16, 1414, 932, 16, 1830, ⟨[[(219934104731516928, 0), (96911676333859530, 0), (0,
    1724091589084), (735470681, 0), (39750, 0)], [(5621317321766812, 0), (6370011013867, 0), (2222044347, 0),
    (725121, 0), (240, 0)], [(1441000005795, 0), (1591106629, 0), (1022732, 0), (511, 0)], [(280838033, 0), (464841,
    0), (408, 0)]], 3, 4⟩, ⟨[[(540751103629328384, 0), (91000621408967370, 0), (0, 4427641247157), (1010511517, 0),
    (0, 27101)], [(13552396908941255, 0), (5981476975456, 0), (1901895767, 0), (611675, 0), (201, 0)],
    [(1491863816352, 0), (1494058275, 0), (914237, 0), (445, 0)], [(277641852, 0), (436488, 0), (369, 0)]], 3, 4⟩,
    1152921504606846976, 547060461185045, 546489922040927, ⟨[[(13781513664206374, 0), (0, 507185662770840),
    (1121463162541, 0), (6758774116, 0), (17407293, 0)], [(476138841415849, 0), (0, 1867330451619), (0, 13643986942),
    (0, 25019161), (0, 35183)], [(585555344411, 0), (9755677113, 0), (296643, 0), (0, 7706), (0, 19)], [(0,
    2520031294), (12467605, 0), (7191, 0), (5, 0)]], 3, 4⟩, 281474976710656, 345060430506,
    8496301555454389981036355168696040196359331338569215704666792196218920685409610444943478640406869857099882328848827823077961292510768954082,
    lc0⟩) (.sy (.leaf ⟨1335, 16, 2674, 1666, 16, 3285, ⟨[[(38194305892614144, 0), (93392301310496089, 0), (0,
    644565708849), (214891661, 0), (10749, 0)], [(10893078754361272, 0), (6394603060115, 0), (1202938481, 0),
    (212761, 0), (36, 0)], [(2849610063129, 0), (1659894572, 0), (563007, 0), (143, 0)], [(574388669, 0), (492684,
    0), (217, 0)]], 3, 4⟩, ⟨[[(520928512905052160, 0), (83698758888328455, 0), (0, 1893268992758), (264721859, 0),
    (1390, 0)], [(24684199193594652, 0), (5730882869411, 0), (988000975, 0), (172194, 0), (29, 0)], [(2807972460785,
    0), (1487607797, 0), (481188, 0), (119, 0)], [(541100398, 0), (441547, 0), (187, 0)]], 3, 4⟩,
    1152921504606846976, 413782527389219, 383282863025479, ⟨[[(12874110163377332, 0), (0, 281112192978393),
    (349031087361, 0), (1147885551, 0), (1633521, 0)], [(251875903081304, 0), (0, 553400548181), (0, 2192053274), (0,
    2229214), (0, 1742)], [(165845816337, 0), (1484293838, 0), (22258, 0), (0, 363), (0, 1)], [(0, 363459762),
    (1012185, 0), (323, 0)]], 3, 4⟩, 281474976710656, 25464895786,
    2794578439525302418594561658249385424771874743288337755638382795493586677859773341722230209275930925584444993948140091704372010757649409770,
    lc0⟩) (.leaf ⟨1344, 16, 2637, 1686, 16, 3274, ⟨[[(530634149444190208, 0), (91734963747833985, 0), (0,
    404294817773), (229784628, 0), (15017, 0)], [(13104366135848277, 0), (7220041016953, 0), (1434504284, 0),
    (264635, 0), (43, 0)], [(3457527397528, 0), (2081544012, 0), (720996, 0), (175, 0)], [(765030001, 0), (655702,
    0), (272, 0)]], 3, 4⟩, ⟨[[(5628726237200384, 0), (82195013835933801, 0), (0, 1607861807853), (268712623, 0),
    (5626, 0)], [(26729064521993639, 0), (6469195027054, 0), (1187287037, 0), (215512, 0), (34, 0)], [(3381595623647,
    0), (1865074469, 0), (617752, 0), (145, 0)], [(718135968, 0), (587512, 0), (235, 0)]], 3, 4⟩,
    1152921504606846976, 974820518128443, 900989099748010, ⟨[[(12640026778728226, 0), (0, 279251573705508),
    (380679758481, 0), (1272955885, 0), (1849192, 0)], [(250200245284195, 0), (0, 595513288112), (0, 2419843038), (0,
    2497428), (0, 1969)], [(179039473374, 0), (1621586788, 0), (21279, 0), (0, 421), (0, 1)], [(0, 392887923),
    (1103017, 0), (361, 0)]], 3, 4⟩, 281474976710656, 27571089512,
    7939886773296226482975480314640309892212282124197710576636913806119094435976992223407159608192283853182843520409654854976925157966747040482,
    lc0⟩)))) (.sy (.sx (.leaf ⟨662, 16, 1367, 862, 16, 1734, ⟨[[(0, 507418980454891520), (97739526648981048, 0), (0,
    1475173985639), (983965502, 0), (103651, 0)], [(4566204098896678, 0), (6047881319382, 0), (2310829855, 0),
    (832349, 0), (292, 0)], [(1232740514534, 0), (1460041756, 0), (1007800, 0), (532, 0)], [(231870121, 0), (406797,
    0), (375, 0)]], 3, 4⟩, ⟨[[(0, 279693242733035520), (91993408608880570, 0), (0, 4447634148531), (1277252979, 0),
    (13970, 0)], [(12156120851625305, 0), (5692325679354, 0), (1985681014, 0), (704896, 0), (244, 0)],
    [(1282438233019, 0), (1374205733, 0), (902853, 0), (463, 0)], [(229948007, 0), (382881, 0), (340, 0)]], 3, 4⟩,
    1152921504606846976, 998841285572145, 997527651120754, ⟨[[(11967611776556432, 0), (0, 533550195387294),
    (1166473959814, 0), (7007833460, 0), (18393984, 0)], [(502000599544016, 0), (0, 1963547897887), (0, 13938873185),
    (0, 26416107), (0, 38714)], [(616673166504, 0), (9892378004, 0), (254560, 0), (0, 8211), (0, 22)], [(0,
    2544828092), (13564431, 0), (7967, 0), (6, 0)]], 3, 4⟩, 281474976710656, 379530715683,
    4926959931584123716092596694766119381301332511686520227713665989807731422775078715671948268672845183547439648651491389795608239515417102517,
    lc0⟩) (.sy (.leaf ⟨1250, 16, 2608, 1555, 16, 3146, ⟨[[(0, 338363621536169984), (94887011720385659, 0), (0,
    554835857194), (276455391, 0), (18961, 0)], [(8833370885114860, 0), (6062188790411, 0), (1236125095, 0), (237793,
    0), (43, 0)], [(2428710320129, 0), (1508406786, 0), (546083, 0), (148, 0)], [(468378467, 0), (425385, 0), (201,
    0)]], 3, 4⟩, ⟨[[(373623831022272512, 0), (85430996279406955, 0), (0, 1947453565268), (329582852, 0), (6394, 0)],
    [(22272286656342786, 0), (5458058153679, 0), (1020433585, 0), (193379, 0), (34, 0)], [(2411443521654, 0),
    (1358085709, 0), (468645, 0), (123, 0)], [(443765815, 0), (382993, 0), (174, 0)]], 3, 4⟩, 1152921504606846976,
    429591203230944, 399873859919904, ⟨[[(11168526170386642, 0), (0, 293025395310127), (351760733607, 0),
    (1143457818, 0), (1638879, 0)], [(263778008300380, 0), (0, 566530342864), (0, 2158992708), (0, 2243166), (0,
    1805)], [(170313513259, 0), (1456097123, 0), (17786, 0), (0, 364), (0, 1)], [(0, 356398930), (1057587, 0), (339,
    0)]], 3, 4⟩, 281474976710656, 26922384213,
    2668856544843497843365101629453312171412654330855160528318353769466169298399694025883765502395954865450094814150748821652393286840904084095,
    lc0⟩) (.leaf ⟨1261, 16, 2572, 1577, 16, 3138, ⟨[[(0, 212042440987639808), (93297879205550384, 0), (0,
    245550886567), (303482427, 0), (25531, 0)], [(10963968835473309, 0), (6925700981554, 0), (1498766453, 0),
    (300589, 0), (52, 0)], [(2988501459775, 0), (1923183457, 0), (713432, 0), (188, 0)], [(635632870, 0), (581312,
    0), (268, 0)]], 3, 4⟩, ⟨[[(50552643996090368, 0), (83976172037561947, 0), (0, 1591123184189), (342017540, 0),
    (12674, 0)], [(24254603020529186, 0), (6233730734933, 0), (1247313714, 0), (245964, 0), (42, 0)],
    [(2942314175581, 0), (1731031683, 0), (613908, 0), (157, 0)], [(599858309, 0), (523231, 0), (232, 0)]], 3, 4⟩,
    1152921504606846976, 1072596359026978, 996470548274988, ⟨[[(11057777763824186, 0), (0, 291381716143949),
    (382863565834, 0), (1266329984, 0), (1854692, 0)], [(262240397733563, 0), (0, 607363899484), (0, 2386401219), (0,
    2516699), (0, 2047)], [(183140840626, 0), (1597690348, 0), (18379, 0), (0, 425), (0, 1)], [(0, 387572411),
    (1154547, 0), (380, 0)]], 3, 4⟩, 281474976710656, 29209900510,
    3673481442900376933284668228773881646695434550221220301322676198318417974182267656841745828781084372876070204398904631976715451070831946367,
    lc0⟩))) (.sx (.sy (.leaf ⟨1301, 16, 2602, 1631, 16, 3204, ⟨[[(529336368873078784, 0), (92485302066410326, 0), (0,
    308676011958), (268133783, 0), (20369, 0)], [(12047897676290458, 0), (7096168346575, 0), (1475905100, 0),
    (284145, 0), (47, 0)], [(3228347307896, 0), (2012276344, 0), (720854, 0), (181, 0)], [(701543970, 0), (619844,
    0), (268, 0)]], 3, 4⟩, ⟨[[(0, 506457266104565760), (83079123236357980, 0), (0, 1583147818534), (306258243, 0),
    (9262, 0)], [(25501124333407816, 0), (6374455523189, 0), (1225602958, 0), (232032, 0), (37, 0)], [(3168115481525,
    0), (1807618623, 0), (619127, 0), (150, 0)], [(660437336, 0), (556803, 0), (232, 0)]], 3, 4⟩,
    1152921504606846976, 1051018834726528, 974200927736585, ⟨[[(11633116931769720, 0), (0, 284804283128872),
    (385173470393, 0), (1276908924, 0), (1863259, 0)], [(255927969580418, 0), (0, 605890195341), (0, 2413453215), (0,
    2519305), (0, 2019)], [(182650776651, 0), (1614066103, 0), (19220, 0), (0, 426), (0, 1)], [(0, 390681324),
    (1132817, 0), (372, 0)]], 3, 4⟩, 281474976710656, 28480995654,
    3304362383836422829758471070974039466258936818966347298259536391030023801699509735483029398693719886049348003907069496467998591067262208181,
    lc0⟩) (.leaf ⟨1305, 16, 2555, 1643, 16, 3179, ⟨[[(574068086890561536, 0), (90703006710709172, 0), (0,
    10513709170), (295384174, 0), (25841, 0)], [(14459282935510418, 0), (8093226437121, 0), (1777855559, 0), (348310,
    0), (52, 0)], [(3956317042185, 0), (2541077561, 0), (913152, 0), (213, 0)], [(936997876, 0), (817610, 0), (336,
    0)]], 3, 4⟩, ⟨[[(0, 338397987310141440), (81444796238325678, 0), (0, 1243683009298), (320422777, 0), (14408, 0)],
    [(27675205064860075, 0), (7267137022086, 0), (1486258119, 0), (285408, 0), (41, 0)], [(3853065270562, 0),
    (2281705444, 0), (785367, 0), (176, 0)], [(879224499, 0), (734155, 0), (290, 0)]], 3, 4⟩, 1152921504606846976,
    2549470019846352, 2359487112409105, ⟨[[(11663438766768754, 0), (0, 284508936703711), (421378297090, 0),
    (1432615082, 0), (2144833, 0)], [(255502407291351, 0), (0, 654697041845), (0, 2699414961), (0, 2873135), (0,
    2334)], [(197674155738, 0), (1789714561, 0), (18742, 0), (0, 505), (0, 1)], [(0, 429361837), (1257058, 0), (425,
    0)]], 3, 4⟩, 281474976710656, 31422793723,
    7778062984204275377297032606569520563609353384662023815531811581276432027845788565242647952279935979811867938320794393246113938449355430167,
    lc0⟩)) (.sy (.leaf ⟨1265, 16, 2524, 1591, 16, 3115, ⟨[[(76518368657014784, 0), (91502086154586007, 0),
    (91951570125, 0), (338052125, 0), (32489, 0)], [(13331728137366477, 0), (7943606399807, 0), (1820508799, 0),
    (373332, 0), (61, 0)], [(3687466911418, 0), (2451043935, 0), (919257, 0), (234, 0)], [(859156749, 0), (785747,
    0), (359, 0)]], 3, 4⟩, ⟨[[(0, 419404332703416320), (82382253235438621, 0), (0, 1212124995997), (361707987, 0),
    (19131, 0)], [(26405428966631585, 0), (7151882777033, 0), (1526646572, 0), (306901, 0), (48, 0)],
    [(3603896013540, 0), (2206753208, 0), (792950, 0), (195, 0)], [(808508810, 0), (707433, 0), (312, 0)]], 3, 4⟩,
    1152921504606846976, 2666473212329070, 2475243633691359, ⟨[[(10873460552194768, 0), (0, 290494926918256),
    (421937354952, 0), (1425820708, 0), (2142724, 0)], [(261563300891648, 0), (0, 660009391565), (0, 2677527263), (0,
    2879106), (0, 2374)], [(199660544488, 0), (1776111979, 0), (17555, 0), (0, 507), (0, 1)], [(0, 426587681),
    (1284751, 0), (436, 0)]], 3, 4⟩, 281474976710656, 32317035323,
    4151832365752308657822005639568799263220179513520436958576818743695333458764504079181279730228297860083917287202662732981376324541813123711,
    lc0⟩) (.sx (.leaf ⟨1355, 16, 2647, 1794, 16, 3463, ⟨[[(0, 15353163299946496), (95582892228597620, 0),
    (356795257331, 0), (379354468, 0), (37594, 0)], [(8284860285351244, 0), (4714986836229, 0), (1111481800, 0),
    (225464, 0), (33, 0)], [(1169483669352, 0), (786258569, 0), (291213, 0), (71, 0)], [(145551192, 0), (131142, 0),
    (59, 0)]], 3, 4⟩, ⟨[[(381502031835430912, 0), (90244501820661807, 0), (0, 1030728295447), (412300996, 0), (24639,
    0)], [(15885865537240341, 0), (4451650585220, 0), (981942699, 0), (194673, 0), (27, 0)], [(1192046785936, 0),
    (742345321, 0), (263698, 0), (62, 0)], [(143350597, 0), (123818, 0), (54, 0)]], 3, 4⟩, 1152921504606846976,
    134752666151560, 131107754578102, ⟨[[(11304058793648636, 0), (0, 259907598861168), (362603420297, 0),
    (1127721364, 0), (1552121, 0)], [(245271531316386, 0), (0, 589522994901), (0, 2223015284), (0, 2174804), (0,
    1622)], [(187165425698, 0), (1540231883, 0), (12981, 0), (0, 371)], [(0, 386268044), (1043224, 0), (325, 0)]], 3,
    4⟩, 281474976710656, 26752795281,
    6984419172756696761570676167835576543392392365913131687668730222062903326745294705243792539083016354459975084111803244565350409803213125452,
    lc0⟩) (.leaf ⟨1334, 16, 2603, 1771, 16, 3411, ⟨[[(269352471219929088, 0), (95163303587395970, 0), (633026987041,
    0), (431103666, 0), (45717, 0)], [(8730021782119569, 0), (5034805959429, 0), (1242847253, 0), (259643, 0), (40,
    0)], [(1260955573535, 0), (875214340, 0), (335237, 0), (89, 0)], [(163123907, 0), (153599, 0), (78, 0)]], 3, 4⟩,
    ⟨[[(0, 307518007366123520), (89995147972323539, 0), (0, 765169044785), (456367116, 0), (31526, 0)],
    [(16241502400652578, 0), (4761374292924, 0), (1103194849, 0), (225009, 0), (34, 0)], [(1283486696595, 0),
    (827682952, 0), (304488, 0), (78, 0)], [(160701773, 0), (145257, 0), (72, 0)]], 3, 4⟩, 1152921504606846976,
    221518659522638, 215749688942016, ⟨[[(10647449844769424, 0), (0, 261822228087188), (384249188286, 0),
    (1202768078, 0), (1680968, 0)], [(247590520885501, 0), (0, 622153457408), (0, 2357519930), (0, 2343283), (0,
    1775)], [(198073115816, 0), (1622220926, 0), (10661, 0), (0, 409), (0, 1)], [(0, 404246542), (1118027, 0), (354,
    0)]], 3, 4⟩, 281474976710656, 28654348414,
    6448755085067024639029244739706176298028225135960357547784319825356855105952059951987400619218041015078372810979804436002547929183945123431,
    lc0⟩)))))
theorem c22 : checkC job ⟨6, 8, 6, 7, 9, 13⟩ 3 200 B1.zlims t22 1425 121 320 3609 175 3792 = true := by decide +kernel

end PyX.Kron.P1hs
