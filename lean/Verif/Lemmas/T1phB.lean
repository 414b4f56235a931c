import Verif.Lemmas.T1phJob

/-!
# Temperature from pressure and enthalpy in region 1, part B of the certificate
-/

namespace PyX.Kron.T1ph

set_option Elab.async false

def t13 : CTree :=
  .sy (.sx (.sx (.leaf ⟨780, 16, 9, 1867, 16, 1178, ⟨[[(0, 539376424121856)], [(0, 1046875807131107)]], 2, 3⟩, ⟨[[(0,
    1940694669543424), (393226443845913, 0), (0, 20645603431), (1379166, 0)], [(1567798534415, 0), (18727842940, 0),
    (2819954, 0), (147, 0)], [(6156252167, 0), (4086946, 0), (1186, 0)]], 2, 3⟩, 4503599627370496, 82, 1373960644058,
    ⟨[[(663111366949182, 0), (504939341111, 0), (0, 128268744), (39688, 0)], [(804033256, 0), (105249339, 0),
    (195223, 0), (116, 0)], [(0, 11632020), (0, 62133), (0, 148)]], 2, 3⟩, 1099511627776, 288444490,
    49589829510820095702303884689783680549749423714978513401913760591255363293821296193715369, lc0⟩) (.leaf ⟨752, 16,
    9, 1852, 16, 1169, ⟨[[(0, 2157435327742976)], [(0, 1046875807131107)]], 2, 3⟩, ⟨[[(1671541724973056, 0),
    (392551779287413, 0), (0, 20128115305), (1389851, 0)], [(3097348360865, 0), (19621770728, 0), (3106387, 0), (204,
    0)], [(6533671545, 0), (4453446, 0), (1353, 0)]], 2, 3⟩, 4503599627370496, 45, 1456370787240,
    ⟨[[(662707252518009, 0), (506008421882, 0), (0, 135990297), (34567, 0)], [(1390407654, 0), (109250922, 0),
    (205539, 0), (127, 0)], [(0, 12196898), (0, 62984), (0, 128)]], 2, 3⟩, 1099511627776, 290300136,
    47900450491254954644249963866045347266812644780456675996521421979833423426148108055774969, lc0⟩)) (.leaf ⟨630,
    26, 8, 1815, 16, 1145, ⟨[[(928867423144960, 0)], [(0, 1861112546010857)]], 2, 3⟩, ⟨[[(0, 2189409622676480),
    (388163055546501, 0), (0, 19110293956), (1407529, 0)], [(11005926590348, 0), (41876736954, 0), (7169506, 0),
    (623, 0)], [(28451198709, 0), (20234050, 0), (6608, 0), (1, 0)]], 2, 3⟩, 4503599627370496, 234, 7686798525993,
    ⟨[[(663146349950838, 0), (511356072822, 0), (0, 151182063), (34988, 0)], [(2954221405, 0), (132694462, 0),
    (256090, 0), (157, 0)], [(0, 17402615), (0, 94937), (0, 227)]], 2, 3⟩, 1099511627776, 673518037,
    47299539948283440820290496099445930424687127494234868599513279445697692215113508731990988, lc0⟩)) (.sx (.sy
    (.leaf ⟨681, 26, 8, 3766, 16, 2348, ⟨[[(0, 1698982959425536)], [(0, 1861112546010857)]], 2, 3⟩, ⟨[[(0,
    1263660290420736), (382599849767272, 0), (0, 9716877820), (266363, 0)], [(30252828508052, 0), (41516577570, 0),
    (3071213, 0), (52, 0)], [(60435468579, 0), (19930101, 0), (2938, 0)]], 2, 3⟩, 4503599627370496, 46,
    8905968629312, ⟨[[(674318353633902, 0), (249695456004, 0), (0, 31561071), (17256, 0)], [(4082591215, 0),
    (65482844, 0), (57664, 0), (1, 0)], [(0, 16884520), (0, 42971), (0, 43)]], 2, 3⟩, 1099511627776, 263980178,
    45514136615925893996763442130613688574453541763214014587302940647354234720836721506111871, lc0⟩) (.leaf ⟨681, 26,
    8, 3808, 16, 2356, ⟨[[(0, 1698982959425536)], [(0, 1861112546010857)]], 2, 3⟩, ⟨[[(550783192348672, 0),
    (377169824082376, 0), (0, 9498783109), (210666, 0)], [(45315646417130, 0), (43830747068, 0), (3120445, 0), (20,
    0)], [(68014056930, 0), (22167586, 0), (3257, 0)]], 2, 3⟩, 4503599627370496, 46, 10409802112837,
    ⟨[[(681550722553306, 0), (247071683688, 0), (0, 29367328), (28736, 0)], [(6034816201, 0), (68591880, 0), (56714,
    0), (0, 14)], [(0, 18170556), (0, 45360), (0, 44)]], 2, 3⟩, 1099511627776, 283485244,
    37960502830239199083486838056559345459984638934240371643852912715281028169188036173010726, lc0⟩)) (.sy (.leaf
    ⟨630, 26, 8, 3662, 16, 2283, ⟨[[(928867423144960, 0)], [(0, 1861112546010857)]], 2, 3⟩, ⟨[[(2132114272092160, 0),
    (377242485412946, 0), (0, 9036324786), (269896, 0)], [(44869511141111, 0), (45624625593, 0), (3803424, 0), (134,
    0)], [(68280804282, 0), (23944519, 0), (3910, 0)]], 2, 3⟩, 4503599627370496, 234, 11009538832293,
    ⟨[[(674128827986184, 0), (253232575510, 0), (0, 36597967), (18820, 0)], [(5943205490, 0), (72183553, 0), (65900,
    0), (2, 0)], [(0, 19563580), (0, 52739), (0, 62)]], 2, 3⟩, 1099511627776, 483410827,
    43625377512115351078982218732104550058511125070359914474104369818750781440621375961547913, lc0⟩) (.leaf ⟨630, 26,
    8, 3693, 16, 2284, ⟨[[(928867423144960, 0)], [(0, 1861112546010857)]], 2, 3⟩, ⟨[[(741603378935808, 0),
    (371171758680682, 0), (0, 8786933768), (211885, 0)], [(61336463447537, 0), (48355219391, 0), (3935832, 0), (113,
    0)], [(77193134516, 0), (26857548, 0), (4391, 0)]], 2, 3⟩, 4503599627370496, 234, 12986827817187,
    ⟨[[(681538548878976, 0), (251032102906, 0), (0, 34308173), (33135, 0)], [(8121013147, 0), (76012479, 0), (65215,
    0), (0, 17)], [(0, 21167526), (0, 56442), (0, 65)]], 2, 3⟩, 1099511627776, 562488773,
    37847463928100486612830432820501444574782376102080507572774961450191695622887596663315777, lc0⟩)))
theorem c13 : checkC job ⟨6, 8, 5, 6, 9, 13⟩ 1 40 B1.zlims t13 343 61 160 3609 175 3792 = true := by decide +kernel

def t14 : CTree :=
  .sy (.sy (.sx (.leaf ⟨555, 52, 8, 1174, 16, 836, ⟨[[(0, 1884756444054528)], [(0, 3722225092021715)]], 2, 3⟩,
    ⟨[[(2218849967866880, 0), (366396504812139, 0), (0, 25746468449), (3063726, 0)], [(0, 71898598920765),
    (32501224552, 0), (5842047, 0), (975, 0)], [(18156709761, 0), (16952516, 0), (6406, 0), (2, 0)]], 2, 3⟩,
    4503599627370496, 28, 9551682605042, ⟨[[(552522880320597, 0), (765551040049, 0), (0, 184534173), (0, 342041)],
    [(0, 14922587025), (88321567, 0), (228977, 0), (483, 0)], [(0, 6193065), (0, 53310), (0, 212), (0, 1)]], 2, 3⟩,
    1099511627776, 794077423,
    44908001311887456223494642535424987472142775860169599982505314056062243859834336116927278, lc0⟩) (.sx (.sy (.leaf
    ⟨479, 26, 8, 2311, 16, 1657, ⟨[[(0, 194780683883776)], [(0, 1861112546010857)]], 2, 3⟩, ⟨[[(0, 1031817883355136),
    (370640782688362, 0), (0, 12882328756), (809101, 0)], [(0, 70791693966464), (17173079751, 0), (1693007, 0), (158,
    0)], [(9435412221, 0), (4642410, 0), (952, 0)]], 2, 3⟩, 4503599627370496, 31, 1124033605950, ⟨[[(547508034681368,
    0), (384301426194, 0), (0, 49414482), (0, 48009)], [(0, 14668945047), (46910793, 0), (63893, 0), (70, 0)], [(0,
    6710536), (0, 29518), (0, 61)]], 2, 3⟩, 1099511627776, 79313896,
    47222781838535217959989131455411777508518846725357689279989716555435170428647254635630882, lc0⟩) (.leaf ⟨479, 26,
    8, 2404, 16, 1703, ⟨[[(0, 194780683883776)], [(0, 1861112546010857)]], 2, 3⟩, ⟨[[(775148441980928, 0),
    (371961684124450, 0), (0, 12392814073), (782473, 0)], [(0, 66359244431685), (18929158852, 0), (1917493, 0), (176,
    0)], [(11493190249, 0), (5508686, 0), (1133, 0)]], 2, 3⟩, 4503599627370496, 31, 1391789719596,
    ⟨[[(558253529694113, 0), (371110427805, 0), (0, 50683557), (0, 45968)], [(0, 13300473705), (49299725, 0), (66378,
    0), (72, 0)], [(0, 7588803), (0, 32247), (0, 65)]], 2, 3⟩, 1099511627776, 89789325,
    47607070565873443177889773732559365013053588906680171701534569309447839877967707059313462, lc0⟩)) (.sy (.leaf
    ⟨429, 26, 8, 2301, 16, 1651, ⟨[[(0, 2070529928683520)], [(0, 1861112546010857)]], 2, 3⟩, ⟨[[(0,
    2139912452675584), (371457819055910, 0), (0, 12614920220), (827576, 0)], [(0, 68134819627374), (18308159975, 0),
    (1939543, 0), (195, 0)], [(10294847541, 0), (5204501, 0), (1130, 0)]], 2, 3⟩, 4503599627370496, 95,
    1273686227851, ⟨[[(547598613123757, 0), (383440620111, 0), (0, 52895181), (0, 52144)], [(0, 14048972302),
    (49954138, 0), (70424, 0), (79, 0)], [(0, 7270700), (0, 32227), (0, 67)]], 2, 3⟩, 1099511627776, 79500712,
    49968307951555611976500008894663243458571776079955748032996785165090747223963900700080857, lc0⟩) (.leaf ⟨429, 26,
    8, 2394, 16, 1697, ⟨[[(0, 2070529928683520)], [(0, 1861112546010857)]], 2, 3⟩, ⟨[[(0, 227320434194432),
    (373037624871975, 0), (0, 12098158277), (803639, 0)], [(0, 63193809263506), (20289523179, 0), (2213367, 0), (219,
    0)], [(12604102324, 0), (6230518, 0), (1361, 0)]], 2, 3⟩, 4503599627370496, 95, 1595205124024,
    ⟨[[(558332890381441, 0), (370031944415, 0), (0, 54323629), (0, 50228)], [(0, 12587483715), (52641500, 0), (73371,
    0), (82, 0)], [(0, 8231995), (0, 35277), (0, 72)]], 2, 3⟩, 1099511627776, 90220810,
    49541393813248549077486424755552077657913167246874158570909811442017483681024080561701905, lc0⟩)))) (.sx (.sx
    (.leaf ⟨580, 26, 8, 1316, 16, 915, ⟨[[(0, 946881821654528)], [(0, 1861112546010857)]], 2, 3⟩,
    ⟨[[(1611878239377408, 0), (381262564966888, 0), (0, 25104164251), (2901367, 0)], [(0, 33519488469762),
    (19513862145, 0), (3527439, 0), (539, 0)], [(6512637316, 0), (5676349, 0), (2071, 0)]], 2, 3⟩, 4503599627370496,
    148, 2772830958690, ⟨[[(573780915521386, 0), (691421542749, 0), (0, 173417704), (0, 263461)], [(0, 12603834966),
    (90761679, 0), (219002, 0), (436, 0)], [(0, 7459483), (0, 57332), (0, 204)]], 2, 3⟩, 1099511627776, 168844057,
    34434237754526521404760475434818460049536183411445156965313965672067514115095210632505264, lc0⟩) (.leaf ⟨529, 26,
    8, 1308, 16, 910, ⟨[[(1680968560915968, 0)], [(0, 1861112546010857)]], 2, 3⟩, ⟨[[(1277793496058880, 0),
    (381634450258372, 0), (0, 24506372483), (2958813, 0)], [(0, 31678939220898), (20874067515, 0), (4059892, 0),
    (672, 0)], [(7122795394, 0), (6400429, 0), (2480, 0), (1, 0)]], 2, 3⟩, 4503599627370496, 99, 2948526827332,
    ⟨[[(573845061173653, 0), (690711982989, 0), (0, 186481255), (0, 291422)], [(0, 11876898264), (97132213, 0),
    (243099, 0), (497, 0)], [(0, 8284761), (0, 64818), (0, 241), (0, 1)]], 2, 3⟩, 1099511627776, 160753074,
    42903144877443500843309798048660737522460869042157371024778680489583235771245972182922814, lc0⟩)) (.sx (.leaf
    ⟨479, 26, 8, 1302, 16, 906, ⟨[[(0, 194780683883776)], [(0, 1861112546010857)]], 2, 3⟩, ⟨[[(0, 1338200534883328),
    (382591498467439, 0), (0, 23866288191), (3037748, 0)], [(0, 29721225185392), (22443977735, 0), (4706970, 0),
    (847, 0)], [(7831936913, 0), (7276605, 0), (3004, 0), (1, 0)]], 2, 3⟩, 4503599627370496, 31, 3165340256521,
    ⟨[[(574244914866390, 0), (688815251676, 0), (0, 200788972), (0, 322049)], [(0, 11032016572), (104300730, 0),
    (270873, 0), (574, 0)], [(0, 9116870), (0, 72245), (0, 277), (0, 1)]], 2, 3⟩, 1099511627776, 155196395,
    48005149400007660457783023437303726123834633378888016131368276040941716105493902991744325, lc0⟩) (.leaf ⟨429, 26,
    8, 1294, 16, 901, ⟨[[(0, 2070529928683520)], [(0, 1861112546010857)]], 2, 3⟩, ⟨[[(0, 1148288156052480),
    (383315987011839, 0), (0, 23115834896), (3137570, 0)], [(0, 27555019141267), (24214874548, 0), (5490284, 0),
    (1081, 0)], [(8644820546, 0), (8331358, 0), (3676, 0), (1, 0)]], 2, 3⟩, 4503599627370496, 95, 3447598952321,
    ⟨[[(574213096777921, 0), (687559652628, 0), (0, 216571030), (0, 357957)], [(0, 10169424867), (112014245, 0),
    (301976, 0), (666, 0)], [(0, 9900045), (0, 79430), (0, 312), (0, 1)]], 2, 3⟩, 1099511627776, 154108329,
    49310709255613410266848159654374255147395657452981365308026115591738338694672549641647504, lc0⟩)))) (.sx (.sy
    (.sx (.leaf ⟨580, 26, 8, 1413, 16, 961, ⟨[[(0, 946881821654528)], [(0, 1861112546010857)]], 2, 3⟩, ⟨[[(0,
    153259827226624), (383042975338923, 0), (0, 23380837648), (2645732, 0)], [(0, 27552572711108), (23304656355, 0),
    (4335365, 0), (636, 0)], [(9216250941, 0), (7686895, 0), (2778, 0), (1, 0)]], 2, 3⟩, 4503599627370496, 148,
    3063824087731, ⟨[[(593927708998225, 0), (647973449066, 0), (0, 178522647), (0, 232109)], [(0, 9738242525),
    (99811782, 0), (237017, 0), (456, 0)], [(0, 9331679), (0, 67267), (0, 228), (0, 1)]], 2, 3⟩, 1099511627776,
    213021070, 29595210708704344136883396595229829126904551550527722369617873966821890137467358944031714, lc0⟩)
    (.leaf ⟨529, 26, 8, 1405, 16, 956, ⟨[[(1680968560915968, 0)], [(0, 1861112546010857)]], 2, 3⟩, ⟨[[(0,
    435464250234880), (383997738359518, 0), (0, 22688890419), (2719833, 0)], [(0, 25051205161780), (25187115394, 0),
    (5062646, 0), (817, 0)], [(10186018517, 0), (8816660, 0), (3411, 0), (1, 0)]], 2, 3⟩, 4503599627370496, 99,
    3375836645476, ⟨[[(593980192167845, 0), (646311359691, 0), (0, 192744527), (0, 260884)], [(0, 8798262990),
    (107381717, 0), (264509, 0), (528, 0)], [(0, 10415939), (0, 76939), (0, 278), (0, 1)]], 2, 3⟩, 1099511627776,
    200996563, 39812820840087438975737227033822594211307863013405798438719481910805775428565415737680908, lc0⟩))
    (.leaf ⟨555, 52, 8, 1475, 16, 983, ⟨[[(0, 1884756444054528)], [(0, 3722225092021715)]], 2, 3⟩, ⟨[[(0,
    510865597753344), (377715644445602, 0), (0, 20945181102), (2379528, 0)], [(0, 35382268242438), (56950251501, 0),
    (11256129, 0), (1682, 0)], [(53214493807, 0), (43807353, 0), (16338, 0), (4, 0)]], 2, 3⟩, 4503599627370496, 28,
    26043855399146, ⟨[[(612714544696409, 0), (619926277264, 0), (0, 196634388), (0, 224048)], [(0, 6041810136),
    (116359691, 0), (281708, 0), (527, 0)], [(0, 12204061), (0, 86442), (0, 304), (0, 1)]], 2, 3⟩, 1099511627776,
    1749389423, 38490241356452742241144831956128855463631282441110940774804908394507985598060590342673585, lc0⟩))
    (.sy (.sx (.leaf ⟨479, 26, 8, 1395, 16, 950, ⟨[[(0, 194780683883776)], [(0, 1861112546010857)]], 2, 3⟩,
    ⟨[[(2009802299328512, 0), (384778392686051, 0), (0, 21878352257), (2816369, 0)], [(0, 22283312997844),
    (27335510377, 0), (5956685, 0), (1064, 0)], [(11309663279, 0), (10196027, 0), (4239, 0), (1, 0)]], 2, 3⟩,
    4503599627370496, 31, 3787594271673, ⟨[[(593630711221085, 0), (645282589480, 0), (0, 208278922), (0, 294418)],
    [(0, 7838753088), (115565808, 0), (296173, 0), (621, 0)], [(0, 11410737), (0, 85936), (0, 325), (0, 1)]], 2, 3⟩,
    1099511627776, 190539587,
    45224754062006433298193713870083115892115645936962367676308961730647774364766278574051980, lc0⟩) (.leaf ⟨429, 26,
    8, 1386, 16, 944, ⟨[[(0, 2070529928683520)], [(0, 1861112546010857)]], 2, 3⟩, ⟨[[(322945053128704, 0),
    (385821225433290, 0), (0, 20950180353), (2947601, 0)], [(0, 19234522836684), (29844203670, 0), (7077361, 0),
    (1405, 0)], [(12639824983, 0), (11915055, 0), (5338, 0), (2, 0)]], 2, 3⟩, 4503599627370496, 95, 4298948539344,
    ⟨[[(593871315008759, 0), (643431023620, 0), (0, 226602110), (0, 334235)], [(0, 6667274845), (125279905, 0),
    (334678, 0), (741, 0)], [(0, 12477903), (0, 95557), (0, 374), (0, 1)]], 2, 3⟩, 1099511627776, 191080001,
    45604580222413846319074830991090165241184064039463885018532377098044196823799466551153538, lc0⟩)) (.sx (.leaf
    ⟨479, 26, 8, 1494, 16, 996, ⟨[[(0, 194780683883776)], [(0, 1861112546010857)]], 2, 3⟩, ⟨[[(0, 1036609753442304),
    (388395135119002, 0), (0, 20021459100), (2608361, 0)], [(0, 12516419128960), (33467586757, 0), (7534176, 0),
    (1349, 0)], [(16202100725, 0), (14320866, 0), (6016, 0), (2, 0)]], 2, 3⟩, 4503599627370496, 31, 5031842632893,
    ⟨[[(612793724024485, 0), (602794991957, 0), (0, 213900868), (0, 259553)], [(0, 4087519936), (128897096, 0),
    (326059, 0), (663, 0)], [(0, 14310060), (0, 103417), (0, 393), (0, 1)]], 2, 3⟩, 1099511627776, 242718232,
    40112243874996648713833590729362625322558616922374270566941803770751399909015828393832121, lc0⟩) (.leaf ⟨429, 26,
    8, 1481, 16, 988, ⟨[[(0, 2070529928683520)], [(0, 1861112546010857)]], 2, 3⟩, ⟨[[(2210578927479808, 0),
    (389550680417235, 0), (0, 18851617349), (2780145, 0)], [(0, 8224517426065), (37004315335, 0), (9142783, 0),
    (1854, 0)], [(18360800380, 0), (17113853, 0), (7817, 0), (3, 0)]], 2, 3⟩, 4503599627370496, 95, 5967450465465,
    ⟨[[(612360014136268, 0), (601377390470, 0), (0, 234088515), (0, 303265)], [(0, 2726963693), (140218000, 0),
    (372027, 0), (818, 0)], [(0, 15601395), (0, 115391), (0, 459), (0, 2)]], 2, 3⟩, 1099511627776, 237308869,
    40877223903852000440793309688891040636643532599404188673822461521514597650968136644104084, lc0⟩))))
theorem c14 : checkC job ⟨6, 8, 5, 6, 9, 13⟩ 1 40 B1.zlims t14 263 61 80 1367 175 1896 = true := by decide +kernel

def t15 : CTree :=
  .sx (.sy (.leaf ⟨555, 52, 8, 1586, 16, 1037, ⟨[[(0, 1884756444054528)], [(0, 3722225092021715)]], 2, 3⟩,
    ⟨[[(1336486629426176, 0), (383875504427086, 0), (0, 19651917395), (2148004, 0)], [(0, 14765209063515),
    (69071375755, 0), (13859691, 0), (2008, 0)], [(74621038107, 0), (60008939, 0), (22421, 0), (6, 0)]], 2, 3⟩,
    4503599627370496, 28, 38354974973334, ⟨[[(630163972449688, 0), (576552550619, 0), (0, 193063735), (0, 168870)],
    [(0, 2496000034), (126727930, 0), (295569, 0), (490, 0)], [(0, 14926134), (0, 100453), (0, 349), (0, 1)]], 2, 3⟩,
    1099511627776, 2322120710,
    30845489146380610227944867876170308096266107420063965632654105637565630472966844584123658, lc0⟩) (.leaf ⟨555, 52,
    8, 1672, 16, 1073, ⟨[[(0, 1884756444054528)], [(0, 3722225092021715)]], 2, 3⟩, ⟨[[(0, 1342654926134272),
    (383740198604135, 0), (0, 18191642547), (1858451, 0)], [(11584944042040, 0), (82301849930, 0), (16652798, 0),
    (2325, 0)], [(102056327664, 0), (80709066, 0), (30334, 0), (8, 0)]], 2, 3⟩, 4503599627370496, 28, 55938675131004,
    ⟨[[(647227824267733, 0), (545654100223, 0), (0, 192246353), (0, 95786)], [(1571030513, 0), (140837950, 0),
    (317295, 0), (436, 0)], [(0, 18271610), (0, 120216), (0, 428), (0, 1)]], 2, 3⟩, 1099511627776, 3201543596,
    30357585277230642822210999688166224694919025468486635009795797292113656170607742763615179, lc0⟩)) (.sy (.sx
    (.leaf ⟨479, 26, 8, 1592, 16, 1041, ⟨[[(0, 194780683883776)], [(0, 1861112546010857)]], 2, 3⟩,
    ⟨[[(1186710237409280, 0), (392255901199548, 0), (0, 18237433800), (2399247, 0)], [(189116408948, 0),
    (41045466615, 0), (9509960, 0), (1717, 0)], [(23028989802, 0), (20126897, 0), (8582, 0), (3, 0)]], 2, 3⟩,
    4503599627370496, 31, 7154746522128, ⟨[[(630195678034266, 0), (564167651962, 0), (0, 216077287), (0, 210967)],
    [(0, 31200844), (143253283, 0), (356545, 0), (688, 0)], [(0, 17697772), (0, 124471), (0, 486), (0, 2)]], 2, 3⟩,
    1099511627776, 328544783,
    32293355485795655821513158822192588502153618507286498374085536346611710008207835601200189, lc0⟩) (.leaf ⟨429, 26,
    8, 1562, 16, 1021, ⟨[[(0, 2070529928683520)], [(0, 1861112546010857)]], 2, 3⟩, ⟨[[(0, 1099009156282368),
    (389946538343842, 0), (0, 16610223911), (2602218, 0)], [(6129655485926, 0), (45618887792, 0), (11727648, 0),
    (2455, 0)], [(26278172658, 0), (24445535, 0), (11460, 0), (4, 0)]], 2, 3⟩, 4503599627370496, 95, 8772089126720,
    ⟨[[(630483994059263, 0), (567298590098, 0), (0, 244960723), (0, 264391)], [(1922745073, 0), (160050231, 0),
    (427328, 0), (935, 0)], [(0, 19600519), (0, 143779), (0, 602), (0, 2)]], 2, 3⟩, 1099511627776, 331638166,
    33793315739214814431025697348086179672771040446897993006396888446550491578789528278568461, lc0⟩)) (.sx (.leaf
    ⟨479, 26, 8, 1647, 16, 1057, ⟨[[(0, 194780683883776)], [(0, 1861112546010857)]], 2, 3⟩, ⟨[[(936865767110656, 0),
    (386178852492714, 0), (0, 16125729202), (2121396, 0)], [(16040306948829, 0), (49121977311, 0), (11686621, 0),
    (2141, 0)], [(31725963991, 0), (27622547, 0), (12017, 0), (4, 0)]], 2, 3⟩, 4503599627370496, 31, 10313132398537,
    ⟨[[(646958852057197, 0), (542305770030, 0), (0, 225906497), (0, 145313)], [(4618085804, 0), (164133576, 0),
    (410556, 0), (753, 0)], [(0, 21930559), (0, 156557), (0, 655), (0, 2)]], 2, 3⟩, 1099511627776, 471372939,
    19313067093673214658869275063285256289194927788554055872886822101214040040953859036193045, lc0⟩) (.leaf ⟨429, 26,
    8, 1609, 16, 1032, ⟨[[(0, 2070529928683520)], [(0, 1861112546010857)]], 2, 3⟩, ⟨[[(0, 985616345896960),
    (383331710629707, 0), (0, 14155534700), (2391178, 0)], [(23900211086985, 0), (55406075710, 0), (14840176, 0),
    (3256, 0)], [(36817925411, 0), (34505622, 0), (16793, 0), (6, 0)]], 2, 3⟩, 4503599627370496, 95, 13422470278203,
    ⟨[[(647192704145008, 0), (546120338956, 0), (0, 260932759), (0, 201052)], [(7107222591, 0), (186242387, 0),
    (509638, 0), (1121, 0)], [(0, 24496140), (0, 184795), (0, 841), (0, 3)]], 2, 3⟩, 1099511627776, 489396847,
    21861486151914309273967844443899366133410678760699012909887271170402250241933075328379583, lc0⟩)))
theorem c15 : checkC job ⟨6, 8, 5, 6, 9, 13⟩ 1 40 B1.zlims t15 263 61 80 3259 175 3792 = true := by decide +kernel

def t16 : CTree :=
  .sx (.sy (.sx (.leaf ⟨580, 26, 8, 1778, 16, 1122, ⟨[[(0, 946881821654528)], [(0, 1861112546010857)]], 2, 3⟩,
    ⟨[[(2045159837596672, 0), (385688968398619, 0), (0, 17762256498), (1478021, 0)], [(18120303863943, 0),
    (46418967383, 0), (8876704, 0), (1041, 0)], [(32421849473, 0), (24532527, 0), (8849, 0), (2, 0)]], 2, 3⟩,
    4503599627370496, 148, 9423684587872, ⟨[[(662673836628889, 0), (514988582482, 0), (0, 171547560), (24881, 0)],
    [(4766504343, 0), (146174943, 0), (298386, 0), (241, 0)], [(0, 20429489), (0, 125597), (0, 414), (0, 1)]], 2, 3⟩,
    1099511627776, 709795996,
    32531231315645746995343315869227906765497440412231810781009334865235612720737505328022932, lc0⟩) (.leaf ⟨529, 26,
    8, 1738, 16, 1096, ⟨[[(1680968560915968, 0)], [(0, 1861112546010857)]], 2, 3⟩, ⟨[[(0, 755876005519360),
    (382668607336582, 0), (0, 16148799384), (1605092, 0)], [(26087665218346, 0), (51913526381, 0), (11170818, 0),
    (1679, 0)], [(37311359541, 0), (30223211, 0), (12081, 0), (3, 0)]], 2, 3⟩, 4503599627370496, 99, 11819284040467,
    ⟨[[(662998239159274, 0), (518736771128, 0), (0, 197005681), (15780, 0)], [(7217642260, 0), (165352915, 0),
    (369773, 0), (442, 0)], [(0, 23937101), (0, 163559), (0, 661), (0, 2)]], 2, 3⟩, 1099511627776, 709893015,
    17380704117639256027126468691892440503318253140368211879643984299423815796843626826567812, lc0⟩)) (.sx (.leaf
    ⟨580, 26, 8, 1832, 16, 1137, ⟨[[(0, 946881821654528)], [(0, 1861112546010857)]], 2, 3⟩, ⟨[[(579429657754624, 0),
    (378743205238204, 0), (0, 16655059204), (1054107, 0)], [(35973813180266, 0), (53726676133, 0), (10112677, 0),
    (1065, 0)], [(42757065969, 0), (32034396, 0), (11657, 0), (3, 0)]], 2, 3⟩, 4503599627370496, 148, 13132382763959,
    ⟨[[(677885600396821, 0), (498306803532, 0), (0, 157165872), (214772, 0)], [(9397882231, 0), (162295101, 0),
    (303408, 0), (27, 0)], [(0, 24579101), (0, 151844), (0, 527), (0, 2)]], 2, 3⟩, 1099511627776, 1027325456,
    45137481133901060700358127577208165794398357441571563481382348520234918251949943525046835, lc0⟩) (.sx (.leaf
    ⟨610, 16, 9, 1843, 16, 1143, ⟨[[(0, 1240530591107584)], [(0, 1046875807131107)]], 2, 3⟩, ⟨[[(0,
    1732910889083904), (385971306753749, 0), (0, 15705088949), (1185895, 0)], [(22291734258657, 0), (30251975220, 0),
    (6316621, 0), (865, 0)], [(12313079618, 0), (9767262, 0), (3865, 0), (1, 0)]], 2, 3⟩, 4503599627370496, 475,
    2656012546078, ⟨[[(678145652995971, 0), (488913873825, 0), (0, 166865820), (219302, 0)], [(10323575052, 0),
    (155661965, 0), (310493, 0), (163, 0)], [(0, 22260215), (0, 148861), (0, 607), (0, 2)]], 2, 3⟩, 1099511627776,
    433212837, 41132577889963879326767723565369351967855071350393608491611472193739901167733420264594767, lc0⟩)
    (.leaf ⟨581, 16, 9, 1821, 16, 1129, ⟨[[(1645010132641280, 0)], [(0, 1046875807131107)]], 2, 3⟩, ⟨[[(0,
    1423241792371712), (385039584467810, 0), (0, 14690843766), (1293213, 0)], [(25132738236956, 0), (32403022988, 0),
    (7268078, 0), (1157, 0)], [(13392676827, 0), (11066503, 0), (4652, 0), (1, 0)]], 2, 3⟩, 4503599627370496, 49,
    2946169149462, ⟨[[(678108364027997, 0), (490066919993, 0), (0, 180434253), (226039, 0)], [(11762926752, 0),
    (167301887, 0), (358642, 0), (321, 0)], [(0, 24155571), (0, 170652), (0, 756), (0, 3)]], 2, 3⟩, 1099511627776,
    433464953, 48117793103198880657279289370851789012136697425410367122315383049033333915459966969521541, lc0⟩))))
    (.sx (.sy (.leaf ⟨479, 26, 8, 1693, 16, 1067, ⟨[[(0, 194780683883776)], [(0, 1861112546010857)]], 2, 3⟩, ⟨[[(0,
    1509839444527104), (379185714982924, 0), (0, 14196796284), (1820991, 0)], [(35090417391265, 0), (58699230552, 0),
    (14331419, 0), (2693, 0)], [(43450701307, 0), (37964644, 0), (16991, 0), (6, 0)]], 2, 3⟩, 4503599627370496, 31,
    15340722096772, ⟨[[(663091815435865, 0), (523443048755, 0), (0, 229326671), (0, 8177)], [(9957882414, 0),
    (189209559, 0), (473085, 0), (800, 0)], [(0, 27319313), (0, 202035), (0, 921), (0, 4)]], 2, 3⟩, 1099511627776,
    695499311, 12844580454579439002408906008549931668574686796384415557518996802529916811532199365911871, lc0⟩) (.sy
    (.leaf ⟨479, 26, 8, 3289, 16, 2047, ⟨[[(0, 194780683883776)], [(0, 1861112546010857)]], 2, 3⟩,
    ⟨[[(1406807169132544, 0), (356921920724973, 0), (0, 6168895879), (375399, 0)], [(98872663653783, 0),
    (64090540474, 0), (7987685, 0), (775, 0)], [(104935248601, 0), (46217906, 0), (10657, 0), (2, 0)]], 2, 3⟩,
    4503599627370496, 31, 23718659995843, ⟨[[(674185301702355, 0), (267761679243, 0), (0, 61033187), (24005, 0)],
    [(14230106309, 0), (109755066, 0), (142683, 0), (116, 0)], [(0, 32103578), (0, 128896), (0, 329), (0, 1)]], 2,
    3⟩, 1099511627776, 545536213,
    18730684842036929365150630328267886471918553767471366738111927070625247022049918610742156, lc0⟩) (.sy (.leaf
    ⟨479, 26, 8, 5936, 16, 3671, ⟨[[(0, 194780683883776)], [(0, 1861112546010857)]], 2, 3⟩, ⟨[[(227524840837120, 0),
    (317207605679117, 0), (0, 2638926644), (76844, 0)], [(208497738374751, 0), (61377320562, 0), (3868803, 0), (192,
    0)], [(211324115558, 0), (46828118, 0), (5502, 0), (1, 0)]], 2, 3⟩, 4503599627370496, 31, 39537976707962,
    ⟨[[(679780343015593, 0), (147900530276, 0), (0, 18332510), (7386, 0)], [(16598387978, 0), (64626930, 0), (46624,
    0), (20, 0)], [(0, 34961783), (0, 80148), (0, 118)]], 2, 3⟩, 1099511627776, 575547522,
    32777381306873194738470677635855805400194598763805546535558947949410955840112196217343426, lc0⟩) (.sx (.leaf
    ⟨553, 16, 9, 6698, 16, 4126, ⟨[[(26951229020160, 0)], [(0, 1046875807131107)]], 2, 3⟩, ⟨[[(0, 1277533194088448),
    (352330976232201, 0), (0, 3011993024), (74165, 0)], [(121899058366931, 0), (34380633640, 0), (2096016, 0), (98,
    0)], [(60695073599, 0), (13175032, 0), (1507, 0)]], 2, 3⟩, 4503599627370496, 135, 5407163191304,
    ⟨[[(683448707897982, 0), (131574948907, 0), (0, 13575007), (7072, 0)], [(15309261459, 0), (51193186, 0), (31569,
    0), (10, 0)], [(0, 28201511), (0, 57615), (0, 76)]], 2, 3⟩, 1099511627776, 100159538,
    49693651732415180706801514193562350836258097883045391544116785344205874846637269232825676, lc0⟩) (.leaf ⟨525, 16,
    9, 6534, 16, 4023, ⟨[[(0, 1591107674601472)], [(0, 1046875807131107)]], 2, 3⟩, ⟨[[(0, 271413970972672),
    (347827277272549, 0), (0, 2663701024), (86155, 0)], [(134138166508461, 0), (36929098208, 0), (2450448, 0), (134,
    0)], [(66299470326, 0), (15176920, 0), (1890, 0)]], 2, 3⟩, 4503599627370496, 332, 6401362836852,
    ⟨[[(683425115856351, 0), (133327990290, 0), (0, 15203049), (7509, 0)], [(17121384172, 0), (56215517, 0), (38124,
    0), (16, 0)], [(0, 30299506), (0, 65326), (0, 91)]], 2, 3⟩, 1099511627776, 100470620,
    50282394843779744037066633141864015131786177749822944794719333682261714996697850187971718, lc0⟩))))) (.sy (.leaf
    ⟨429, 26, 8, 1641, 16, 1034, ⟨[[(0, 2070529928683520)], [(0, 1861112546010857)]], 2, 3⟩, ⟨[[(1729544859824128,
    0), (375000179877251, 0), (0, 11781119021), (2183463, 0)], [(45348563489901, 0), (67249477515, 0), (18869351, 0),
    (4450, 0)], [(51351905170, 0), (49048076, 0), (25244, 0), (10, 0)]], 2, 3⟩, 4503599627370496, 95, 22240041641426,
    ⟨[[(662714122480847, 0), (529641361485, 0), (0, 272092239), (0, 61844)], [(12927547524, 0), (218190657, 0),
    (614521, 0), (1360, 0)], [(0, 30614853), (0, 242897), (0, 1215), (0, 5)]], 2, 3⟩, 1099511627776, 737847904,
    29992412075368556017146547241869913293647766505584970911579422917637698896919418685530402, lc0⟩) (.sx (.leaf
    ⟨496, 16, 9, 1744, 16, 1080, ⟨[[(1294433049148160, 0)], [(0, 1046875807131107)]], 2, 3⟩, ⟨[[(187081866556416, 0),
    (381328271701966, 0), (0, 10756773883), (1903202, 0)], [(35062843784852, 0), (40812573050, 0), (11606975, 0),
    (2831, 0)], [(17719348699, 0), (16989203, 0), (9019, 0), (4, 0)]], 2, 3⟩, 4503599627370496, 51, 4350026059221,
    ⟨[[(677929350513039, 0), (495048917114, 0), (0, 236113507), (221552, 0)], [(16734346670, 0), (212264896, 0),
    (571903, 0), (1133, 0)], [(0, 29753875), (0, 238924), (0, 1243), (0, 6)]], 2, 3⟩, 1099511627776, 459830735,
    48835612307479538590552396654005541188082330113335715672083755334356306105599521557471873, lc0⟩) (.leaf ⟨468, 16,
    9, 1716, 16, 1062, ⟨[[(0, 323625854472960)], [(0, 1046875807131107)]], 2, 3⟩, ⟨[[(0, 143302224914432),
    (380133496829845, 0), (0, 9039991162), (2275807, 0)], [(39001698046874, 0), (44608986821, 0), (13908218, 0),
    (3915, 0)], [(19730668049, 0), (20148205, 0), (11745, 0), (6, 0)]], 2, 3⟩, 4503599627370496, 137, 5379544766399,
    ⟨[[(677967042703405, 0), (496641799386, 0), (0, 261146792), (208565, 0)], [(18697142005, 0), (231475099, 0),
    (672565, 0), (1557, 0)], [(0, 31863473), (0, 267121), (0, 1460), (0, 7)]], 2, 3⟩, 1099511627776, 485691908,
    47709856756196725935360887641300267784032381563341177273824740509607254800311010479358369, lc0⟩))))
theorem c16 : checkC job ⟨6, 8, 5, 6, 9, 13⟩ 1 40 B1.zlims t16 263 61 80 3609 175 3792 = true := by decide +kernel

def t17 : CTree :=
  .sy (.sy (.sy (.sy (.leaf ⟨353, 52, 8, 1613, 16, 1574, ⟨[[(0, 380554168512768)], [(0, 3722225092021715)]], 2, 3⟩,
    ⟨[[(0, 633208775055360), (299142927347809, 0), (0, 7509583973), (0, 220871)], [(0, 276716937703073),
    (21976063112, 0), (0, 7280262), (4035, 0)], [(0, 16029980220), (10995378, 0), (0, 5718), (3, 0)]], 2, 3⟩,
    4503599627370496, 43, 1522548542361, ⟨[[(305339799806237, 0), (430299871224, 0), (0, 16819034), (22774, 0)], [(0,
    31982423500), (36259655, 0), (0, 71364), (161, 0)], [(0, 374404), (0, 2321), (0, 6)]], 2, 3⟩, 1099511627776,
    32618763, 34718127126229007662261759162847184480132299746734853903857348223963341465043298900879608, lc0⟩) (.leaf
    ⟨353, 52, 8, 1670, 16, 1607, ⟨[[(0, 380554168512768)], [(0, 3722225092021715)]], 2, 3⟩, ⟨[[(896244846112768, 0),
    (299971035619230, 0), (0, 7870475437), (0, 139929)], [(0, 275427146852457), (18443489559, 0), (0, 4333365),
    (2058, 0)], [(0, 13032734497), (8109972, 0), (0, 3345), (2, 0)]], 2, 3⟩, 4503599627370496, 43, 1159149647783,
    ⟨[[(315101892455599, 0), (420747573144, 0), (0, 14803003), (16928, 0)], [(0, 31194039787), (32579656, 0), (0,
    58263), (142, 0)], [(0, 430578), (0, 2578), (0, 7)]], 2, 3⟩, 1099511627776, 36126100,
    48544950322043222803151608488799489011514745312178440220266760039255772792701607269356172, lc0⟩)) (.sy (.leaf
    ⟨353, 52, 8, 1727, 16, 1639, ⟨[[(0, 380554168512768)], [(0, 3722225092021715)]], 2, 3⟩, ⟨[[(66465361891328, 0),
    (300289802043422, 0), (0, 8104544800), (0, 6469)], [(0, 274792118755916), (16347450438, 0), (0, 2785500), (1134,
    0)], [(0, 10752493741), (6395287, 0), (0, 2084), (1, 0)]], 2, 3⟩, 4503599627370496, 43, 793779638137,
    ⟨[[(324889862339181, 0), (411881662087, 0), (0, 13242666), (11794, 0)], [(0, 30465338443), (29505668, 0), (0,
    46755), (126, 0)], [(0, 494519), (0, 2864), (0, 7)]], 2, 3⟩, 1099511627776, 40776299,
    48676939156317459882227275339732319075943127485878951316101081941530705548053462117474619, lc0⟩) (.leaf ⟨353, 52,
    8, 1784, 16, 1671, ⟨[[(0, 380554168512768)], [(0, 3722225092021715)]], 2, 3⟩, ⟨[[(1357765872623616, 0),
    (300380898787531, 0), (0, 8208993713), (102239, 0)], [(0, 274628426422496), (15034598843, 0), (0, 1905918), (678,
    0)], [(0, 8905366213), (5322340, 0), (0, 1367), (1, 0)]], 2, 3⟩, 4503599627370496, 43, 526497399855,
    ⟨[[(334288825672716, 0), (403416884144, 0), (0, 12092829), (7423, 0)], [(0, 29814452317), (27035332, 0), (0,
    36938), (112, 0)], [(0, 563946), (0, 3161), (0, 8)]], 2, 3⟩, 1099511627776, 45328434,
    45669742749421995416492264155489584100603303981108837578025362314248954282438093991044335, lc0⟩))) (.sy (.leaf
    ⟨353, 52, 8, 1059, 16, 973, ⟨[[(0, 380554168512768)], [(0, 3722225092021715)]], 2, 3⟩, ⟨[[(330395595768832, 0),
    (339911262029524, 0), (0, 18553899052), (902075, 0)], [(0, 155573791924664), (15702596844, 0), (0, 2636821),
    (1648, 0)], [(0, 3739100220), (4945491, 0), (0, 1754), (1, 0)]], 2, 3⟩, 4503599627370496, 43, 2427321249978,
    ⟨[[(348270560041951, 0), (691409417522, 0), (0, 34218501), (10316, 0)], [(0, 28916402653), (42698948, 0), (0,
    76246), (514, 0)], [(0, 683744), (0, 6457), (0, 27)]], 2, 3⟩, 1099511627776, 79590645,
    42276711121762438132922388085949180672945709492265442312072455751451178335748675937848178, lc0⟩) (.leaf ⟨353, 52,
    8, 1127, 16, 1011, ⟨[[(0, 380554168512768)], [(0, 3722225092021715)]], 2, 3⟩, ⟨[[(1658227197092864, 0),
    (340067440579776, 0), (0, 18174158278), (1113050, 0)], [(0, 156212627728956), (14903760431, 0), (0, 1432247),
    (910, 0)], [(0, 2262594371), (4245630, 0), (0, 845), (1, 0)]], 2, 3⟩, 4503599627370496, 43, 1128409246385,
    ⟨[[(365975806229182, 0), (663731218199, 0), (0, 32155374), (0, 20500)], [(0, 27863317677), (38268665, 0), (0,
    36136), (405, 0)], [(0, 868576), (0, 7709), (0, 31)]], 2, 3⟩, 1099511627776, 89192458,
    43087028520624089890009321081087370520234767958874896599883956355917491080112569741452213, lc0⟩))) (.sy (.sy
    (.leaf ⟨353, 52, 8, 1197, 16, 1049, ⟨[[(0, 380554168512768)], [(0, 3722225092021715)]], 2, 3⟩, ⟨[[(0,
    1521851439315968), (340074304425336, 0), (0, 17647373982), (1132308, 0)], [(0, 156817811101353), (14721009715,
    0), (0, 695106), (606, 0)], [(0, 887862283), (3999951, 0), (0, 327)]], 2, 3⟩, 4503599627370496, 43,
    1037130452897, ⟨[[(383633404080943, 0), (637974832163, 0), (0, 32447746), (0, 43650)], [(0, 26862099308),
    (35825600, 0), (0, 5249), (321, 0)], [(0, 1097224), (0, 9170), (0, 35)]], 2, 3⟩, 1099511627776, 103070723,
    48517820725091212845758590499230091144044025303703775509491490903997538815035605250155665, lc0⟩) (.sy (.leaf
    ⟨353, 52, 8, 2204, 16, 1901, ⟨[[(0, 380554168512768)], [(0, 3722225092021715)]], 2, 3⟩, ⟨[[(150855736981504, 0),
    (299955543883076, 0), (0, 7600884411), (243671, 0)], [(0, 277250952084474), (13112057496, 0), (0, 124808), (107,
    0)], [(265386615, 0), (3538305, 0), (0, 21)]], 2, 3⟩, 4503599627370496, 43, 545311533034, ⟨[[(395870153369468,
    0), (351326340537, 0), (0, 10793895), (0, 10151)], [(0, 26173961700), (19848379, 0), (3802, 0), (50, 0)], [(0,
    1286570), (0, 5840), (0, 12)]], 2, 3⟩, 1099511627776, 96557980,
    49006270870902272259222393046295486203540211548865711727486033203191452174895109242940836, lc0⟩) (.leaf ⟨353, 52,
    8, 2266, 16, 1934, ⟨[[(0, 380554168512768)], [(0, 3722225092021715)]], 2, 3⟩, ⟨[[(0, 892446032424960),
    (299839518391538, 0), (0, 7477514399), (238418, 0)], [(0, 277406012028890), (13288806923, 0), (0, 20823), (94,
    0)], [(1530252743, 0), (3610026, 0), (49, 0)]], 2, 3⟩, 4503599627370496, 43, 668580603654, ⟨[[(404062361138026,
    0), (344819191272, 0), (0, 11177229), (0, 11372)], [(0, 25708106360), (19762370, 0), (6940, 0), (45, 0)], [(0,
    1429551), (0, 6313), (0, 13)]], 2, 3⟩, 1099511627776, 107055166,
    50069039791712856491286689366613484438320326611849341625630362946942435615471129470228878, lc0⟩))) (.sy (.sx
    (.leaf ⟨378, 26, 8, 1442, 16, 1211, ⟨[[(557320453886976, 0)], [(0, 1861112546010857)]], 2, 3⟩, ⟨[[(0,
    2188674415261696), (365401380293645, 0), (0, 17823760410), (1114339, 0)], [(0, 84728231596687), (8213328381, 0),
    (133824, 0), (190, 0)], [(510100161, 0), (1132394, 0), (82, 0)]], 2, 3⟩, 4503599627370496, 152, 446360492490,
    ⟨[[(416149727230749, 0), (550097247654, 0), (0, 31365266), (0, 52716)], [(0, 25049439970), (32090784, 0), (28037,
    0), (165, 0)], [(0, 1619011), (0, 11236), (0, 35)]], 2, 3⟩, 1099511627776, 24167918,
    50579010115329395923197392554156876629423387389005191592186235906764270505789740511052546, lc0⟩) (.leaf ⟨328, 26,
    8, 1436, 16, 1208, ⟨[[(0, 1318428790912768)], [(0, 1861112546010857)]], 2, 3⟩, ⟨[[(0, 1553027831641088),
    (365512825168493, 0), (0, 17762031783), (1135770, 0)], [(0, 84386908673124), (8475882525, 0), (155207, 0), (207,
    0)], [(569314943, 0), (1190110, 0), (97, 0)]], 2, 3⟩, 4503599627370496, 85, 463471205973, ⟨[[(416063017876078,
    0), (549985232081, 0), (0, 32576015), (0, 60525)], [(0, 24962147511), (33188281, 0), (30582, 0), (174, 0)], [(0,
    1712769), (0, 11940), (0, 38)]], 2, 3⟩, 1099511627776, 23665461,
    49534905811507561478045402865370943972276704088304223871637265401221841217159209237708735, lc0⟩)) (.leaf ⟨353,
    52, 8, 1411, 16, 1164, ⟨[[(0, 380554168512768)], [(0, 3722225092021715)]], 2, 3⟩, ⟨[[(1541297723074560, 0),
    (340106838934858, 0), (0, 16028462964), (1006186, 0)], [(0, 157086674178901), (16384184785, 0), (643504, 0),
    (321, 0)], [(3692075639, 0), (4802235, 0), (608, 0)]], 2, 3⟩, 4503599627370496, 43, 1358526490038,
    ⟨[[(431019100012604, 0), (569605031604, 0), (0, 40009120), (0, 76744)], [(0, 24095562768), (35939475, 0), (45942,
    0), (176, 0)], [(0, 2009315), (0, 14260), (0, 46)]], 2, 3⟩, 1099511627776, 164651503,
    49878716394279763219378246690922429180547517848916987489782194839279471372579585369143763, lc0⟩)))
theorem c17 : checkC job ⟨6, 8, 5, 6, 9, 13⟩ 1 40 B1.zlims t17 709 61 160 667 175 1896 = true := by decide +kernel

def t18 : CTree :=
  .sy (.sy (.sy (.sy (.leaf ⟨252, 52, 8, 1587, 16, 1556, ⟨[[(371546969258112, 0)], [(0, 3722225092021715)]], 2, 3⟩,
    ⟨[[(0, 220800300705792), (298540000136258, 0), (0, 8388792186), (316998, 0)], [(0, 277561985833881),
    (24521311945, 0), (0, 8648713), (4797, 0)], [(0, 17033709427), (12074394, 0), (0, 6259), (3, 0)]], 2, 3⟩,
    4503599627370496, 50, 2061553793403, ⟨[[(305305535166881, 0), (431698781439, 0), (0, 10071343), (7971, 0)], [(0,
    32186294177), (38299076, 0), (0, 75453), (172, 0)], [(0, 409720), (0, 2582), (0, 7)]], 2, 3⟩, 1099511627776,
    30745191, 22582028491706702627986057430042043552662318145094859514743192436174595990292278815041288, lc0⟩) (.leaf
    ⟨252, 52, 8, 1647, 16, 1592, ⟨[[(371546969258112, 0)], [(0, 3722225092021715)]], 2, 3⟩, ⟨[[(783549080174592, 0),
    (299524007699055, 0), (0, 8371995674), (135429, 0)], [(0, 276108997150634), (20337502475, 0), (0, 5149287),
    (2461, 0)], [(0, 13759978093), (8916500, 0), (0, 3713), (2, 0)]], 2, 3⟩, 4503599627370496, 50, 1085337419583,
    ⟨[[(315124260774070, 0), (421498809574, 0), (0, 9232159), (3698, 0)], [(0, 31351822425), (34333117, 0), (0,
    61169), (152, 0)], [(0, 472416), (0, 2869), (0, 8)]], 2, 3⟩, 1099511627776, 34377010,
    35031855706276589712452858876424163775744672385132603990708749640720611059240089166580715, lc0⟩)) (.leaf ⟨252,
    52, 8, 982, 16, 930, ⟨[[(371546969258112, 0)], [(0, 3722225092021715)]], 2, 3⟩, ⟨[[(1492516862774272, 0),
    (339804472536034, 0), (0, 19052802042), (760532, 0)], [(0, 155719821197525), (19223802723, 0), (0, 6123819),
    (4720, 0)], [(0, 5777485746), (7187105, 0), (0, 4264), (4, 0)]], 2, 3⟩, 4503599627370496, 50, 4765828224540,
    ⟨[[(329450975845137, 0), (720469558203, 0), (0, 26755900), (0, 8483)], [(0, 30248915898), (52523880, 0), (0,
    135852), (696, 0)], [(0, 579582), (0, 5903), (0, 27)]], 2, 3⟩, 1099511627776, 66448890,
    42644724977349168202226806862557663428179309330822807452476606603199130615737030051514271, lc0⟩)) (.sy (.leaf
    ⟨252, 52, 8, 1048, 16, 967, ⟨[[(371546969258112, 0)], [(0, 3722225092021715)]], 2, 3⟩, ⟨[[(1539268727060480, 0),
    (339794458542441, 0), (0, 18786186628), (1116089, 0)], [(0, 155532715488554), (16859560287, 0), (0, 3071847),
    (1969, 0)], [(0, 3809497539), (5369463, 0), (0, 1959), (1, 0)]], 2, 3⟩, 4503599627370496, 50, 2146204849996,
    ⟨[[(348093411628702, 0), (691530723674, 0), (0, 26600033), (0, 38165)], [(0, 28967898403), (45042011, 0), (0,
    78467), (550, 0)], [(0, 751971), (0, 7177), (0, 31)]], 2, 3⟩, 1099511627776, 73837908,
    40736471253639721686391483909516309465898433245771411547755856722303693832709514167225480, lc0⟩) (.leaf ⟨252, 52,
    8, 1116, 16, 1005, ⟨[[(371546969258112, 0)], [(0, 3722225092021715)]], 2, 3⟩, ⟨[[(2087878284540928, 0),
    (339921318290996, 0), (0, 18252875335), (1226971, 0)], [(0, 155828988373570), (15889703665, 0), (0, 1637980),
    (1075, 0)], [(0, 2201449304), (4592935, 0), (0, 916), (1, 0)]], 2, 3⟩, 4503599627370496, 50, 1198366390531,
    ⟨[[(365918479356152, 0), (663970748726, 0), (0, 28387070), (0, 59356)], [(0, 27848738418), (40460483, 0), (0,
    35403), (437, 0)], [(0, 959117), (0, 8598), (0, 35)]], 2, 3⟩, 1099511627776, 84241353,
    43875586297170065703235106991322294372625025971948632481551295073280854913953189460847646, lc0⟩))) (.sy (.sy
    (.leaf ⟨252, 52, 8, 1186, 16, 1043, ⟨[[(371546969258112, 0)], [(0, 3722225092021715)]], 2, 3⟩, ⟨[[(0,
    1842181606762496), (339975802214529, 0), (0, 17635577582), (1205664, 0)], [(0, 156115203380771), (15650636485,
    0), (0, 769910), (709, 0)], [(0, 703695813), (4340928, 0), (0, 318)]], 2, 3⟩, 4503599627370496, 50,
    1176532018167, ⟨[[(383684640981985, 0), (638174256515, 0), (0, 31704975), (0, 75023)], [(0, 26782043159),
    (38031648, 0), (0, 2046), (349, 0)], [(0, 1216063), (0, 10261), (0, 39)]], 2, 3⟩, 1099511627776, 98372776,
    48109743548122715517831163175312344664094944028366522849867912005215723043487360498357493, lc0⟩) (.leaf ⟨252, 52,
    8, 1257, 16, 1082, ⟨[[(371546969258112, 0)], [(0, 3722225092021715)]], 2, 3⟩, ⟨[[(0, 692881034487808),
    (340328940377094, 0), (0, 17035289336), (1148149, 0)], [(0, 156339068802820), (15917957733, 0), (0, 144963),
    (532, 0)], [(824887215, 0), (4432235, 0), (104, 0)]], 2, 3⟩, 4503599627370496, 50, 1211233154360,
    ⟨[[(400058480670507, 0), (613445483930, 0), (0, 35538394), (0, 84724)], [(0, 25800496846), (37204659, 0), (21918,
    0), (284, 0)], [(0, 1507039), (0, 12004), (0, 43)]], 2, 3⟩, 1099511627776, 115428194,
    48828702364669899352694260844161875002962902022008168516260455917005461231927972409691942, lc0⟩)) (.sy (.leaf
    ⟨252, 52, 8, 1328, 16, 1120, ⟨[[(371546969258112, 0)], [(0, 3722225092021715)]], 2, 3⟩, ⟨[[(0, 468550015471616),
    (340362121162647, 0), (0, 16438516508), (1090481, 0)], [(0, 156059002807343), (16558137809, 0), (362041, 0),
    (436, 0)], [(2487688589, 0), (4788968, 0), (457, 0)]], 2, 3⟩, 4503599627370496, 50, 1345006876797,
    ⟨[[(415947538737797, 0), (590674708848, 0), (0, 39924090), (0, 91258)], [(0, 24815702258), (37578796, 0), (40206,
    0), (235, 0)], [(0, 1849197), (0, 13952), (0, 48)]], 2, 3⟩, 1099511627776, 136654277,
    48913781438196856838264724004230302820230813373016179082467222066033553498073611503078416, lc0⟩) (.leaf ⟨252, 52,
    8, 1400, 16, 1158, ⟨[[(371546969258112, 0)], [(0, 3722225092021715)]], 2, 3⟩, ⟨[[(0, 690399904734208),
    (340416304885932, 0), (0, 15857858865), (1043808, 0)], [(0, 155297529327612), (17538416061, 0), (809858, 0),
    (385, 0)], [(4376344199, 0), (5396106, 0), (795, 0)]], 2, 3⟩, 4503599627370496, 50, 1591813632985,
    ⟨[[(431310978757113, 0), (569090082046, 0), (0, 44534209), (0, 95215)], [(0, 23805052849), (38825411, 0), (54248,
    0), (200, 0)], [(0, 2246888), (0, 16097), (0, 52)]], 2, 3⟩, 1099511627776, 161932644,
    42231312517991353548857475183257538839259985714960987730844663530606809190653472925623052, lc0⟩)))
theorem c18 : checkC job ⟨6, 8, 5, 6, 9, 13⟩ 1 40 B1.zlims t18 831 61 160 667 175 1896 = true := by decide +kernel

def t19 : CTree :=
  .sy (.sy (.sy (.leaf ⟨302, 102, 8, 1298, 16, 1053, ⟨[[(2247296214057984, 0)], [(0, 7444450184043430)]], 2, 3⟩,
    ⟨[[(1943075402250240, 0), (298804611405039, 0), (0, 13519511348), (868881, 0)], [(0, 272417674564985),
    (31876240564, 0), (1939463, 0), (572, 0)], [(21387773349, 0), (20570154, 0), (3548, 0), (1, 0)]], 2, 3⟩,
    4503599627370496, 114, 11748811248147, ⟨[[(445744257375917, 0), (625174587325, 0), (0, 59891449), (0, 130973)],
    [(0, 22959385525), (44414257, 0), (77841, 0), (239, 0)], [(0, 2554352), (0, 19737), (0, 69)]], 2, 3⟩,
    1099511627776, 1432469542,
    44774765761327782781030772821094614915120751029541729167269637430116451533288321160831410, lc0⟩) (.leaf ⟨302,
    102, 8, 1366, 16, 1089, ⟨[[(2247296214057984, 0)], [(0, 7444450184043430)]], 2, 3⟩, ⟨[[(2099009168961536, 0),
    (299556527342252, 0), (0, 13066360535), (846278, 0)], [(0, 269922346167232), (34582745834, 0), (2607848, 0),
    (560, 0)], [(30058677940, 0), (24225437, 0), (4778, 0), (1, 0)]], 2, 3⟩, 4503599627370496, 114, 15338574220178,
    ⟨[[(459992246586798, 0), (601655923295, 0), (0, 64879188), (0, 132166)], [(0, 21901385273), (46743186, 0),
    (87898, 0), (211, 0)], [(0, 3043092), (0, 22373), (0, 75)]], 2, 3⟩, 1099511627776, 1704329406,
    29357256880099661605203085120594039772039934566048978863828300036359208077113019243873064, lc0⟩)) (.sx (.leaf
    ⟨353, 52, 8, 892, 16, 693, ⟨[[(0, 380554168512768)], [(0, 3722225092021715)]], 2, 3⟩, ⟨[[(1741382573689856, 0),
    (363226750321744, 0), (0, 30259762137), (3887878, 0)], [(0, 80679337633448), (22918796482, 0), (3948809, 0),
    (1233, 0)], [(6511349625, 0), (8818928, 0), (3690, 0), (1, 0)]], 2, 3⟩, 4503599627370496, 43, 11130506731695,
    ⟨[[(480355310662665, 0), (941542802437, 0), (0, 184497654), (0, 549959)], [(0, 20498439815), (80214834, 0),
    (250785, 0), (769, 0)], [(0, 3667461), (0, 41326), (0, 212), (0, 1)]], 2, 3⟩, 1099511627776, 371283794,
    32716967586929733203453081162245063038403439120916798191710978407918878324786525702995393, lc0⟩) (.leaf ⟨252, 52,
    8, 885, 16, 689, ⟨[[(371546969258112, 0)], [(0, 3722225092021715)]], 2, 3⟩, ⟨[[(384684300577280, 0),
    (364048461676053, 0), (0, 29546120283), (4038444, 0)], [(0, 78503053285549), (25122199386, 0), (4958186, 0),
    (1634, 0)], [(7588056384, 0), (10453242, 0), (4863, 0), (2, 0)]], 2, 3⟩, 4503599627370496, 50, 11974234010566,
    ⟨[[(480648287688415, 0), (939202221024, 0), (0, 211016845), (0, 639473)], [(0, 19867063316), (88627812, 0),
    (295717, 0), (933, 0)], [(0, 4132953), (0, 47224), (0, 250), (0, 1)]], 2, 3⟩, 1099511627776, 381908954,
    42345965792672147695325023975967267311117177478029055486557261535461972481629442491085796, lc0⟩))) (.sy (.sx (.sy
    (.leaf ⟨353, 52, 8, 1801, 16, 1367, ⟨[[(0, 380554168512768)], [(0, 3722225092021715)]], 2, 3⟩,
    ⟨[[(836719040269312, 0), (343350673073206, 0), (0, 13471690657), (884895, 0)], [(0, 146698214066062),
    (24903421802, 0), (2435172, 0), (319, 0)], [(17964813250, 0), (10914480, 0), (2423, 0)]], 2, 3⟩,
    4503599627370496, 43, 4225179999514, ⟨[[(500056109673742, 0), (472998574955, 0), (0, 56881118), (0, 80523)], [(0,
    18694634331), (46535515, 0), (77327, 0), (108, 0)], [(0, 4636361), (0, 25963), (0, 67)]], 2, 3⟩, 1099511627776,
    362409681, 39854055039443640085831689847442953404616610454311216667488106660208836269713281492592501, lc0⟩)
    (.leaf ⟨353, 52, 8, 1885, 16, 1410, ⟨[[(0, 380554168512768)], [(0, 3722225092021715)]], 2, 3⟩, ⟨[[(0,
    13051449358336), (344753819519961, 0), (0, 12961881849), (865981, 0)], [(0, 142000361431513), (27568115238, 0),
    (2867135, 0), (350, 0)], [(22795760448, 0), (13176473, 0), (2996, 0), (1, 0)]], 2, 3⟩, 4503599627370496, 43,
    5417316237430, ⟨[[(512555766546874, 0), (455481005485, 0), (0, 59694523), (0, 78490)], [(0, 17404366054),
    (49318891, 0), (81102, 0), (107, 0)], [(0, 5373857), (0, 28844), (0, 72)]], 2, 3⟩, 1099511627776, 421842145,
    46068756880444481791376260391683088997713813010012800740891926236387251570209011024351685, lc0⟩)) (.sy (.leaf
    ⟨252, 52, 8, 1789, 16, 1361, ⟨[[(371546969258112, 0)], [(0, 3722225092021715)]], 2, 3⟩, ⟨[[(1738532857666560, 0),
    (345041380385426, 0), (0, 13076972514), (926954, 0)], [(0, 141308319886708), (27726019274, 0), (3112300, 0),
    (445, 0)], [(21146826462, 0), (13288593, 0), (3283, 0), (1, 0)]], 2, 3⟩, 4503599627370496, 50, 5387183887292,
    ⟨[[(499968448361530, 0), (470618577902, 0), (0, 64846513), (0, 92885)], [(0, 17900062888), (51680129, 0), (91304,
    0), (134, 0)], [(0, 5224027), (0, 29743), (0, 80)]], 2, 3⟩, 1099511627776, 377905529,
    41643175253262711812395077739673931745222446749828128788962377165479307069125092060934417, lc0⟩) (.leaf ⟨252, 52,
    8, 1873, 16, 1404, ⟨[[(371546969258112, 0)], [(0, 3722225092021715)]], 2, 3⟩, ⟨[[(1013350179035136, 0),
    (346845735319771, 0), (0, 12508830618), (913610, 0)], [(0, 135348754942660), (31023224195, 0), (3715212, 0),
    (505, 0)], [(27057495719, 0), (16337924, 0), (4150, 0), (1, 0)]], 2, 3⟩, 4503599627370496, 50, 7037575324520,
    ⟨[[(512456069182824, 0), (452660040747, 0), (0, 68165098), (0, 90867)], [(0, 16456142312), (55097218, 0), (96339,
    0), (135, 0)], [(0, 6075708), (0, 33270), (0, 87)]], 2, 3⟩, 1099511627776, 449663540,
    44233891633237722915774253905872627534859096610108173043139456814021510101186491769110341, lc0⟩))) (.sx (.sy (.sx
    (.leaf ⟨378, 26, 8, 2109, 16, 1555, ⟨[[(557320453886976, 0)], [(0, 1861112546010857)]], 2, 3⟩,
    ⟨[[(20348217022464, 0), (369562129535288, 0), (0, 13423459988), (894451, 0)], [(0, 73693695063016), (15874746365,
    0), (1675888, 0), (190, 0)], [(7334905992, 0), (4035320, 0), (908, 0)]], 2, 3⟩, 4503599627370496, 152,
    922715457910, ⟨[[(524559079879925, 0), (411091274513, 0), (0, 52732506), (0, 60227)], [(0, 16298160390),
    (47498591, 0), (70998, 0), (84, 0)], [(0, 5985318), (0, 28773), (0, 64)]], 2, 3⟩, 1099511627776, 61818432,
    47037090431045042586566604958771636661608137719863732120306791404382070074864367870551309, lc0⟩) (.leaf ⟨328, 26,
    8, 2100, 16, 1550, ⟨[[(0, 1318428790912768)], [(0, 1861112546010857)]], 2, 3⟩, ⟨[[(1162547415617536, 0),
    (370366469390982, 0), (0, 13162238127), (917023, 0)], [(0, 71591835216828), (16862072241, 0), (1911010, 0), (230,
    0)], [(7989472406, 0), (4502242, 0), (1072, 0)]], 2, 3⟩, 4503599627370496, 85, 1041413027796,
    ⟨[[(524448797912568, 0), (410211768883, 0), (0, 56379802), (0, 64989)], [(0, 15788262775), (50312452, 0), (77629,
    0), (94, 0)], [(0, 6385768), (0, 30980), (0, 71)]], 2, 3⟩, 1099511627776, 63430240,
    46304978296464701618823424085658611705090034279614499773000056886974972670792734549471795, lc0⟩)) (.sx (.leaf
    ⟨378, 26, 8, 2199, 16, 1600, ⟨[[(557320453886976, 0)], [(0, 1861112546010857)]], 2, 3⟩, ⟨[[(998233844480000, 0),
    (370920782684112, 0), (0, 12870938374), (872506, 0)], [(0, 69889580200225), (17614960900, 0), (1938184, 0), (213,
    0)], [(9121744377, 0), (4865841, 0), (1109, 0)]], 2, 3⟩, 4503599627370496, 152, 1156024467220,
    ⟨[[(536089425054925, 0), (396501829745, 0), (0, 54750744), (0, 58480)], [(0, 14902729453), (50249052, 0), (74138,
    0), (86, 0)], [(0, 6848625), (0, 31721), (0, 69)]], 2, 3⟩, 1099511627776, 70708624,
    48822182526423160929227990170311574151038881437157002983542623570907321630395994511122806, lc0⟩) (.leaf ⟨328, 26,
    8, 2189, 16, 1594, ⟨[[(0, 1318428790912768)], [(0, 1861112546010857)]], 2, 3⟩, ⟨[[(537659572623360, 0),
    (371745931887601, 0), (0, 12569623706), (898020, 0)], [(0, 67303730212519), (18806219904, 0), (2226335, 0), (262,
    0)], [(9980484143, 0), (5477091, 0), (1325, 0)]], 2, 3⟩, 4503599627370496, 85, 1319948216246,
    ⟨[[(536123393453643, 0), (395597178759, 0), (0, 58743778), (0, 63546)], [(0, 14284882357), (53471470, 0), (81516,
    0), (98, 0)], [(0, 7331515), (0, 34337), (0, 77)]], 2, 3⟩, 1099511627776, 73471620,
    48013914111640766778594100965445532981559350136847041746982089981231689483322658638317794, lc0⟩))) (.sx (.leaf
    ⟨277, 26, 8, 1093, 16, 802, ⟨[[(1309421591657984, 0)], [(0, 1861112546010857)]], 2, 3⟩, ⟨[[(762207796083712, 0),
    (380883320446165, 0), (0, 25705135495), (3839224, 0)], [(0, 34318468549447), (19479194685, 0), (4861946, 0),
    (1236, 0)], [(5015538628, 0), (5735924, 0), (2922, 0), (1, 0)]], 2, 3⟩, 4503599627370496, 42, 3972409337292,
    ⟨[[(530283941521362, 0), (784718184204, 0), (0, 235978433), (0, 520795)], [(0, 14433692715), (107791024, 0),
    (333725, 0), (814, 0)], [(0, 7306248), (0, 69024), (0, 316), (0, 1)]], 2, 3⟩, 1099511627776, 121731893,
    47006447457209516922733336835665882784112473903457079641508618605821907793690372746738831, lc0⟩) (.leaf ⟨227, 26,
    8, 1087, 16, 798, ⟨[[(0, 566327653141888)], [(0, 1861112546010857)]], 2, 3⟩, ⟨[[(0, 859968826105856),
    (381437011473067, 0), (0, 24940572427), (3987840, 0)], [(0, 32866990428140), (20869645885, 0), (5619526, 0),
    (1534, 0)], [(5517239196, 0), (6511943, 0), (3526, 0), (1, 0)]], 2, 3⟩, 4503599627370496, 77, 4142758608023,
    ⟨[[(530557228819650, 0), (783336843272, 0), (0, 255097786), (0, 571424)], [(0, 13739349486), (115178229, 0),
    (369753, 0), (945, 0)], [(0, 7811612), (0, 75487), (0, 366), (0, 1)]], 2, 3⟩, 1099511627776, 137306566,
    45620116599489046813560298027547823590265083881666280031835240650193157035782673701954818, lc0⟩))))
theorem c19 : checkC job ⟨6, 8, 5, 6, 9, 13⟩ 1 40 B1.zlims t19 385 61 80 1017 175 1896 = true := by decide +kernel

def t20 : CTree :=
  .sy (.sy (.sy (.leaf ⟨151, 52, 8, 901, 16, 881, ⟨[[(1123648107028992, 0)], [(0, 3722225092021715)]], 2, 3⟩, ⟨[[(0,
    736833143636992), (337967638296582, 0), (0, 20683088950), (2856191, 0)], [(0, 157019425752777), (27745836667, 0),
    (0, 17551615), (18079, 0)], [(0, 9149465886), (12782433, 0), (0, 11935), (12, 0)]], 2, 3⟩, 4503599627370496, 57,
    18896736796139, ⟨[[(310401549144815, 0), (755535486534, 0), (0, 8285636), (0, 55829)], [(0, 31931589806),
    (67512262, 0), (0, 223415), (953, 0)], [(0, 475171), (0, 5275), (0, 26)]], 2, 3⟩, 1099511627776, 56049151,
    35690935561143736490839063192309011072838013207697511984107500512858782330953578865630339, lc0⟩) (.leaf ⟨151, 52,
    8, 970, 16, 922, ⟨[[(1123648107028992, 0)], [(0, 3722225092021715)]], 2, 3⟩, ⟨[[(0, 1441490027400192),
    (339316141144004, 0), (0, 19695118977), (1379473, 0)], [(0, 155812511746726), (20884635645, 0), (0, 7167341),
    (5593, 0)], [(0, 6013196943), (7854813, 0), (0, 4766), (4, 0)]], 2, 3⟩, 4503599627370496, 57, 4330194398465,
    ⟨[[(329937205487550, 0), (721399902039, 0), (0, 12704988), (0, 77849)], [(0, 30318780062), (55227686, 0), (0,
    140144), (742, 0)], [(0, 630668), (0, 6504), (0, 30)]], 2, 3⟩, 1099511627776, 60813698,
    25769822533190269134517696749904149484987387043448784137530476672868604233196532776149086, lc0⟩)) (.sy (.leaf
    ⟨151, 52, 8, 1038, 16, 961, ⟨[[(1123648107028992, 0)], [(0, 3722225092021715)]], 2, 3⟩, ⟨[[(0, 1633360602976256),
    (339812055875226, 0), (0, 19072167186), (1370451, 0)], [(0, 155501870888072), (18116783395, 0), (0, 3555667),
    (2335, 0)], [(0, 3869702630), (5834670, 0), (0, 2177), (2, 0)]], 2, 3⟩, 4503599627370496, 57, 1932961468896,
    ⟨[[(348593546761919, 0), (691324898332, 0), (0, 18246958), (0, 93186)], [(0, 28971083536), (47406280, 0), (0,
    78835), (586, 0)], [(0, 820702), (0, 7911), (0, 34)]], 2, 3⟩, 1099511627776, 68949931,
    33064643760961576100275235732617630795466533337197406022397564174941594793292982712383997, lc0⟩) (.leaf ⟨151, 52,
    8, 1107, 16, 1000, ⟨[[(1123648107028992, 0)], [(0, 3722225092021715)]], 2, 3⟩, ⟨[[(0, 1344003693659136),
    (340229088974036, 0), (0, 18374841839), (1363017, 0)], [(0, 155579887274307), (16975447385, 0), (0, 1861284),
    (1265, 0)], [(0, 2117607346), (4985642, 0), (0, 985), (1, 0)]], 2, 3⟩, 4503599627370496, 57, 1410898147985,
    ⟨[[(366434517968559, 0), (663263341132, 0), (0, 24351310), (0, 103314)], [(0, 27789472667), (42732348, 0), (0,
    33015), (468, 0)], [(0, 1049565), (0, 9491), (0, 39)]], 2, 3⟩, 1099511627776, 79795935,
    39520777583891834617096027844572596622967312718166561494430199926554580642350651699351064, lc0⟩))) (.sy (.sy
    (.leaf ⟨151, 52, 8, 1176, 16, 1038, ⟨[[(1123648107028992, 0)], [(0, 3722225092021715)]], 2, 3⟩, ⟨[[(0,
    1366804728752128), (340312517808152, 0), (0, 17649131389), (1293351, 0)], [(0, 155511609233474), (16679211444,
    0), (0, 840950), (830, 0)], [(0, 478434396), (4735909, 0), (0, 293), (1, 0)]], 2, 3⟩, 4503599627370496, 57,
    1347042555115, ⟨[[(383626572697678, 0), (637550672862, 0), (0, 30779863), (0, 110047)], [(0, 26694906990),
    (40398630, 0), (1554, 0), (380, 0)], [(0, 1323643), (0, 11275), (0, 43)]], 2, 3⟩, 1099511627776, 94271605,
    42414987130368663389940544242777297338868793119322902541257633080409347873606465162180032, lc0⟩) (.leaf ⟨151, 52,
    8, 1246, 16, 1076, ⟨[[(1123648107028992, 0)], [(0, 3722225092021715)]], 2, 3⟩, ⟨[[(0, 1495009200266240),
    (340440800873264, 0), (0, 16956428425), (1211831, 0)], [(0, 155226281898342), (16961461310, 0), (0, 107626),
    (622, 0)], [(1207423255, 0), (4883007, 0), (202, 0)]], 2, 3⟩, 4503599627370496, 57, 1394530166712,
    ⟨[[(400177710901420, 0), (613264829255, 0), (0, 37247444), (0, 114035)], [(0, 25637120157), (39770796, 0),
    (27824, 0), (313, 0)], [(0, 1647945), (0, 13263), (0, 48)]], 2, 3⟩, 1099511627776, 112057997,
    42541370088254246323084617164461147988325045463404106609512950595887819664289185805400433, lc0⟩)) (.sy (.leaf
    ⟨151, 52, 8, 1317, 16, 1114, ⟨[[(1123648107028992, 0)], [(0, 3722225092021715)]], 2, 3⟩, ⟨[[(0,
    1863933023013888), (340621695850004, 0), (0, 16298965688), (1142445, 0)], [(0, 154549748277608), (17701087966,
    0), (490973, 0), (517, 0)], [(3062852488, 0), (5351962, 0), (628, 0)]], 2, 3⟩, 4503599627370496, 57,
    1575973096938, ⟨[[(416141426446397, 0), (590234988951, 0), (0, 43609860), (0, 116050)], [(0, 24575716533),
    (40417378, 0), (47993, 0), (263, 0)], [(0, 2028682), (0, 15473), (0, 54)]], 2, 3⟩, 1099511627776, 134003921,
    39878807549576922459213639069698829533530057445648967780106410667422545092341585379892862, lc0⟩) (.leaf ⟨151, 52,
    8, 1390, 16, 1153, ⟨[[(1123648107028992, 0)], [(0, 3722225092021715)]], 2, 3⟩, ⟨[[(0, 1670894085341184),
    (341160443402104, 0), (0, 15678055066), (1090899, 0)], [(0, 153463824808157), (18863064356, 0), (1029232, 0),
    (466, 0)], [(5204819939, 0), (6134317, 0), (1049, 0)]], 2, 3⟩, 4503599627370496, 57, 1903775623669,
    ⟨[[(431446274762353, 0), (567845302176, 0), (0, 49622184), (0, 116296)], [(0, 23488571020), (41966297, 0),
    (63483, 0), (227, 0)], [(0, 2469088), (0, 17885), (0, 59)]], 2, 3⟩, 1099511627776, 160592959,
    30249940172872711915283159326103267782022669858773793433506748577180688720061645198731446, lc0⟩)))
theorem c20 : checkC job ⟨6, 8, 5, 6, 9, 13⟩ 1 40 B1.zlims t20 953 61 160 667 175 1896 = true := by decide +kernel

def t21 : CTree :=
  .sy (.sy (.sy (.sy (.leaf ⟨50, 52, 8, 1530, 16, 1515, ⟨[[(1875749244799808, 0)], [(0, 3722225092021715)]], 2, 3⟩,
    ⟨[[(1186513809731584, 0), (297250591929960, 0), (0, 10611439769), (1659326, 0)], [(0, 278956188075453),
    (30256238635, 0), (0, 11722610), (6449, 0)], [(0, 19161048835), (14480356, 0), (0, 7485), (4, 0)]], 2, 3⟩,
    4503599627370496, 7, 3468976166285, ⟨[[(305180785216448, 0), (435143072458, 0), (6427606, 0), (0, 28136)], [(0,
    32633291592), (42989658, 0), (0, 85009), (200, 0)], [(0, 466687), (0, 3051), (0, 9)]], 2, 3⟩, 1099511627776,
    26880933, 47546176986001992310270194744660159831663319863358992795631231443869512779824331895749004, lc0⟩) (.sy
    (.leaf ⟨50, 52, 8, 2547, 16, 2494, ⟨[[(1875749244799808, 0)], [(0, 3722225092021715)]], 2, 3⟩,
    ⟨[[(1759840539619328, 0), (240316307605878, 0), (0, 3959120094), (195261, 0)], [(0, 447304966565117),
    (20766106547, 0), (0, 3196626), (793, 0)], [(0, 26030036288), (9259878, 0), (0, 2065), (1, 0)]], 2, 3⟩,
    4503599627370496, 7, 1431147314971, ⟨[[(312664942512405, 0), (264449905500, 0), (1819890, 0), (0, 6693)], [(0,
    31918202193), (24444741, 0), (0, 27641), (43, 0)], [(0, 521890), (0, 2050), (0, 4)]], 2, 3⟩, 1099511627776,
    27006004, 43121933641408344125446567771454713587984864131524248677165823481878932590815600504640437, lc0⟩) (.leaf
    ⟨50, 52, 8, 2601, 16, 2528, ⟨[[(1875749244799808, 0)], [(0, 3722225092021715)]], 2, 3⟩, ⟨[[(0, 260545696049152),
    (240848942855474, 0), (0, 3834499480), (146624, 0)], [(0, 446400843515317), (19046720678, 0), (0, 2519668), (583,
    0)], [(0, 23335874599), (8090727, 0), (0, 1631)]], 2, 3⟩, 4503599627370496, 7, 1159101525170,
    ⟨[[(317694914454610, 0), (260954255183, 0), (1392367, 0), (0, 6678)], [(0, 31463011263), (23124337, 0), (0,
    24548), (40, 0)], [(0, 562213), (0, 2163), (0, 4)]], 2, 3⟩, 1099511627776, 28963933,
    48321581942991585811446708857344106970235587530269427676890712942134839831133524946293163, lc0⟩))) (.sx (.leaf
    ⟨76, 26, 8, 1033, 16, 985, ⟨[[(0, 1689975760170752)], [(0, 1861112546010857)]], 2, 3⟩, ⟨[[(0, 2054407373798400),
    (364615028692267, 0), (0, 21785408274), (2057020, 0)], [(0, 83828059334774), (11952299357, 0), (0, 4315455),
    (3393, 0)], [(0, 1664591406), (2256147, 0), (0, 1389), (1, 0)]], 2, 3⟩, 4503599627370496, 56, 5136447550737,
    ⟨[[(330005545410793, 0), (671357329570, 0), (0, 1004920), (0, 107764)], [(0, 30394145279), (53445721, 0), (0,
    124779), (627, 0)], [(0, 662745), (0, 6419), (0, 28)]], 2, 3⟩, 1099511627776, 16529662,
    34990203664376687167171621135636373484803043170152700376527603822560572662215471727718677, lc0⟩) (.sy (.leaf ⟨25,
    26, 8, 1886, 16, 1816, ⟨[[(937874622399904, 0)], [(0, 1861112546010857)]], 2, 3⟩, ⟨[[(1228470242095104, 0),
    (341145910641583, 0), (0, 10618685554), (672709, 0)], [(0, 157397543023337), (12375801960, 0), (0, 2661645),
    (1116, 0)], [(0, 3546137308), (2448159, 0), (0, 847)]], 2, 3⟩, 4503599627370496, 31, 452571144365,
    ⟨[[(324847063818741, 0), (362577008435, 0), (2770663, 0), (0, 21501)], [(0, 30880566129), (30784840, 0), (0,
    41570), (105, 0)], [(0, 633031), (0, 3359), (0, 8)]], 2, 3⟩, 1099511627776, 4866039,
    50783746104481814340642361381810046833142867534001745970314993662362162750456615479410439, lc0⟩) (.leaf ⟨25, 26,
    8, 1956, 16, 1857, ⟨[[(937874622399904, 0)], [(0, 1861112546010857)]], 2, 3⟩, ⟨[[(0, 1436860113900544),
    (341474868081673, 0), (0, 10236248179), (521911, 0)], [(0, 156812345212449), (11102235364, 0), (0, 1796643),
    (673, 0)], [(0, 2841915129), (2013879, 0), (0, 559)]], 2, 3⟩, 4503599627370496, 31, 213749940328,
    ⟨[[(334570854027767, 0), (354670917193, 0), (949419, 0), (0, 21235)], [(0, 30082984776), (28142775, 0), (0,
    31884), (93, 0)], [(0, 729096), (0, 3731), (0, 9)]], 2, 3⟩, 1099511627776, 5473556,
    47517197767476203701869138643237975007265975043870824566577010573405852162652578117532577, lc0⟩)))) (.sy (.leaf
    ⟨50, 52, 8, 1026, 16, 954, ⟨[[(1875749244799808, 0)], [(0, 3722225092021715)]], 2, 3⟩, ⟨[[(0, 520002068304896),
    (339619843510934, 0), (0, 19397224374), (1668802, 0)], [(0, 155315393113294), (19463762945, 0), (0, 4086220),
    (2746, 0)], [(0, 3911701653), (6339748, 0), (0, 2401), (2, 0)]], 2, 3⟩, 4503599627370496, 7, 2426177915676,
    ⟨[[(348441125290534, 0), (691576668054, 0), (0, 8738800), (0, 153700)], [(0, 29016859713), (50137257, 0), (0,
    80846), (629, 0)], [(0, 875806), (0, 8547), (0, 38)]], 2, 3⟩, 1099511627776, 63557851,
    39146732696412454131462473434967981746458078557795701244602345475199830082316929864791853, lc0⟩) (.leaf ⟨50, 52,
    8, 1096, 16, 994, ⟨[[(1875749244799808, 0)], [(0, 3722225092021715)]], 2, 3⟩, ⟨[[(0, 606968916578304),
    (340322299788033, 0), (0, 18505202372), (1521638, 0)], [(0, 155147966756429), (18138621884, 0), (0, 2096872),
    (1482, 0)], [(0, 2000097111), (5423531, 0), (0, 1042), (1, 0)]], 2, 3⟩, 4503599627370496, 7, 1668588701141,
    ⟨[[(366341154575466, 0), (663004047670, 0), (0, 19686174), (0, 151735)], [(0, 27762086445), (45277209, 0), (0,
    31574), (505, 0)], [(0, 1124180), (0, 10279), (0, 43)]], 2, 3⟩, 1099511627776, 75290948,
    27501043362229937934903052396098449356619568925043315540844207093020507291358162707885714, lc0⟩))) (.sy (.sy
    (.leaf ⟨50, 52, 8, 1165, 16, 1032, ⟨[[(1875749244799808, 0)], [(0, 3722225092021715)]], 2, 3⟩, ⟨[[(0,
    1301909893060608), (340440874871280, 0), (0, 17653237135), (1395026, 0)], [(0, 154696371470355), (17788978625,
    0), (0, 901622), (968, 0)], [(0, 199689973), (5191468, 0), (0, 241), (1, 0)]], 2, 3⟩, 4503599627370496, 7,
    1551654056510, ⟨[[(383631177250135, 0), (637292141298, 0), (0, 29861030), (0, 149818)], [(0, 26592959321),
    (42987513, 0), (5812, 0), (414, 0)], [(0, 1423440), (0, 12262), (0, 48)]], 2, 3⟩, 1099511627776, 90133431,
    30160889336157320616514627550241647562120970054252054580182468121180306649458052271438880, lc0⟩) (.leaf ⟨50, 52,
    8, 1236, 16, 1071, ⟨[[(1875749244799808, 0)], [(0, 3722225092021715)]], 2, 3⟩, ⟨[[(0, 1357238681333760),
    (340993541003244, 0), (0, 16887059226), (1288352, 0)], [(0, 154156153619785), (18135837289, 0), (0, 41553), (731,
    0)], [(1673870203, 0), (5430631, 0), (345, 0)]], 2, 3⟩, 4503599627370496, 7, 1632962653002, ⟨[[(400172552116876,
    0), (612287922083, 0), (0, 39084995), (0, 146806)], [(0, 25464591895), (42501139, 0), (34260, 0), (345, 0)], [(0,
    1776657), (0, 14457), (0, 54)]], 2, 3⟩, 1099511627776, 108997940,
    29654323916977530717398773441623766704245299360568379257431444313566545139960132294303411, lc0⟩)) (.leaf ⟨50, 52,
    8, 713, 16, 599, ⟨[[(1875749244799808, 0)], [(0, 3722225092021715)]], 2, 3⟩, ⟨[[(0, 941999868502528),
    (362727238612933, 0), (0, 33566667813), (4988403, 0)], [(0, 80844861279978), (20844866760, 0), (2119620, 0),
    (2489, 0)], [(2622346306, 0), (6913775, 0), (2397, 0), (2, 0)]], 2, 3⟩, 4503599627370496, 7, 37926950479896,
    ⟨[[(423879713054680, 0), (1088092323073, 0), (0, 183227782), (0, 951596)], [(0, 23742872821), (83460740, 0),
    (232996, 0), (1838, 0)], [(0, 2426865), (0, 34423), (0, 226), (0, 1)]], 2, 3⟩, 1099511627776, 249121843,
    30521765765352880253474271160961055820802665980151908983804719714408921321729444972113037, lc0⟩))
theorem c21 : checkC job ⟨6, 8, 5, 6, 9, 13⟩ 1 40 B1.zlims t21 1075 61 160 667 175 1896 = true := by decide +kernel

def t22 : CTree :=
  .sy (.sy (.leaf ⟨151, 52, 8, 798, 16, 644, ⟨[[(1123648107028992, 0)], [(0, 3722225092021715)]], 2, 3⟩, ⟨[[(0,
    612597373741056), (363689601593949, 0), (0, 31378484553), (4418768, 0)], [(0, 79989840034054), (22693267739, 0),
    (3857766, 0), (1924, 0)], [(4898909165, 0), (8446526, 0), (3760, 0), (2, 0)]], 2, 3⟩, 4503599627370496, 57,
    18758487543877, ⟨[[(453350382152486, 0), (1008793244533, 0), (0, 205535434), (0, 766022)], [(0, 21755554931),
    (85739635, 0), (286595, 0), (1275, 0)], [(0, 3258180), (0, 41341), (0, 243), (0, 1)]], 2, 3⟩, 1099511627776,
    307057879, 34133176080677323398491723841263639321442512107380525786702597667455849295063020719806038, lc0⟩) (.sy
    (.leaf ⟨151, 52, 8, 1616, 16, 1271, ⟨[[(1123648107028992, 0)], [(0, 3722225092021715)]], 2, 3⟩, ⟨[[(0,
    1846173570837504), (343510180246792, 0), (0, 13833038859), (1007852, 0)], [(0, 145517912616854), (24787067236,
    0), (2660753, 0), (495, 0)], [(14629147736, 0), (10711207, 0), (2706, 0), (1, 0)]], 2, 3⟩, 4503599627370496, 57,
    4041660862107, ⟨[[(474244476437013, 0), (506283434091, 0), (0, 65841374), (0, 112777)], [(0, 19835907117),
    (50333959, 0), (94391, 0), (174, 0)], [(0, 4232942), (0, 26770), (0, 80)]], 2, 3⟩, 1099511627776, 281474941,
    38978670865987718511723147157167162716789659095918135719157359980701448212105763872942125, lc0⟩) (.leaf ⟨151, 52,
    8, 1695, 16, 1312, ⟨[[(1123648107028992, 0)], [(0, 3722225092021715)]], 2, 3⟩, ⟨[[(0, 520019351631872),
    (344972210819672, 0), (0, 13211365140), (994985, 0)], [(0, 140897948264424), (27701677666, 0), (3303702, 0),
    (553, 0)], [(19341590708, 0), (13260503, 0), (3528, 0), (1, 0)]], 2, 3⟩, 4503599627370496, 57, 5329781028833,
    ⟨[[(487377022998126, 0), (486913416266, 0), (0, 70382741), (0, 110747)], [(0, 18458569721), (53871966, 0),
    (101775, 0), (170, 0)], [(0, 4987312), (0, 30339), (0, 89)]], 2, 3⟩, 1099511627776, 341286647,
    41333449726174794992478519104006005270119399646884828424269571994945781991315170223407774, lc0⟩))) (.sy (.sy
    (.leaf ⟨151, 52, 8, 1776, 16, 1354, ⟨[[(1123648107028992, 0)], [(0, 3722225092021715)]], 2, 3⟩,
    ⟨[[(2018913527531520, 0), (346843821995898, 0), (0, 12577527542), (987160, 0)], [(0, 134959657968799),
    (31192356265, 0), (4041786, 0), (637, 0)], [(25232602798, 0), (16548797, 0), (4576, 0), (1, 0)]], 2, 3⟩,
    4503599627370496, 57, 7078993934409, ⟨[[(499943686871995, 0), (468054050894, 0), (0, 74477161), (0, 108628)],
    [(0, 16991405708), (57653179, 0), (108559, 0), (171, 0)], [(0, 5836820), (0, 34284), (0, 100)]], 2, 3⟩,
    1099511627776, 415905129,
    38120696393313232734022497348106491302789444870432153796058070009188987094210646704987522, lc0⟩) (.leaf ⟨151, 52,
    8, 1860, 16, 1397, ⟨[[(1123648107028992, 0)], [(0, 3722225092021715)]], 2, 3⟩, ⟨[[(1495846705336320, 0),
    (349144840001804, 0), (0, 11926058589), (984324, 0)], [(0, 127441685684820), (35354376195, 0), (4907531, 0),
    (752, 0)], [(32634828795, 0), (20786067, 0), (5931, 0), (1, 0)]], 2, 3⟩, 4503599627370496, 57, 9481669892172,
    ⟨[[(512408138821851, 0), (449553631219, 0), (0, 78475783), (0, 106895)], [(0, 15368217639), (61877043, 0),
    (115660, 0), (176, 0)], [(0, 6829758), (0, 38905), (0, 113)]], 2, 3⟩, 1099511627776, 513392039,
    41323220929514463056406766639750606800773362526011223711291309871285409651236582377761475, lc0⟩)) (.sx (.leaf
    ⟨176, 26, 8, 1079, 16, 793, ⟨[[(2061522729428864, 0)], [(0, 1861112546010858)]], 2, 3⟩, ⟨[[(601075817155584, 0),
    (381678105470234, 0), (0, 24047201036), (4171850, 0)], [(0, 31250580426793), (22432655640, 0), (6531329, 0),
    (1920, 0)], [(6095066026, 0), (7444958, 0), (4292, 0), (2, 0)]], 2, 3⟩, 4503599627370496, 52, 4287740743301,
    ⟨[[(530306551830988, 0), (782820151878, 0), (0, 276179770), (0, 631558)], [(0, 13059285554), (123065366, 0),
    (411576, 0), (1120, 0)], [(0, 8314274), (0, 82976), (0, 434), (0, 2)]], 2, 3⟩, 1099511627776, 156392448,
    41895712491787496142383079470629443399975181018471346011743766184993787757119729531277388, lc0⟩) (.leaf ⟨126, 26,
    8, 1073, 16, 789, ⟨[[(185773484629056, 0)], [(0, 1861112546010857)]], 2, 3⟩, ⟨[[(0, 591414119920640),
    (382591701770463, 0), (0, 23064823466), (4414259, 0)], [(0, 29528010143169), (24267149878, 0), (7659069, 0),
    (2434, 0)], [(6783381505, 0), (8598968, 0), (5289, 0), (2, 0)]], 2, 3⟩, 4503599627370496, 52, 4552158051886,
    ⟨[[(530503145113677, 0), (780723099336, 0), (0, 299768963), (0, 701187)], [(0, 12269987944), (131976940, 0),
    (461786, 0), (1357, 0)], [(0, 8905988), (0, 92441), (0, 528), (0, 3)]], 2, 3⟩, 1099511627776, 185178659,
    36357710715810611317826041614365989888562440509848351843314119227484199376693448368203444, lc0⟩)))
theorem c22 : checkC job ⟨6, 8, 5, 6, 9, 13⟩ 1 40 B1.zlims t22 953 61 160 1017 175 1896 = true := by decide +kernel

def t23 : CTree :=
  .sy (.sy (.sy (.leaf ⟨50, 52, 8, 1452, 16, 1186, ⟨[[(1875749244799808, 0)], [(0, 3722225092021715)]], 2, 3⟩,
    ⟨[[(831014397723648, 0), (342630684185681, 0), (0, 14775927121), (1109901, 0)], [(0, 148860738207426),
    (22226752158, 0), (1968384, 0), (568, 0)], [(9186188800, 0), (8515802, 0), (2018, 0), (1, 0)]], 2, 3⟩,
    4503599627370496, 7, 2985430244406, ⟨[[(445933613799426, 0), (545164615168, 0), (0, 62448464), (0, 137697)], [(0,
    21932979172), (48084898, 0), (87792, 0), (235, 0)], [(0, 3229608), (0, 22708), (0, 76)]], 2, 3⟩, 1099511627776,
    196587063, 41475973979706904477148369718582361300302076343678625683120816459862413135956855069037210, lc0⟩) (.sx
    (.leaf ⟨76, 26, 8, 1639, 16, 1314, ⟨[[(0, 1689975760170752)], [(0, 1861112546010857)]], 2, 3⟩,
    ⟨[[(179738403043328, 0), (367798933310251, 0), (0, 15199173630), (1145832, 0)], [(0, 78417736284581),
    (12857514548, 0), (1337163, 0), (302, 0)], [(3293773226, 0), (2678579, 0), (686, 0)]], 2, 3⟩, 4503599627370496,
    56, 614967153798, ⟨[[(460252513871974, 0), (489927464267, 0), (0, 58228785), (0, 105162)], [(0, 20748259670),
    (46956242, 0), (83685, 0), (171, 0)], [(0, 3798446), (0, 23780), (0, 71)]], 2, 3⟩, 1099511627776, 33786355,
    39136668733547600314440639616241394918081398268697863100943203228751707020960410105136049, lc0⟩) (.leaf ⟨25, 26,
    8, 1632, 16, 1310, ⟨[[(937874622399904, 0)], [(0, 1861112546010857)]], 2, 3⟩, ⟨[[(0, 253089640895488),
    (368284209507378, 0), (0, 14979541809), (1181795, 0)], [(0, 77340457618678), (13502828750, 0), (1513667, 0),
    (347, 0)], [(3596467251, 0), (2946994, 0), (800, 0)]], 2, 3⟩, 4503599627370496, 31, 679004971687,
    ⟨[[(460317224984310, 0), (489210122919, 0), (0, 62377543), (0, 114751)], [(0, 20448946159), (49249289, 0),
    (90736, 0), (189, 0)], [(0, 3969557), (0, 25205), (0, 78)]], 2, 3⟩, 1099511627776, 35007350,
    50118448697352493739312721640682175813783447996201431765433477674639943635962642359959048, lc0⟩))) (.sy (.sx
    (.leaf ⟨76, 26, 8, 1719, 16, 1355, ⟨[[(0, 1689975760170752)], [(0, 1861112546010857)]], 2, 3⟩,
    ⟨[[(1091390065687552, 0), (368731141960841, 0), (0, 14461550883), (1128834, 0)], [(0, 76041569730978),
    (14340547801, 0), (1716021, 0), (334, 0)], [(4457993041, 0), (3327498, 0), (915, 0)]], 2, 3⟩, 4503599627370496,
    56, 745559204458, ⟨[[(473915657295418, 0), (471696637841, 0), (0, 63390203), (0, 103637)], [(0, 19364797690),
    (50474903, 0), (92604, 0), (166, 0)], [(0, 4523279), (0, 27304), (0, 81)]], 2, 3⟩, 1099511627776, 40612132,
    44159888042539455965875528869396825710034831302364855035974225375398447396556664557479051, lc0⟩) (.sy (.leaf ⟨25,
    26, 8, 3183, 16, 2522, ⟨[[(937874622399904, 0)], [(0, 1861112546010857)]], 2, 3⟩, ⟨[[(0, 1362901285658624),
    (347171157009795, 0), (0, 6768982302), (275470, 0)], [(0, 141858253673221), (13833143399, 0), (864115, 0), (89,
    0)], [(8526892348, 0), (3284925, 0), (471, 0)]], 2, 3⟩, 4503599627370496, 31, 810674484692, ⟨[[(470728688602469,
    0), (252643868608, 0), (0, 18870661), (0, 17047)], [(0, 19354644416), (27730021, 0), (27841, 0), (28, 0)], [(0,
    4544977), (0, 14964), (0, 25)]], 2, 3⟩, 1099511627776, 33159401,
    50099609664012315170689004140561209022072197256947090985996447003708371177516393818853401, lc0⟩) (.leaf ⟨25, 26,
    8, 3260, 16, 2562, ⟨[[(937874622399904, 0)], [(0, 1861112546010857)]], 2, 3⟩, ⟨[[(1803571941038080, 0),
    (347966206118393, 0), (0, 6585201753), (274843, 0)], [(0, 139078333473969), (14700856504, 0), (975412, 0), (96,
    0)], [(9891343710, 0), (3694852, 0), (545, 0)]], 2, 3⟩, 4503599627370496, 31, 952628046097, ⟨[[(477310102320738,
    0), (247694894553, 0), (0, 19604713), (0, 16901)], [(0, 18611353508), (28785258, 0), (29163, 0), (28, 0)], [(0,
    4952932), (0, 16062), (0, 26)]], 2, 3⟩, 1099511627776, 37075354,
    50191661376021936225853947328697245225722921707990122413234882092419778061235403894632425, lc0⟩))) (.sx (.leaf
    ⟨76, 26, 8, 1800, 16, 1396, ⟨[[(0, 1689975760170752)], [(0, 1861112546010857)]], 2, 3⟩, ⟨[[(1768313882951680, 0),
    (369880766371507, 0), (0, 13701353576), (1120252, 0)], [(0, 72939716360250), (16142659724, 0), (2148090, 0),
    (383, 0)], [(5918521281, 0), (4177948, 0), (1209, 0)]], 2, 3⟩, 4503599627370496, 56, 943428603511,
    ⟨[[(487134156237577, 0), (454135739525, 0), (0, 68292028), (0, 102513)], [(0, 17867620904), (54444534, 0),
    (101070, 0), (167, 0)], [(0, 5359661), (0, 31367), (0, 93)]], 2, 3⟩, 1099511627776, 49541633,
    42710543000122670991352336878657212426328148341450847267426454188855949402466967523764368, lc0⟩) (.leaf ⟨25, 26,
    8, 1791, 16, 1390, ⟨[[(937874622399904, 0)], [(0, 1861112546010857)]], 2, 3⟩, ⟨[[(0, 1318247273121792),
    (370316417751591, 0), (0, 13362501426), (1166544, 0)], [(0, 71115352241729), (17151704214, 0), (2460218, 0),
    (459, 0)], [(6506049237, 0), (4695318, 0), (1438, 0)]], 2, 3⟩, 4503599627370496, 31, 1073105199205,
    ⟨[[(487458354973441, 0), (453410478534, 0), (0, 73908437), (0, 112698)], [(0, 17376726009), (57746489, 0),
    (111424, 0), (194, 0)], [(0, 5660516), (0, 33968), (0, 106)]], 2, 3⟩, 1099511627776, 53478291,
    50434040566529447746626307714126402210539888423482340420744397576400347528533545986716936, lc0⟩)))) (.sy (.sy
    (.leaf ⟨50, 52, 8, 1764, 16, 1347, ⟨[[(1875749244799808, 0)], [(0, 3722225092021715)]], 2, 3⟩, ⟨[[(0,
    1279759009654784), (349102803059305, 0), (0, 11945296440), (1076709, 0)], [(0, 127492879887299), (35588284349,
    0), (5359337, 0), (942, 0)], [(30659236871, 0), (21177997, 0), (6570, 0), (2, 0)]], 2, 3⟩, 4503599627370496, 7,
    9645820670692, ⟨[[(500288474136580, 0), (464750620110, 0), (0, 86365060), (0, 129442)], [(0, 15915575238),
    (64806231, 0), (131346, 0), (230, 0)], [(0, 6538421), (0, 40374), (0, 133)]], 2, 3⟩, 1099511627776, 484452515,
    45191176172462745302107672985743831900038432344102461897648381296917355655870383061280541, lc0⟩) (.leaf ⟨50, 52,
    8, 1848, 16, 1390, ⟨[[(1875749244799808, 0)], [(0, 3722225092021715)]], 2, 3⟩, ⟨[[(0, 1393261524369408),
    (352024326436624, 0), (0, 11170190678), (1093593, 0)], [(0, 117988281569351), (40974289946, 0), (6645112, 0),
    (1161, 0)], [(40193291682, 0), (27266226, 0), (8778, 0), (2, 0)]], 2, 3⟩, 4503599627370496, 7, 13356482914363,
    ⟨[[(512693769055830, 0), (445603193930, 0), (0, 91332708), (0, 128816)], [(0, 14077525621), (70140852, 0),
    (142277, 0), (249, 0)], [(0, 7725383), (0, 46923), (0, 159)]], 2, 3⟩, 1099511627776, 625868935,
    37815241445313900826187212514588602609400337607268810235997394272345595856967241761455294, lc0⟩)) (.leaf ⟨50, 52,
    8, 1031, 16, 759, ⟨[[(1875749244799808, 0)], [(0, 3722225092021715)]], 2, 3⟩, ⟨[[(0, 123907831289856),
    (372616750880548, 0), (0, 20648165333), (4768765, 0)], [(0, 51581504412179), (53527377565, 0), (19173908, 0),
    (6912, 0)], [(31279674462, 0), (42162543, 0), (28769, 0), (15, 0)]], 2, 3⟩, 4503599627370496, 7, 32456398949285,
    ⟨[[(530419730506641, 0), (801439087936, 0), (0, 362231336), (0, 916198)], [(0, 11016395276), (151799466, 0),
    (594293, 0), (2081, 0)], [(0, 9898779), (0, 114258), (0, 782), (0, 5)]], 2, 3⟩, 1099511627776, 1229614702,
    34282686681790702484028781055474479840880854977585356535919432328622016606627900157352267, lc0⟩))
theorem c23 : checkC job ⟨6, 8, 5, 6, 9, 13⟩ 1 40 B1.zlims t23 1075 61 160 1017 175 1896 = true := by decide +kernel

end PyX.Kron.T1ph
