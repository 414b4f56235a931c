import Verif.Lemmas.V3bJob

/-!
# The volume from pressure and enthalpy in subregion 3b, part B of the certificate
-/

namespace PyX.Kron.V3b

set_option Elab.async false

def t32 : CTree :=
  .sy (.sx (.sx (.sy (.leaf ⟨442, 16, 428, 324, 16, 2131, ⟨[[(0, 25881985399185408), (0, 2429967900409892),
    (45682225503, 0), (135873, 0), (0, 45)], [(23058128610591473, 0), (0, 2067607379179), (18816971, 0), (2775, 0)],
    [(16228738809980, 0), (0, 483743270), (0, 59116), (5, 0)], [(9068753043, 0), (449606, 0), (0, 89)]], 3, 4⟩,
    ⟨[[(9794930693701632, 0), (0, 3088781111825455), (49541348879, 0), (0, 1550797), (42, 0)], [(0,
    15897545618974747), (0, 312389923807), (28605374, 0), (0, 713)], [(6113973200090, 0), (0, 224173176), (10503,
    0)], [(995435665, 0), (0, 138740), (0, 3)]], 3, 4⟩, 72057594037927936, 323206498039, 272074598044,
    ⟨[[(4143109771667, 0), (3440429256, 0), (2101367, 0), (159, 0), (0, 3)], [(0, 4368364854), (0, 10104488), (0,
    8720), (4, 0)], [(9901849, 0), (29254, 0), (22, 0)], [(0, 26511), (0, 83)]], 3, 4⟩, 17592186044416, 12334680,
    3558336449278182268602011666567316373049274863695983610767751938093560131246981909125678688130296082517144052206005892511829488,
    lc0⟩) (.leaf ⟨438, 16, 441, 305, 16, 2149, ⟨[[(0, 16066375385092096), (0, 2456434729445275), (47211317076, 0),
    (48730, 0), (0, 44)], [(22694264482448253, 0), (0, 2108864117956), (23445882, 0), (2529, 0)], [(16456805485821,
    0), (0, 555413899), (0, 52677), (5, 0)], [(9554182501, 0), (374533, 0), (0, 85)]], 3, 4⟩, ⟨[[(24904725784805376,
    0), (0, 3065871695618665), (47671831295, 0), (0, 1472332), (49, 0)], [(0, 16182797079063107), (0, 286635809974),
    (27687504, 0), (0, 818)], [(6054825401550, 0), (0, 215294635), (10812, 0)], [(932986689, 0), (0, 142093), (0,
    1)]], 3, 4⟩, 72057594037927936, 397873508294, 274808924300, ⟨[[(4142967996855, 0), (3493601705, 0), (2204462, 0),
    (314, 0), (0, 2)], [(0, 4358744703), (0, 10350092), (0, 9313), (3, 0)], [(10037522, 0), (30632, 0), (24, 0)],
    [(0, 27099), (0, 88)]], 3, 4⟩, 17592186044416, 12811325,
    3497870374544800259083168754068897102909468802762929271188482023728174849167456992448973353550864276605992865146915474613630370,
    lc0⟩)) (.sy (.leaf ⟨435, 16, 409, 317, 16, 2145, ⟨[[(19244812052107264, 0), (0, 2405861409672048), (44303337148,
    0), (250787, 0), (0, 50)], [(23383444134269903, 0), (0, 2012169246128), (12766300, 0), (3116, 0)],
    [(16613099834920, 0), (0, 400610180), (0, 67902), (6, 0)], [(8864415369, 0), (551270, 0), (0, 96)]], 3, 4⟩,
    ⟨[[(6493460534005760, 0), (0, 3122688261205879), (51094537956, 0), (0, 1590584), (40, 0)], [(0,
    15479342875686720), (0, 334123007398), (29662925, 0), (0, 690)], [(6294479299195, 0), (0, 242792028), (10105,
    0)], [(1225778642, 0), (0, 132410), (0, 4)]], 3, 4⟩, 72057594037927936, 271303206699, 277988314354,
    ⟨[[(4057209457301, 0), (3254474116, 0), (1957231, 0), (290, 0), (0, 2)], [(0, 4223208849), (0, 9589792), (0,
    8533), (3, 0)], [(9509948, 0), (28084, 0), (22, 0)], [(0, 25765), (0, 82)]], 3, 4⟩, 17592186044416, 12453304,
    2799794122409938422144440002514215900097166470725757457396255927859110406400133391276565233559863793984166881813402132172939533,
    lc0⟩) (.leaf ⟨431, 16, 421, 298, 16, 2163, ⟨[[(0, 3956706654105600), (0, 2430493977942345), (45915398287, 0),
    (157198, 0), (0, 49)], [(23033471995655314, 0), (0, 2055674236284), (17712729, 0), (2864, 0)], [(16876653809240,
    0), (0, 478086852), (0, 61114), (6, 0)], [(9385129849, 0), (472198, 0), (0, 91)]], 3, 4⟩, ⟨[[(0,
    634784745353216), (0, 3098354673850126), (49171925820, 0), (0, 1516344), (47, 0)], [(0, 15770930728896457), (0,
    307452126649), (28773029, 0), (0, 814)], [(6227008891149, 0), (0, 234342361), (10644, 0)], [(1168087033, 0), (0,
    136985), (0, 2)]], 3, 4⟩, 72057594037927936, 350857475104, 280253474891, ⟨[[(4056161826310, 0), (3300875284, 0),
    (2045741, 0), (432, 0), (0, 2)], [(0, 4208423421), (0, 9797682), (0, 9073), (3, 0)], [(9627133, 0), (29354, 0),
    (24, 0)], [(0, 26288), (0, 86)]], 3, 4⟩, 17592186044416, 12899269,
    2717603610890097038762317854902408772387985294376098419082919349806586047866708726547134931826269785306075910067143644442281651,
    lc0⟩))) (.sy (.sx (.leaf ⟨430, 16, 391, 310, 16, 2159, ⟨[[(0, 33273959319547904), (0, 2381405982094381),
    (42744654930, 0), (375053, 0), (0, 55)], [(23733562185639906, 0), (0, 1952773346974), (6248364, 0), (3473, 0)],
    [(16959793116390, 0), (0, 308574721), (0, 77121), (6, 0)], [(8627710878, 0), (656215, 0), (0, 102)]], 3, 4⟩,
    ⟨[[(16921828971458560, 0), (0, 3157635012825325), (52699585332, 0), (0, 1629300), (37, 0)], [(0,
    15041258635732605), (0, 357523009278), (30685059, 0), (0, 653)], [(6505256273395, 0), (0, 260677107), (9525, 0),
    (1, 0)], [(1459919765, 0), (0, 125352), (0, 6)]], 3, 4⟩, 72057594037927936, 221187245423, 280401525730,
    ⟨[[(3968777505130, 0), (3065486197, 0), (1801812, 0), (407, 0), (0, 2)], [(0, 4057727901), (0, 9006203), (0,
    8261), (3, 0)], [(9004350, 0), (26513, 0), (21, 0)], [(0, 24566), (0, 78)]], 3, 4⟩, 17592186044416, 12134717,
    1601497528554559326210602969385778361117668051795203382251166218643905206430604382443848673088943463292948082239927935076379148,
    lc0⟩) (.out ⟨391, 16, 366, 1832, 16, 1522, ⟨[[(16395751238160384, 0), (0, 2306376243990853), (40122644369, 0)],
    [(23592546990098523, 0), (0, 1848698169991), (0, 740081)], [(16900036627590, 0), (0, 203172244), (0, 84911)]], 2,
    2⟩, ⟨[[(0, 9739244498173952), (0, 3131673913362658), (53299309250, 0)], [(0, 14297471839602432), (0,
    375104060936), (31040606, 0)], [(6615936077983, 0), (0, 272331862), (8575, 0)]], 2, 2⟩, 72057594037927936,
    87861939633384, 42142175466180, ⟨[], 0, 0⟩, 0, 0, 0, lc0⟩ 0 163 11)) (.leaf ⟨286, 16, 266, 222, 16, 1689, ⟨[[(0,
    27699562465050624), (0, 1618599999924958), (29547444150, 0), (228318, 0), (0, 38)], [(31936537404539398, 0), (0,
    2665736361939), (11199401, 0), (4597, 0)], [(47218699881924, 0), (0, 936914414), (0, 201904), (17, 0)],
    [(49129642007, 0), (3382131, 0), (0, 545)]], 3, 4⟩, ⟨[[(13956674405199872, 0), (0, 2435258383522073),
    (39844259690, 0), (0, 1223246), (34, 0)], [(0, 23380585146736856), (0, 528754297451), (46971547, 0), (0, 1209)],
    [(20241157681484, 0), (0, 809923767), (31193, 0), (1, 0)], [(9456454296, 0), (0, 793104), (0, 28)]], 3, 4⟩,
    72057594037927936, 2869332279965, 3426094486229, ⟨[[(3927155014690, 0), (3907226778, 0), (3013757, 0), (1247, 0),
    (0, 5)], [(0, 5870255351), (0, 17055571), (0, 21306), (6, 0)], [(19464023, 0), (76401, 0), (84, 0)], [(0, 79468),
    (0, 339)]], 3, 4⟩, 17592186044416, 109640620,
    2372168072125056352256801690396795561269221657728242067461776356368891027219136247595276773693208067623621768396574829069121062,
    lc0⟩))) (.sx (.sy (.sx (.leaf ⟨434, 16, 455, 287, 16, 2167, ⟨[[(13599047750529024, 0), (0, 2485496644714614),
    (48718015900, 0), (0, 38841), (0, 43)], [(22328875031102278, 0), (0, 2149637839045), (27864836, 0), (2271, 0)],
    [(16678557969458, 0), (0, 623574553), (0, 46397), (5, 0)], [(10030079619, 0), (302431, 0), (0, 80)]], 3, 4⟩,
    ⟨[[(0, 33795430640181248), (0, 3044384716969049), (45912722582, 0), (0, 1379884), (55, 0)], [(0,
    16456511648787380), (0, 261650386242), (26615022, 0), (0, 904)], [(5999302144146, 0), (0, 206182293), (10784,
    0)], [(868689528, 0), (0, 143728)]], 3, 4⟩, 72057594037927936, 469496690089, 279722628429, ⟨[[(4147691495417, 0),
    (3556762208, 0), (2313081, 0), (443, 0), (0, 2)], [(0, 4364538714), (0, 10647231), (0, 9944), (3, 0)],
    [(10214128, 0), (32171, 0), (27, 0)], [(0, 27829), (0, 93)]], 3, 4⟩, 17592186044416, 13521259,
    3116652773047296295516487795541214889242391300566856422701457429891206023350027712593175134202067086809573394846776440730676616,
    lc0⟩) (.leaf ⟨427, 16, 434, 279, 16, 2182, ⟨[[(0, 2687270543036416), (0, 2457925130873875), (47501901841, 0),
    (62844, 0), (0, 48)], [(22685869351533041, 0), (0, 2098675214973), (22440339, 0), (2600, 0)], [(17135224836743,
    0), (0, 551785056), (0, 54490), (5, 0)], [(9896267643, 0), (396308, 0), (0, 86)]], 3, 4⟩, ⟨[[(349612982341632,
    0), (0, 3076900223982927), (47375267582, 0), (0, 1427923), (54, 0)], [(0, 16057953402793917), (0, 281657977539),
    (27711870, 0), (0, 920)], [(6165757025648, 0), (0, 225534826), (10848, 0)], [(1108504774, 0), (0, 139752), (0,
    1)]], 3, 4⟩, 72057594037927936, 428536495177, 284501182520, ⟨[[(4056227738971, 0), (3350756365, 0), (2136689, 0),
    (556, 0), (0, 2)], [(0, 4197587986), (0, 10030425), (0, 9650), (2, 0)], [(9750241, 0), (30708, 0), (26, 0)], [(0,
    26849), (0, 91)]], 3, 4⟩, 17592186044416, 13490021,
    2445794672402824268263829558716159721870060107556028822097929172665739221668032946303697734827117442416608609826430269656084407,
    lc0⟩)) (.leaf ⟨295, 16, 317, 200, 16, 1662, ⟨[[(0, 4160582301274112), (0, 1728832166035758), (34298568273, 0),
    (0, 55273), (0, 30)], [(30595693632307645, 0), (0, 2992617012073), (40818155, 0), (2979, 0)], [(47378826140734,
    0), (0, 1813141856), (0, 121861), (14, 0)], [(57766661162, 0), (1536358, 0), (0, 432)]], 3, 4⟩, ⟨[[(0,
    4767223402455040), (0, 2304204596988140), (34094199447, 0), (0, 986099), (45, 0)], [(0, 25052601983419444), (0,
    374320573420), (39336359, 0), (0, 1497)], [(18260881376294, 0), (0, 627296603), (31998, 0), (0, 1)],
    [(5606854952, 0), (0, 862011), (10, 0)]], 3, 4⟩, 72057594037927936, 5637026006524, 3390427233934,
    ⟨[[(4100345865653, 0), (4624860275, 0), (4046098, 0), (1406, 0), (0, 6)], [(0, 6171414661), (0, 20213935), (0,
    26305), (9, 0)], [(21103798, 0), (90681, 0), (107, 0)], [(0, 84342), (0, 389)]], 3, 4⟩, 17592186044416,
    105212976,
    2642043078065533046283792981575093363261765999993114394531371282403445995569049395588241217467148395413221299056330025953891020,
    lc0⟩)) (.sy (.leaf ⟨284, 16, 275, 206, 16, 1696, ⟨[[(0, 19546138199773184), (0, 1642536687524930), (30843587376,
    0), (158164, 0), (0, 38)], [(31637122829455354, 0), (0, 2740840576750), (18354043, 0), (4246, 0)],
    [(48279642124275, 0), (0, 1165314860), (0, 183339), (16, 0)], [(52408786912, 0), (2952212, 0), (0, 521)]], 3, 4⟩,
    ⟨[[(15597174444722176, 0), (0, 2406092562603941), (38213564014, 0), (0, 1154839), (39, 0)], [(0,
    23732294083190089), (0, 484561501131), (45182058, 0), (0, 1416)], [(19924825063132, 0), (0, 780970688), (32853,
    0), (1, 0)], [(9089833672, 0), (0, 818175), (0, 15)]], 3, 4⟩, 72057594037927936, 3746813263988, 3480541876855,
    ⟨[[(3927724484321, 0), (3984648214, 0), (3171406, 0), (1487, 0), (0, 4)], [(0, 5832803398), (0, 17461313), (0,
    22713), (5, 0)], [(19599432, 0), (79856, 0), (93, 0)], [(0, 80432), (0, 357)]], 3, 4⟩, 17592186044416, 113828851,
    2002499796080206714468461594445967547873736708048502894338380304948582897708246687484936991560515610635180552137751352525788760,
    lc0⟩) (.leaf ⟨281, 16, 284, 190, 16, 1704, ⟨[[(22236020839477248, 0), (0, 1664208097664670), (32040756242, 0),
    (86659, 0), (0, 37)], [(31256902943118238, 0), (0, 2808326914419), (25164967, 0), (3863, 0)], [(49209964311824,
    0), (0, 1381010903), (0, 164613), (16, 0)], [(55522508283, 0), (2530165, 0), (0, 495)]], 3, 4⟩,
    ⟨[[(34585732948862976, 0), (0, 2379751392797871), (36708108703, 0), (0, 1076964), (44, 0)], [(0,
    24077381965701205), (0, 442390346308), (43121908, 0), (0, 1591)], [(19633288917369, 0), (0, 751221413), (33396,
    0)], [(8717343674, 0), (0, 830598), (0, 2)]], 3, 4⟩, 72057594037927936, 4604808685171, 3528228030221,
    ⟨[[(3930040761162, 0), (4069827243, 0), (3344808, 0), (1678, 0), (0, 4)], [(0, 5822817382), (0, 17994520), (0,
    24381), (5, 0)], [(19893761, 0), (84194, 0), (105, 0)], [(0, 82402), (0, 380)]], 3, 4⟩, 17592186044416,
    120902774,
    1944252277511663310134939181478589529671073248167704084836767984893490945839561555668108863187099440428822705798259002353699807,
    lc0⟩)))
theorem c32 : checkR job con0 true ⟨7, 9, 7, 9, 13, 17⟩ 1 28336 t32 495 21 320 13239 251 16000 = true := by decide +kernel

def t33 : CTree :=
  .sx (.sy (.sx (.sy (.leaf ⟨325, 16, 407, 206, 16, 1591, ⟨[[(4199500935229440, 0), (0, 1875367047854124),
    (38366338297, 0), (0, 315860), (0, 14)], [(28845770306077318, 0), (0, 3357660305369), (70723654, 0), (1067, 0)],
    [(42376184022177, 0), (0, 2552646276), (0, 34298), (9, 0)], [(61789370581, 0), (0, 603901), (0, 275)]], 3, 4⟩,
    ⟨[[(0, 3753397017663488), (0, 2150212211867979), (28491699381, 0), (0, 746757), (44, 0)], [(0,
    26974360258558302), (0, 243445271810), (31160929, 0), (0, 1071)], [(16632103298203, 0), (0, 356526660), (22359,
    0), (0, 3)], [(0, 537424261), (0, 892133), (26, 0)]], 3, 4⟩, 72057594037927936, 8056688885799, 3210241716650,
    ⟨[[(4490435078939, 0), (6088122141, 0), (5889468, 0), (407, 0), (0, 10)], [(0, 6991025198), (0, 25681915), (0,
    31363), (21, 0)], [(23639104, 0), (105871, 0), (110, 0)], [(0, 87828), (0, 407)]], 3, 4⟩, 17592186044416,
    82576935,
    1467711089179541058199734884393276097893190427097544883303190622848979130724999418204726277226235269485809787402448362902033477,
    lc0⟩) (.leaf ⟨325, 16, 424, 192, 16, 1598, ⟨[[(11825068147363840, 0), (0, 1913826251204946), (39453188105, 0),
    (0, 354520), (0, 11)], [(28313375718542494, 0), (0, 3423200230023), (75034357, 0), (692, 0)], [(42803400758166,
    0), (0, 2688286114), (0, 22404), (8, 0)], [(63985415808, 0), (0, 897699), (0, 248)]], 3, 4⟩, ⟨[[(0,
    6690475994003456), (0, 2131486109344137), (27553065119, 0), (0, 663560), (42, 0)], [(0, 27208033605440887), (0,
    213880668647), (29758735, 0), (0, 958)], [(16530776402879, 0), (0, 337978246), (17445, 0), (0, 4)], [(0,
    982826875), (0, 868544), (29, 0)]], 3, 4⟩, 72057594037927936, 8806744508156, 3255899442736, ⟨[[(4491539803661,
    0), (6226980264, 0), (6244725, 0), (669, 0), (0, 9)], [(0, 6946969734), (0, 26400865), (0, 33757), (21, 0)],
    [(23610832, 0), (109710, 0), (121, 0)], [(0, 88044), (0, 424)]], 3, 4⟩, 17592186044416, 83525144,
    2411095285157181064681100381778511334011620656124459957184689310484908441062365413777507823838377173996380551496161477738883482,
    lc0⟩)) (.sy (.leaf ⟨308, 16, 366, 195, 16, 1629, ⟨[[(30548063274926080, 0), (0, 1817339884676305), (37098251833,
    0), (0, 227543), (0, 21)], [(29445584076845489, 0), (0, 3213833731129), (59545087, 0), (1774, 0)],
    [(45486737899301, 0), (0, 2316881925), (0, 67612), (11, 0)], [(61568102750, 0), (244762, 0), (0, 339)]], 3, 4⟩,
    ⟨[[(13395055960862720, 0), (0, 2212748318024197), (30554561849, 0), (0, 815817), (46, 0)], [(0,
    26186139336157870), (0, 284678212665), (33967659, 0), (0, 1336)], [(17136258374016, 0), (0, 477337856), (26195,
    0), (0, 3)], [(2250015039, 0), (0, 869808), (25, 0)]], 3, 4⟩, 72057594037927936, 7324479369595, 3306031641307,
    ⟨[[(4288021755322, 0), (5374221591, 0), (5080627, 0), (1162, 0), (0, 7)], [(0, 6558228250), (0, 23291494), (0,
    30219), (14, 0)], [(22546579, 0), (101365, 0), (117, 0)], [(0, 87460), (0, 415)]], 3, 4⟩, 17592186044416,
    95678331,
    1520211119101397154719578812020776518727327444227279004750954024396208845404271239115815361071509370748139866013576040883284297,
    lc0⟩) (.leaf ⟨308, 16, 381, 181, 16, 1637, ⟨[[(1386078941949952, 0), (0, 1853237694415431), (38230300629, 0), (0,
    277714), (0, 19)], [(28988744113927278, 0), (0, 3282039692427), (64405269, 0), (1368, 0)], [(46123918058735, 0),
    (0, 2473924932), (0, 53614), (11, 0)], [(64133776140, 0), (0, 78918), (0, 312)]], 3, 4⟩, ⟨[[(0,
    17345289429028864), (0, 2193384116161124), (29539663648, 0), (0, 727465), (46, 0)], [(0, 26449915976414635), (0,
    252809281650), (32148851, 0), (0, 1285)], [(16985892793454, 0), (0, 455422656), (21805, 0), (0, 3)],
    [(1829300699, 0), (0, 844969), (32, 0)]], 3, 4⟩, 72057594037927936, 8112959042439, 3349805390014,
    ⟨[[(4287802633874, 0), (5483451987, 0), (5359876, 0), (1344, 0), (0, 6)], [(0, 6500959671), (0, 23844599), (0,
    32343), (15, 0)], [(22445183, 0), (104611, 0), (128, 0)], [(0, 87268), (0, 430)]], 3, 4⟩, 17592186044416,
    96244780,
    1689803269613026554637790653992045617854868508003425036514677338020390518383697648130966305955371215881402639024425367308279602,
    lc0⟩))) (.sx (.sy (.leaf ⟨326, 16, 443, 178, 16, 1605, ⟨[[(0, 3731409439789056), (0, 1958486480225564),
    (40648520647, 0), (0, 388514), (0, 7)], [(27806517265182994, 0), (0, 3497449603893), (79163193, 0), (297, 0)],
    [(43306622929362, 0), (0, 2826143257), (0, 11598), (7, 0)], [(66319702035, 0), (0, 1179027), (0, 221)]], 3, 4⟩,
    ⟨[[(0, 5110268623392768), (0, 2113521485608198), (26732198451, 0), (0, 585232), (38, 0)], [(0,
    27427640656136914), (0, 185495166305), (28567687, 0), (0, 781)], [(16436706876972, 0), (0, 324837352), (11422,
    0), (0, 4)], [(0, 1417612542), (0, 842458), (30, 0)]], 3, 4⟩, 72057594037927936, 9579321995014, 3307913715321,
    ⟨[[(4490004806907, 0), (6363525587, 0), (6618748, 0), (841, 0), (0, 7)], [(0, 6872189190), (0, 27030142), (0,
    36238), (23, 0)], [(23393272, 0), (112856, 0), (131, 0)], [(0, 87353), (0, 437)]], 3, 4⟩, 17592186044416,
    83008931,
    3001775589186961409695929899413256202775054731051771013462408429630913450114527898393528541539165477167709597721177584198973395,
    lc0⟩) (.leaf ⟨326, 16, 462, 164, 16, 1612, ⟨[[(0, 11082453705965568), (0, 2000232467178221), (41773870311, 0),
    (0, 413739), (0, 1)], [(27188930939337326, 0), (0, 3564439223461), (82700154, 0), (0, 119)], [(43682287036265,
    0), (0, 2954281275), (0, 2100), (6, 0)], [(68492151381, 0), (0, 1440955), (0, 191)]], 3, 4⟩, ⟨[[(692674043963392,
    0), (0, 2096208719573500), (26019033395, 0), (0, 516205), (32, 0)], [(0, 27633648690981236), (0, 158029987043),
    (27695542, 0), (0, 526)], [(16346918964024, 0), (0, 318286752), (4202, 0), (0, 5)], [(0, 1840831243), (0,
    815387), (30, 0)]], 3, 4⟩, 72057594037927936, 10336405675057, 3365689012150, ⟨[[(4488839774202, 0), (6509564932,
    0), (7036368, 0), (881, 0), (0, 5)], [(0, 6820214431), (0, 27795418), (0, 39131), (25, 0)], [(23329701, 0),
    (116979, 0), (143, 0)], [(0, 87607), (0, 456)]], 3, 4⟩, 17592186044416, 84115302,
    3124277919973468995121933589649586767472832258967195572685178093039067389526464678137885817974129618304282728561731824178482472,
    lc0⟩)) (.sy (.leaf ⟨308, 16, 397, 166, 16, 1644, ⟨[[(0, 25928289880395776), (0, 1891296857697884), (39372858145,
    0), (0, 323949), (0, 15)], [(28506421995328817, 0), (0, 3351537015324), (68884094, 0), (932, 0)],
    [(46754080790392, 0), (0, 2625967118), (0, 40392), (10, 0)], [(66707575228, 0), (0, 386630), (0, 282)]], 3, 4⟩,
    ⟨[[(20814593856403456, 0), (0, 2173508060129095), (28633867477, 0), (0, 640926), (43, 0)], [(0,
    26682495625352198), (0, 222424627635), (30424149, 0), (0, 1172)], [(16833986982980, 0), (0, 438174721), (16127,
    0), (0, 4)], [(1419827422, 0), (0, 812954), (38, 0)]], 3, 4⟩, 72057594037927936, 8924068518223, 3390900194983,
    ⟨[[(4282511853966, 0), (5591806135, 0), (5671596, 0), (1447, 0), (0, 4)], [(0, 6421823738), (0, 24385237), (0,
    34807), (16, 0)], [(22241632, 0), (107838, 0), (140, 0)], [(0, 86720), (0, 446)]], 3, 4⟩, 17592186044416,
    96595015,
    2429380755773529795705058795001830937674649998651383731149856119589894997296395114717497718562660594362586707085710325811339167,
    lc0⟩) (.leaf ⟨307, 16, 414, 152, 16, 1652, ⟨[[(15597209849053184, 0), (0, 1931323989277638), (40528933353, 0),
    (0, 364177), (0, 10)], [(27990792344567345, 0), (0, 3422325741759), (72915585, 0), (466, 0)], [(47372065502426,
    0), (0, 2773509059), (0, 28159), (9, 0)], [(69291323586, 0), (0, 676077), (0, 250)]], 3, 4⟩, ⟨[[(0,
    1309038217095168), (0, 2155661868415021), (27866906490, 0), (0, 561083), (39, 0)], [(0, 26916977253073122), (0,
    193659170448), (28933568, 0), (0, 986)], [(16698383738317, 0), (0, 427502003), (9070, 0), (0, 5)], [(1026815186,
    0), (0, 775556), (44, 0)]], 3, 4⟩, 72057594037927936, 9744713698437, 3439940611965, ⟨[[(4287971308751, 0),
    (5735752926, 0), (6055381, 0), (1389, 0), (0, 3)], [(0, 6406545630), (0, 25218030), (0, 37809), (19, 0)],
    [(22381368, 0), (112787, 0), (155, 0)], [(0, 87952), (0, 471), (0, 1)]], 3, 4⟩, 17592186044416, 99779556,
    2610367571311132147577165249994320124022904028309626040018332385293402801088847720333128341308666953654710428197447002968560468,
    lc0⟩)))) (.sy (.sx (.sy (.leaf ⟨294, 16, 329, 185, 16, 1669, ⟨[[(0, 19345128363921408), (0, 1758596524137190),
    (35464375064, 0), (0, 117780), (0, 29)], [(30205778079584610, 0), (0, 3061160344687), (46636133, 0), (2583, 0)],
    [(48197629535729, 0), (0, 1998024157), (0, 105369), (13, 0)], [(60644404686, 0), (1165630, 0), (0, 406)]], 3, 4⟩,
    ⟨[[(0, 16301913004955648), (0, 2280260248070868), (32815702585, 0), (0, 897642), (47, 0)], [(0,
    25337056590292462), (0, 337391775410), (37186926, 0), (0, 1563)], [(18029493555113, 0), (0, 598726436), (29844,
    0), (0, 2)], [(5199418959, 0), (0, 849929), (21, 0)]], 3, 4⟩, 72057594037927936, 6466245335505, 3424269665244,
    ⟨[[(4099914076256, 0), (4718257929, 0), (4264634, 0), (1603, 0), (0, 5)], [(0, 6123601247), (0, 20713882), (0,
    28163), (9, 0)], [(21102351, 0), (94114, 0), (118, 0)], [(0, 84654), (0, 406)]], 3, 4⟩, 17592186044416,
    107233419,
    1430653077728114936211276895652940808818838075721869112802835725368972202186986498030842524397520687474948868525974213877143879,
    lc0⟩) (.leaf ⟨292, 16, 341, 170, 16, 1677, ⟨[[(0, 9002392115150848), (0, 1785941879584073), (36530640533, 0), (0,
    178656), (0, 27)], [(29727259346305122, 0), (0, 3122391695187), (51973085, 0), (2152, 0)], [(48890211931114, 0),
    (0, 2170295924), (0, 89080), (13, 0)], [(63360563213, 0), (807981, 0), (0, 377)]], 3, 4⟩, ⟨[[(0,
    13597694279432192), (0, 2258743156059721), (31686558506, 0), (0, 806302), (48, 0)], [(0, 25619470316416268), (0,
    302687852648), (34984952, 0), (0, 1581)], [(17821199165957, 0), (0, 573158913), (26448, 0), (0, 3)],
    [(4801794565, 0), (0, 827725), (31, 0)]], 3, 4⟩, 72057594037927936, 7272127219219, 3461370336969,
    ⟨[[(4100723639337, 0), (4819209692, 0), (4508898, 0), (1719, 0), (0, 3)], [(0, 6100810888), (0, 21339312), (0,
    30380), (10, 0)], [(21256850, 0), (98461, 0), (131, 0)], [(0, 85946), (0, 429), (0, 1)]], 3, 4⟩, 17592186044416,
    111714201,
    1653687640209240765572955359423131921701980289035030141456877368644554804311648209366864557673795897154171309055798539632155283,
    lc0⟩)) (.sy (.leaf ⟨279, 16, 294, 175, 16, 1712, ⟨[[(23616932911411200, 0), (0, 1689456695781581), (33247072462,
    0), (14848, 0), (0, 36)], [(30905131590356413, 0), (0, 2878169559575), (31666213, 0), (3459, 0)],
    [(50184139250881, 0), (0, 1588532377), (0, 146374), (15, 0)], [(58666892839, 0), (2126573, 0), (0, 469)]], 3, 4⟩,
    ⟨[[(0, 11195112913606656), (0, 2354691441167691), (35318683769, 0), (0, 991030), (47, 0)], [(0,
    24402832678556157), (0, 402213303649), (40814276, 0), (0, 1728)], [(19354992616464, 0), (0, 721370784), (32729,
    0), (0, 1)], [(8339982711, 0), (0, 829764), (11, 0)]], 3, 4⟩, 72057594037927936, 5463749161445, 3566363312357,
    ⟨[[(3932773885901, 0), (4154925688, 0), (3524475, 0), (1799, 0), (0, 3)], [(0, 5799566578), (0, 18491114), (0,
    26086), (5, 0)], [(20057210, 0), (88011, 0), (117, 0)], [(0, 83613), (0, 401), (0, 1)]], 3, 4⟩, 17592186044416,
    126076961,
    1891465506385717184741025316202832467651356485936952031279133473825654412353297036611798267435567303403791639471165390708267478,
    lc0⟩) (.leaf ⟨278, 16, 305, 159, 16, 1720, ⟨[[(0, 22396481665789952), (0, 1718045605677875), (34459098790, 0),
    (0, 56803), (0, 34)], [(30571261027939682, 0), (0, 2950302204423), (37833234, 0), (3029, 0)], [(51198222443573,
    0), (0, 1788590141), (0, 128548), (15, 0)], [(61850575596, 0), (1740247, 0), (0, 442)]], 3, 4⟩,
    ⟨[[(21840045076305920, 0), (0, 2330797741577287), (34056203158, 0), (0, 899578), (49, 0)], [(0,
    24709608570364760), (0, 364260915630), (38320075, 0), (0, 1821)], [(19089752970715, 0), (0, 692677439), (30770,
    0), (0, 2)], [(7964464548, 0), (0, 815472), (25, 0)]], 3, 4⟩, 72057594037927936, 6320791020410, 3600110643827,
    ⟨[[(3927188169621, 0), (4223723503, 0), (3700973, 0), (1862, 0), (0, 2)], [(0, 5723677528), (0, 18821108), (0,
    27854), (5, 0)], [(19899960, 0), (90661, 0), (129, 0)], [(0, 83164), (0, 415), (0, 1)]], 3, 4⟩, 17592186044416,
    127248580,
    1653990375789611565885100866569162581310450002795287403029551235299923334858718480661831727288806029820330898928796596396543737,
    lc0⟩))) (.sx (.sy (.leaf ⟨291, 16, 355, 155, 16, 1685, ⟨[[(2739033467289600, 0), (0, 1821236557879886),
    (37710496444, 0), (0, 237578), (0, 24)], [(29329841623173504, 0), (0, 3194704073816), (57070594, 0), (1696, 0)],
    [(49741490125121, 0), (0, 2342761503), (0, 73636), (12, 0)], [(66289121497, 0), (470176, 0), (0, 347)]], 3, 4⟩,
    ⟨[[(0, 5736373766455296), (0, 2238141536558683), (30689799618, 0), (0, 714714), (47, 0)], [(0,
    25885701929912344), (0, 270032843486), (32785992, 0), (0, 1543)], [(17623430539573, 0), (0, 551551216), (21686,
    0), (0, 4)], [(4415979140, 0), (0, 795014), (42, 0)]], 3, 4⟩, 72057594037927936, 8100244720348, 3499688308711,
    ⟨[[(4101252404879, 0), (4924868311, 0), (4784340, 0), (1737, 0), (0, 2)], [(0, 6056182726), (0, 21925697), (0,
    32812), (11, 0)], [(21253060, 0), (102321, 0), (145, 0)], [(0, 86368), (0, 450), (0, 1)]], 3, 4⟩, 17592186044416,
    113923062,
    1977297899822282302330776491070664677938750392744413770581534832498318867817205532771569240144575812230807701339285462231589134,
    lc0⟩) (.leaf ⟨290, 16, 370, 140, 16, 1693, ⟨[[(17896715900100608, 0), (0, 1858928215913578), (38895980722, 0),
    (0, 292515), (0, 20)], [(28912821004446385, 0), (0, 3268777553432), (61719005, 0), (1203, 0)], [(50599690863240,
    0), (0, 2509641732), (0, 58828), (11, 0)], [(69248889805, 0), (150543, 0), (0, 315)]], 3, 4⟩,
    ⟨[[(6929228720570368, 0), (0, 2218328317410501), (29823762612, 0), (0, 626562), (44, 0)], [(0,
    26136693205572120), (0, 239389054268), (30684186, 0), (0, 1436)], [(17433897796382, 0), (0, 535358684), (15433,
    0), (0, 5)], [(4047302189, 0), (0, 751924), (52, 0)]], 3, 4⟩, 72057594037927936, 8954174753770, 3538552337924,
    ⟨[[(4101645687651, 0), (5035731607, 0), (5102881, 0), (1636, 0), (0, 1)], [(0, 6010839338), (0, 22544297), (0,
    35641), (14, 0)], [(21239413, 0), (106378, 0), (162, 0)], [(0, 86816), (0, 472), (0, 1)]], 3, 4⟩, 17592186044416,
    116349131,
    2229609763667730939336827436030874015039528417361512169399360055861490077229376775094011662708845065565274720395166410930632637,
    lc0⟩)) (.sy (.leaf ⟨276, 16, 317, 144, 16, 1728, ⟨[[(21606320227123200, 0), (0, 1749745046103232), (35673517225,
    0), (0, 127494), (0, 32)], [(30245031227618164, 0), (0, 3024667249113), (43624955, 0), (2567, 0)],
    [(52247638251624, 0), (0, 1981656900), (0, 111096), (14, 0)], [(65080205372, 0), (1370965, 0), (0, 413)]], 3, 4⟩,
    ⟨[[(0, 10896976979673088), (0, 2307945716421614), (32927479518, 0), (0, 805557), (49, 0)], [(0,
    24998777740117449), (0, 328697645321), (35711835, 0), (0, 1861)], [(18836727467796, 0), (0, 666498433), (27417,
    0), (0, 3)], [(7597655374, 0), (0, 787437), (39, 0)]], 3, 4⟩, 72057594037927936, 7182915643267, 3627311467272,
    ⟨[[(3932605202059, 0), (4326622366, 0), (3946396, 0), (1824, 0)], [(0, 5710202961), (0, 19439667), (0, 30217),
    (7, 0)], [(20092139, 0), (95055, 0), (145, 0)], [(0, 84613), (0, 440), (0, 1)]], 3, 4⟩, 17592186044416,
    132587821,
    1986917844977439650370186093884436369260477787063121023848646665687184290549506440039776255752288026540074530976478225982561818,
    lc0⟩) (.leaf ⟨274, 16, 329, 128, 16, 1736, ⟨[[(17082193968484352, 0), (0, 1778925895935817), (36776069162, 0),
    (0, 195425), (0, 29)], [(29825820186831043, 0), (0, 3091845803271), (48835199, 0), (2062, 0)], [(53165810389604,
    0), (0, 2161457814), (0, 93736), (14, 0)], [(68154072369, 0), (1016428, 0), (0, 381)]], 3, 4⟩,
    ⟨[[(34296878935689216, 0), (0, 2286005592255693), (31934587112, 0), (0, 712324), (47, 0)], [(0,
    25271477991368805), (0, 295608918686), (33075629, 0), (0, 1839)], [(18594357472031, 0), (0, 644306984), (22552,
    0), (0, 4)], [(7246618729, 0), (0, 745280), (53, 0)]], 3, 4⟩, 72057594037927936, 8023566725110, 3656937550349,
    ⟨[[(3929434801466, 0), (4411564965, 0), (4205882, 0), (1686, 0), (1, 0)], [(0, 5662637018), (0, 19938164), (0,
    32901), (9, 0)], [(20099896, 0), (98864, 0), (163, 0)], [(0, 85261), (0, 464), (0, 1)]], 3, 4⟩, 17592186044416,
    137171908,
    2079035314733421586839574803835914015198945205329599522425710344088196894004945680490452423854105004743415239524126180106883604,
    lc0⟩))))
theorem c33 : checkR job con0 true ⟨7, 9, 7, 9, 13, 17⟩ 1 28336 t33 237 21 160 13741 251 16000 = true := by decide +kernel

def t34 : CTree :=
  .sy (.sx (.out ⟨188, 16, 170, 910, 16, 766, ⟨[[(0, 11575564099076096), (0, 2232643862926482), (74797735100, 0)],
    [(23550139119070196, 0), (0, 3474466570403), (0, 34773702)], [(34256393148248, 0), (0, 346357549), (0, 751230)]],
    2, 2⟩, ⟨[[(24228498898468864, 0), (0, 3149531952658733), (108794532761, 0)], [(0, 13632776829273161), (0,
    794697540068), (127350273, 0)], [(13869250079265, 0), (0, 1164057251), (61924, 0)]], 2, 2⟩, 72057594037927936,
    370570956761663, 185126009510028, ⟨[], 0, 0⟩, 0, 0, 0, lc0⟩ 0 340 36) (.out ⟨185, 16, 155, 916, 16, 777, ⟨[[(0,
    30626296938737664), (0, 2168757074010193), (65532598191, 0)], [(24248371676152332, 0), (0, 3157905354063), (0,
    98344106)], [(34865768514648, 0), (601182146, 0), (0, 908477)]], 2, 2⟩, ⟨[[(0, 21478999599742976), (0,
    3230760783155735), (115881640946, 0)], [(0, 12600834726918248), (0, 909586294458), (133606122, 0)],
    [(15201691756171, 0), (0, 1279526004), (41390, 0)]], 2, 2⟩, 72057594037927936, 369903220823173, 206989742366534,
    ⟨[], 0, 0⟩, 0, 0, 0, lc0⟩ 0 45 9)) (.sx (.sy (.sx (.leaf ⟨408, 16, 376, 258, 16, 2228, ⟨[[(0, 15523616213991424),
    (0, 2365284685526131), (42690134516, 0), (422564, 0), (0, 63)], [(23815630457515313, 0), (0, 1917200856490),
    (3530079, 0), (3667, 0)], [(18226843635490, 0), (0, 285637503), (0, 80957), (7, 0)], [(9273525779, 0), (692479,
    0), (0, 105)]], 3, 4⟩, ⟨[[(0, 25988740417507328), (0, 3181936470645677), (52112114537, 0), (0, 1574458), (47,
    0)], [(0, 14744590174439345), (0, 352159851292), (30999042, 0), (0, 886)], [(6860144906320, 0), (0, 281003786),
    (10121, 0)], [(1856326789, 0), (0, 124882), (0, 5)]], 3, 4⟩, 72057594037927936, 284160547559, 300255521469,
    ⟨[[(3811803072325, 0), (2812063381, 0), (1631572, 0), (748, 0), (0, 1)], [(0, 3780435814), (0, 8337798), (0,
    8623), (1, 0)], [(8486631, 0), (26322, 0), (24, 0)], [(0, 24030), (0, 82)]], 3, 4⟩, 17592186044416, 13489941,
    3077032316782186014291024575808210976941753007069035510774062253356682271747972590642858588919009678907620784438933336851250210,
    lc0⟩) (.out ⟨372, 16, 352, 1831, 16, 1572, ⟨[[(0, 6445057058119680), (0, 2290113071158437), (39962886839, 0)],
    [(23775044121378767, 0), (0, 1813630416083), (0, 3598437)], [(18167446723313, 0), (0, 177543395), (0, 88791)]],
    2, 2⟩, ⟨[[(0, 18113450554785792), (0, 3158199365058930), (52779247544, 0)], [(0, 13985239387105204), (0,
    371817504785), (31433309, 0)], [(7022586779185, 0), (0, 292682664), (9320, 0)]], 2, 2⟩, 72057594037927936,
    95052740567512, 45393440439415, ⟨[], 0, 0⟩, 0, 0, 0, lc0⟩ 0 352 20)) (.sx (.leaf ⟨403, 16, 387, 238, 16, 2248,
    ⟨[[(0, 6584245120593920), (0, 2390070905861508), (44496752469, 0), (306639, 0), (0, 62)], [(23523153543166766,
    0), (0, 1966889008482), (9015635, 0), (3374, 0)], [(18592332478969, 0), (0, 372654995), (0, 73459), (6, 0)],
    [(9876136380, 0), (608556, 0), (0, 100)]], 3, 4⟩, ⟨[[(0, 16804650606127104), (0, 3158885522259467), (50262637310,
    0), (0, 1486694), (54, 0)], [(0, 15047554309797455), (0, 324631722658), (29820784, 0), (0, 1037)],
    [(6782024565014, 0), (0, 272959621), (10773, 0)], [(1808755419, 0), (0, 129513), (0, 2)]], 3, 4⟩,
    72057594037927936, 365954859100, 303290596818, ⟨[[(3811885962911, 0), (2853520697, 0), (1697971, 0), (806, 0),
    (0, 1)], [(0, 3769746384), (0, 8525380), (0, 9125), (1, 0)], [(8612877, 0), (27605, 0), (27, 0)], [(0, 24627),
    (0, 87)]], 3, 4⟩, 17592186044416, 14309282,
    2387939864030243488613545992335081668570242063901733431917774818706586455735205877788125871137641205164540677556090527749981837,
    lc0⟩) (.leaf ⟨398, 16, 369, 231, 16, 2264, ⟨[[(0, 22657208138424320), (0, 2358253365706054), (42657383717, 0),
    (438588, 0), (0, 68)], [(23968421249658234, 0), (0, 1901962678082), (2190822, 0), (3754, 0)], [(18928848255689,
    0), (0, 274309290), (0, 82690), (7, 0)], [(9645502440, 0), (707645, 0), (0, 106)]], 3, 4⟩, ⟨[[(0,
    14766366470463488), (0, 3195594759137432), (51900705414, 0), (0, 1540592), (51, 0)], [(0, 14570827647712049), (0,
    350714677615), (30929517, 0), (0, 1015)], [(7075605031971, 0), (0, 290989581), (10464, 0)], [(2072318758, 0), (0,
    124826), (0, 4)]], 3, 4⟩, 72057594037927936, 313736362555, 308671447295, ⟨[[(3735762239080, 0), (2690016621, 0),
    (1528585, 0), (823, 0), (0, 1)], [(0, 3638697807), (0, 7951717), (0, 8686)], [(8164593, 0), (25922, 0), (26, 0)],
    [(0, 23475), (0, 83)]], 3, 4⟩, 17592186044416, 14161292,
    3056585913917554050663181987035215030284807637545753475209049920552926244465759819044042111308803101176027642731393343501538655,
    lc0⟩))) (.sy (.out ⟨245, 16, 219, 1454, 16, 1257, ⟨[[(0, 2750809983428608), (0, 1496210582883362), (24485476062,
    0)], [(32563889072641518, 0), (0, 2271958075167), (0, 20085269)], [(49408475291041, 0), (0, 24229282), (0,
    275807)]], 2, 2⟩, ⟨[[(31580841916727296, 0), (0, 2545036317631497), (43814953041, 0)], [(0, 20908839159974626),
    (0, 655744372297), (52013602, 0)], [(23824589329205, 0), (0, 1002995648), (25308, 0)]], 2, 2⟩, 72057594037927936,
    442173972836725, 170771518565853, ⟨[], 0, 0⟩, 0, 0, 0, lc0⟩ 0 88 10) (.sx (.out ⟨361, 16, 344, 1831, 16, 1598,
    ⟨[[(33786842915332096, 0), (0, 2273350324064065), (39709627775, 0)], [(23874760686793740, 0), (0, 1790868889267),
    (0, 4972282)], [(18791080447975, 0), (0, 164533623), (0, 90144)]], 2, 2⟩, ⟨[[(0, 26801134020886528), (0,
    3172838955749002), (52587924444, 0)], [(0, 13799756220747319), (0, 371359103938), (31409050, 0)],
    [(7265505259308, 0), (0, 302707012), (9761, 0)]], 2, 2⟩, 72057594037927936, 98533240275805, 47083229107797, ⟨[],
    0, 0⟩, 0, 0, 0, lc0⟩ 0 1376 68) (.out ⟨358, 16, 328, 1838, 16, 1611, ⟨[[(26848039324135424, 0), (0,
    2239549669698097), (37504054631, 0)], [(24315870704633234, 0), (0, 1716533135863), (0, 12527754)],
    [(19027716623479, 0), (0, 53632441), (0, 99661)]], 2, 2⟩, ⟨[[(0, 29296923663302656), (0, 3214921454307330),
    (54362569918, 0)], [(0, 13284061876609393), (0, 400627925142), (32459220, 0)], [(7632008707266, 0), (0,
    319632268), (9043, 0)]], 2, 2⟩, 72057594037927936, 98455380613622, 50348938199399, ⟨[], 0, 0⟩, 0, 0, 0, lc0⟩ 0 94
    9))))
theorem c34 : checkR job con0 true ⟨7, 9, 7, 9, 13, 17⟩ 1 28336 t34 537 21 320 13239 251 16000 = true := by decide +kernel

def t35 : CTree :=
  .sy (.sx (.sy (.sx (.leaf ⟨397, 16, 398, 218, 16, 2267, ⟨[[(28627142219227136, 0), (0, 2411854874821352),
    (46140895621, 0), (189570, 0), (0, 61)], [(23179089537561576, 0), (0, 2010966670946), (14188243, 0), (3059, 0)],
    [(18910185913374, 0), (0, 454234170), (0, 65953), (6, 0)], [(10445844848, 0), (526853, 0), (0, 95)]], 3, 4⟩,
    ⟨[[(0, 17422232944812032), (0, 3135799435476759), (48514179864, 0), (0, 1385281), (59, 0)], [(0,
    15331635986277583), (0, 298005058871), (28403769, 0), (0, 1166)], [(6703922349096, 0), (0, 264241707), (11030,
    0)], [(1758097503, 0), (0, 131716)]], 3, 4⟩, 72057594037927936, 443269083209, 304114530829, ⟨[[(3813727596177,
    0), (2902007230, 0), (1776861, 0), (836, 0), (0, 1)], [(0, 3774111090), (0, 8773679), (0, 9745), (1, 0)],
    [(8796457, 0), (29158, 0), (31, 0)], [(0, 25482), (0, 93)]], 3, 4⟩, 17592186044416, 15487204,
    1815971975131591589891302347910927947996792803470043922547161946421777085896101261091398404563962536072233203238209993764748703,
    lc0⟩) (.leaf ⟨392, 16, 379, 211, 16, 2284, ⟨[[(0, 18550996023275520), (0, 2377868321450945), (44387997183, 0),
    (313643, 0), (0, 67)], [(23638353321857798, 0), (0, 1948438011576), (7740510, 0), (3435, 0)], [(19279849194444,
    0), (0, 361885057), (0, 74805), (7, 0)], [(10245088226, 0), (621896, 0), (0, 100)]], 3, 4⟩, ⟨[[(0,
    32059992419059712), (0, 3172403917671560), (50099473349, 0), (0, 1444945), (57, 0)], [(0, 14869430420846784), (0,
    323297585891), (29548446, 0), (0, 1168)], [(6993452561951, 0), (0, 282684678), (11040, 0)], [(2026650127, 0), (0,
    128523), (0, 1)]], 3, 4⟩, 72057594037927936, 398025039279, 310128711661, ⟨[[(3736540680400, 0), (2731026738, 0),
    (1594431, 0), (841, 0)], [(0, 3637839569), (0, 8154198), (0, 9225)], [(8324988, 0), (27300, 0), (29, 0)], [(0,
    24235), (0, 88)]], 3, 4⟩, 17592186044416, 15155022,
    2171288887838961794550585868180790583799120697295077147090020223145936811442486599053177752381575070089791694927089508575250868,
    lc0⟩)) (.sx (.leaf ⟨393, 16, 411, 198, 16, 2286, ⟨[[(13917667840520192, 0), (0, 2442678825829765), (47849576656,
    0), (73246, 0), (0, 59)], [(22897794937672012, 0), (0, 2059659733544), (19090114, 0), (2735, 0)],
    [(19276014683015, 0), (0, 532715649), (0, 58770), (6, 0)], [(11036232821, 0), (450105, 0), (0, 89)]], 3, 4⟩,
    ⟨[[(0, 19970364530767872), (0, 3113989957424170), (46908890500, 0), (0, 1273896), (63, 0)], [(0,
    15603918772952710), (0, 272660767111), (26796794, 0), (0, 1269)], [(6629138244190, 0), (0, 255381013), (10868,
    0)], [(1706394445, 0), (0, 131456), (3, 0)]], 3, 4⟩, 72057594037927936, 522278429521, 309558404403,
    ⟨[[(3813019242676, 0), (2946716345, 0), (1859764, 0), (836, 0)], [(0, 3755226975), (0, 8971288), (0, 10389), (1,
    0)], [(8868523, 0), (30384, 0), (34, 0)], [(0, 25905), (0, 98)]], 3, 4⟩, 17592186044416, 16078740,
    1542672956792025952423798419368946511871927828334809954901811393926841401450114330903827137333685035982500325605897329075516974,
    lc0⟩) (.leaf ⟨386, 16, 390, 190, 16, 2304, ⟨[[(16289528568516608, 0), (0, 2400814148116465), (46060672647, 0),
    (188963, 0), (0, 65)], [(23320363186122304, 0), (0, 1994428575671), (12962905, 0), (3102, 0)], [(19633925714276,
    0), (0, 444674026), (0, 67112), (6, 0)], [(10838319706, 0), (540227, 0), (0, 95)]], 3, 4⟩, ⟨[[(20068054861185024,
    0), (0, 3150515290445370), (48432072473, 0), (0, 1338079), (61, 0)], [(0, 15155993718080515), (0, 297124819858),
    (27939584, 0), (0, 1297)], [(6914362214755, 0), (0, 273908128), (11205, 0)], [(1979205390, 0), (0, 129635), (1,
    0)]], 3, 4⟩, 72057594037927936, 477096245737, 313081070439, ⟨[[(3736201773127, 0), (2774282415, 0), (1672186, 0),
    (831, 0)], [(0, 3633610841), (0, 8371324), (0, 9878), (1, 0)], [(8471636, 0), (28731, 0), (33, 0)], [(0, 24979),
    (0, 94)]], 3, 4⟩, 17592186044416, 16301291,
    1528805367808654084154884553025263180958184651479960400961375822306705532633771972960243101162279536145435639038810514560351939,
    lc0⟩))) (.sy (.sx (.leaf ⟨387, 16, 361, 204, 16, 2302, ⟨[[(0, 20126888624197632), (0, 2343444958567507),
    (42456550581, 0), (447548, 0), (0, 72)], [(24110383198749928, 0), (0, 1881503143334), (862983, 0), (3823, 0)],
    [(19610096950253, 0), (0, 262258951), (0, 83965), (7, 0)], [(10012433658, 0), (718099, 0), (0, 106)]], 3, 4⟩,
    ⟨[[(0, 24934976984563712), (0, 3211602958029603), (51764621809, 0), (0, 1505335), (54, 0)], [(0,
    14383270668359387), (0, 350455593249), (30706398, 0), (0, 1153)], [(7322197179514, 0), (0, 300944698), (10865,
    0)], [(2300775593, 0), (0, 124855), (0, 3)]], 3, 4⟩, 72057594037927936, 342195085172, 317323115058,
    ⟨[[(3663756737747, 0), (2574442911, 0), (1423825, 0), (833, 0)], [(0, 3517761367), (0, 7582764), (0, 8730)],
    [(7895445, 0), (25575, 0), (28, 0)], [(0, 23105), (0, 84)]], 3, 4⟩, 17592186044416, 15033629,
    2285988166341163553192032533484498351955483728587310782126901682807398986694198041659750734463833967454955888009145769207975923,
    lc0⟩) (.sx (.leaf ⟨504, 16, 458, 230, 16, 2677, ⟨[[(25350627002486784, 0), (0, 3048617128248119), (53789042596,
    0), (729455, 0), (0, 100)], [(16097111003146469, 0), (0, 1202591529668), (0, 3013634), (2710, 0)],
    [(6522485545317, 0), (0, 60147860), (0, 29934), (2, 0)], [(1614362850, 0), (130038, 0), (0, 18)]], 3, 4⟩, ⟨[[(0,
    26223469394960384), (0, 3747968381750273), (61334412712, 0), (0, 1792242), (60, 0)], [(0, 8090849461012896), (0,
    215010661156), (18246553, 0), (0, 652)], [(2194619848531, 0), (0, 90869832), (3062, 0)], [(362591159, 0), (0,
    17583), (0, 1)]], 3, 4⟩, 72057594037927936, 40016279042, 31642024295, ⟨[[(3612988168385, 0), (2134944941, 0),
    (977211, 0), (532, 0)], [(0, 2616116927), (0, 4732071), (0, 4772)], [(4399815, 0), (12206, 0), (12, 0)], [(0,
    9833), (0, 31)]], 3, 4⟩, 17592186044416, 3701365,
    2397909749869960583541055635080490618808904307441249089431659350640426143825204206306284906326048383368300437744796218556279757,
    lc0⟩) (.out ⟨464, 16, 439, 2113, 16, 1877, ⟨[[(0, 31783889836466176), (0, 2970651876796602), (51384382397, 0)],
    [(15962702708635843, 0), (0, 1156866571791), (0, 5392146)], [(6447836903784, 0), (0, 41266706), (0, 30933)]], 2,
    2⟩, ⟨[[(0, 10409745526226944), (0, 3688108386070686), (60964687685, 0)], [(0, 7759273517912072), (0,
    218642449858), (18160343, 0)], [(2200290644317, 0), (0, 91349506), (2923, 0)]], 2, 2⟩, 72057594037927936,
    29157339054363, 32215089852808, ⟨[], 0, 0⟩, 0, 0, 0, lc0⟩ 0 196 11))) (.sx (.sx (.leaf ⟨498, 16, 490, 215, 16,
    2701, ⟨[[(29723482710052864, 0), (0, 3095873126116960), (58296647418, 0), (368342, 0), (0, 90)],
    [(15447452914273341, 0), (0, 1269442276010), (5304144, 0), (2211, 0)], [(6492639309680, 0), (0, 122282475), (0,
    24027), (2, 0)], [(1742624258, 0), (99359, 0), (0, 16)]], 3, 4⟩, ⟨[[(29599913162993664, 0), (0,
    3704673009245418), (57822174984, 0), (0, 1616571), (70, 0)], [(0, 8624855540726018), (0, 184500729426),
    (16792418, 0), (0, 761)], [(2083960180044, 0), (0, 83834859), (3306, 0)], [(318634648, 0), (0, 18656)]], 3, 4⟩,
    72057594037927936, 49363329516, 28420944108, ⟨[[(3681722166886, 0), (2277402109, 0), (1132697, 0), (518, 0)],
    [(0, 2717721414), (0, 5216166), (0, 5347)], [(4795338, 0), (13824, 0), (14, 0)], [(0, 10891), (0, 35)]], 3, 4⟩,
    17592186044416, 4095432,
    2294235338533097553943188536578610749287390198548050484600400753386224812367683555854682852896687907005141828367191712490863121,
    lc0⟩) (.leaf ⟨497, 16, 480, 211, 16, 2705, ⟨[[(15732600607203328, 0), (0, 3085124433537174), (57282434613, 0),
    (455591, 0), (0, 94)], [(15675528575536201, 0), (0, 1253064786414), (3133139, 0), (2348, 0)], [(6576811541216,
    0), (0, 106894769), (0, 25594), (2, 0)], [(1732017419, 0), (107383, 0), (0, 17)]], 3, 4⟩, ⟨[[(0,
    18257540381693952), (0, 3718069371615934), (58619973211, 0), (0, 1650897), (68, 0)], [(0, 8460594040762382), (0,
    191924967368), (17095414, 0), (0, 758)], [(2128458317125, 0), (0, 86297849), (3309, 0)], [(338226930, 0), (0,
    18438)]], 3, 4⟩, 72057594037927936, 48563532075, 29496900048, ⟨[[(3647116233972, 0), (2217188913, 0), (1073973,
    0), (515, 0)], [(0, 2663831694), (0, 5017638), (0, 5190)], [(4634176, 0), (13289, 0), (13, 0)], [(0, 10504), (0,
    34)]], 3, 4⟩, 17592186044416, 3981854,
    3528540726864909563172991528274025162954772937406487274824729097819174257589080687307730970186678775508977935078288704411713006,
    lc0⟩)) (.out ⟨346, 16, 346, 1825, 16, 1639, ⟨[[(0, 22659144409055232), (0, 2281051099007881), (41357066379, 0)],
    [(23823500865189199, 0), (0, 1823986085142), (0, 427523)], [(19916661324817, 0), (0, 245396769), (0, 83290)]], 2,
    2⟩, ⟨[[(0, 20896999093354496), (0, 3164518697116869), (50650928187, 0)], [(0, 13891902336212230), (0,
    344430035621), (29707876, 0)], [(7448222879603, 0), (0, 304516826), (11118, 0)]], 2, 2⟩, 72057594037927936,
    105899464172137, 47093023585160, ⟨[], 0, 0⟩, 0, 0, 0, lc0⟩ 2 1 29960196543267)))) (.sx (.sy (.sx (.leaf ⟨388, 16,
    424, 178, 16, 2305, ⟨[[(17804060537982976, 0), (0, 2470353747475896), (49387153209, 0), (0, 41992), (0, 56)],
    [(22560709023293918, 0), (0, 2103011205415), (23614546, 0), (2385, 0)], [(19595329885581, 0), (0, 605846849), (0,
    51583), (6, 0)], [(11595847342, 0), (375847, 0), (0, 84)]], 3, 4⟩, ⟨[[(0, 24856101053632512), (0,
    3093322679478874), (45460738956, 0), (0, 1156061), (64, 0)], [(0, 15864978576407714), (0, 248784239806),
    (25042463, 0), (0, 1340)], [(6557681007744, 0), (0, 246818086), (10251, 0), (0, 1)], [(1654914443, 0), (0,
    128625), (5, 0)]], 3, 4⟩, 72057594037927936, 601847567305, 311250355030, ⟨[[(3813357402898, 0), (2995878202, 0),
    (1960024, 0), (800, 0)], [(0, 3748889759), (0, 9215989), (0, 11191), (1, 0)], [(8992332, 0), (31846, 0), (38,
    0)], [(0, 26570), (0, 105)]], 3, 4⟩, 17592186044416, 17169765,
    1322187893936815206986193473856262943453864824496468157500510606006224771578785791803874025439092285176676851372184693712671044,
    lc0⟩) (.leaf ⟨381, 16, 402, 170, 16, 2323, ⟨[[(2594255887695872, 0), (0, 2426903465734082), (47672604725, 0),
    (65266, 0), (0, 62)], [(23009661079429309, 0), (0, 2040075198536), (17841950, 0), (2752, 0)], [(19991336998413,
    0), (0, 522943934), (0, 59578), (6, 0)], [(11427301430, 0), (462449, 0), (0, 90)]], 3, 4⟩, ⟨[[(0,
    8173864758908928), (0, 3128457673896292), (46894335561, 0), (0, 1222789), (64, 0)], [(0, 15424434220849371), (0,
    272304728700), (26131616, 0), (0, 1394)], [(6835570928012, 0), (0, 264974767), (10921, 0)], [(1930482351, 0), (0,
    127979), (4, 0)]], 3, 4⟩, 72057594037927936, 554844368299, 316327981647, ⟨[[(3736467945721, 0), (2818507212, 0),
    (1761791, 0), (788, 0)], [(0, 3625085324), (0, 8582265), (0, 10611), (1, 0)], [(8584258, 0), (30051, 0), (37,
    0)], [(0, 25588), (0, 100)]], 3, 4⟩, 17592186044416, 17314239,
    3226545624688772475071241784233412652511608834266858027011822319747266083405038351623541720084173995263816364915177286916395664,
    lc0⟩)) (.sx (.leaf ⟨383, 16, 437, 158, 16, 2324, ⟨[[(0, 29470418744406016), (0, 2495052041797350), (50751494777,
    0), (0, 153882), (0, 52)], [(22170778859538072, 0), (0, 2141309611681), (27701196, 0), (2008, 0)],
    [(19870017342689, 0), (0, 673372865), (0, 44447), (6, 0)], [(12124750236, 0), (304777, 0), (0, 78)]], 3, 4⟩,
    ⟨[[(0, 32423601305731072), (0, 3073650362970769), (44178034739, 0), (0, 1035842), (64, 0)], [(0,
    16115481137836794), (0, 226514663342), (23192351, 0), (0, 1373)], [(6489326139263, 0), (0, 239034755), (9139, 0),
    (0, 1)], [(1604997122, 0), (0, 123089), (8, 0)]], 3, 4⟩, 72057594037927936, 679615930679, 309604018730,
    ⟨[[(3811127310817, 0), (3040245427, 0), (2071485, 0), (725, 0), (1, 0)], [(0, 3737364611), (0, 9443298), (0,
    12111), (2, 0)], [(9092045, 0), (33247, 0), (43, 0)], [(0, 27178), (0, 111)]], 3, 4⟩, 17592186044416, 18230238,
    2845250601986279052296015245266576914316433609693868396893023002825439414550543469717146972844410564766089108069249044590135763,
    lc0⟩) (.out ⟨342, 16, 407, 1800, 16, 1640, ⟨[[(0, 5495246940471296), (0, 2408611494499815), (48272404529, 0)],
    [(22263885752888018, 0), (0, 2045320293583), (21920493, 0)], [(19959782070187, 0), (0, 585369452), (0, 51173)]],
    2, 2⟩, ⟨[[(0, 25186230363701248), (0, 3046442999240822), (44624602099, 0)], [(0, 15373933184238924), (0,
    244264973774), (23711156, 0)], [(6627310347230, 0), (0, 251438017), (9956, 0)]], 2, 2⟩, 72057594037927936,
    113582585449988, 35528723502825, ⟨[], 0, 0⟩, 0, 0, 0, lc0⟩ 2 1 31011864609734))) (.sy (.out ⟨230, 16, 246, 1410,
    16, 1279, ⟨[[(0, 5783363339546624), (0, 1564962250924340), (29701562041, 0)], [(31413470960376966, 0), (0,
    2569866600207), (11260442, 0)], [(54363461987528, 0), (0, 1025340394), (0, 191185)]], 2, 2⟩,
    ⟨[[(6027166377852928, 0), (0, 2425516388717376), (37449879527, 0)], [(0, 22413096108610042), (0, 473595929748),
    (42469258, 0)], [(22316012586241, 0), (0, 890805360), (35453, 0)]], 2, 2⟩, 72057594037927936, 567480994649268,
    155392229333523, ⟨[], 0, 0⟩, 0, 0, 0, lc0⟩ 2 1 39398008282452) (.out ⟨226, 16, 254, 1400, 16, 1285,
    ⟨[[(17813356137314304, 0), (0, 1584963000267574), (30847353099, 0)], [(31106506091810408, 0), (0, 2638485835322),
    (18005159, 0)], [(55552462191526, 0), (0, 1243260098), (0, 170520)]], 2, 2⟩, ⟨[[(0, 10705529724862464), (0,
    2399862768071030), (36167674794, 0)], [(0, 22746631071322002), (0, 434682402164), (39239503, 0)],
    [(21980348187098, 0), (0, 859560360), (34708, 0)]], 2, 2⟩, 72057594037927936, 597642605906197, 151053303031918,
    ⟨[], 0, 0⟩, 0, 0, 0, lc0⟩ 2 1 56580415011822)))
theorem c35 : checkR job con0 true ⟨7, 9, 7, 9, 13, 17⟩ 1 28336 t35 537 21 320 13741 251 16000 = true := by decide +kernel

def t36 : CTree :=
  .sy (.out ⟨86, 16, 67, 452, 16, 393, ⟨[[(20501557849075712, 0), (0, 2017803162445574), (103740636139, 0)],
    [(24397366777821248, 0), (0, 5317596808276), (0, 682479414)], [(70446103319588, 0), (6677570473, 0), (0,
    8391259)]], 2, 2⟩, ⟨[[(19895097603948544, 0), (0, 3269594475942380), (241178419943, 0)], [(0, 10943805835979176),
    (0, 2042981081824), (548055676, 0)], [(34365544476762, 0), (0, 5588717017), (145971, 0)]], 2, 2⟩,
    72057594037927936, 1711709661741096, 963326142682020, ⟨[], 0, 0⟩, 0, 0, 0, lc0⟩ 0 90 26) (.sy (.sy (.out ⟨132,
    16, 114, 1052, 16, 943, ⟨[[(8529100069337088, 0), (0, 828323307363770), (12758349584, 0)], [(38576902821836550,
    0), (0, 2401686524775), (0, 39834522)], [(122124290027478, 0), (841140481, 0), (0, 704026)]], 2, 2⟩, ⟨[[(0,
    11882697195585536), (0, 1875351874506078), (32402409867, 0)], [(0, 27670111062594670), (0, 1024517889898),
    (77036659, 0)], [(78317913880153, 0), (0, 3225697737), (75488, 0)]], 2, 2⟩, 72057594037927936, 2079363922009467,
    1154514660839709, ⟨[], 0, 0⟩, 0, 0, 0, lc0⟩ 0 228 36) (.out ⟨131, 16, 118, 1038, 16, 942, ⟨[[(0,
    12407653805944832), (0, 843855553649915), (13732207664, 0)], [(38673141842166827, 0), (0, 2521396657907), (0,
    29543196)], [(126668920879268, 0), (175584315, 0), (0, 656399)]], 2, 2⟩, ⟨[[(0, 15840641098874880), (0,
    1841572519486198), (30972484302, 0)], [(0, 28135419147156894), (0, 947880859920), (73416944, 0)],
    [(76637633200849, 0), (0, 3138644166), (90587, 0)]], 2, 2⟩, 72057594037927936, 2267213925749777,
    1135511906028095, ⟨[], 0, 0⟩, 0, 0, 0, lc0⟩ 2 1 75487090595987)) (.out ⟨105, 16, 101, 716, 16, 662, ⟨[[(0,
    34165916697673728), (0, 1408344554778182), (49063221668, 0)], [(31464778251940681, 0), (0, 4371899344638), (0,
    47908876)], [(108231499811630, 0), (0, 1257835386), (0, 1895797)]], 2, 2⟩, ⟨[[(0, 3321749037219840), (0,
    2524895082756434), (81611847935, 0)], [(0, 20245623835929240), (0, 1183613278628), (187774014, 0)],
    [(52235450628144, 0), (0, 4201395194), (299290, 0)]], 2, 2⟩, 72057594037927936, 2167147444441253,
    855427017281669, ⟨[], 0, 0⟩, 0, 0, 0, lc0⟩ 2 1 101675661512214))
theorem c36 : checkR job con0 true ⟨7, 9, 7, 9, 13, 17⟩ 1 28336 t36 579 21 320 6745 251 8000 = true := by decide +kernel

def t37 : CTree :=
  .sx (.sx (.sy (.out ⟨87, 16, 57, 462, 16, 406, ⟨[[(4308817306046464, 0), (0, 1891058414283022), (49102804846, 0)],
    [(26239652527443919, 0), (0, 3633491564067), (0, 1339221468)], [(70319471401203, 0), (16287933874, 0), (0,
    11091825)]], 2, 2⟩, ⟨[[(0, 30724379397971968), (0, 3476846128039031), (272862759795, 0)], [(0, 8022101399870827),
    (0, 2613167449505), (553820139, 0)], [(42962328262528, 0), (0, 6115621011), (0, 481866)]], 2, 2⟩,
    72057594037927936, 1748601908174810, 1136648549770488, ⟨[], 0, 0⟩, 0, 0, 0, lc0⟩ 0 17 9) (.out ⟨78, 16, 60, 458,
    16, 424, ⟨[[(790324548903936, 0), (0, 1915432542272122), (94584294948, 0)], [(25404301234574872, 0), (0,
    4895673930108), (0, 753310600)], [(79973362978488, 0), (7123961087, 0), (0, 8372796)]], 2, 2⟩, ⟨[[(0,
    22608207659458560), (0, 3367195599491632), (240926904958, 0)], [(0, 9600553678139106), (0, 2145470258063),
    (562177271, 0)], [(41619323338021, 0), (0, 6399772041), (409164, 0)]], 2, 2⟩, 72057594037927936,
    1910146706849680, 1129278625633324, ⟨[], 0, 0⟩, 0, 0, 0, lc0⟩ 0 120 36)) (.out ⟨60, 16, 35, 248, 16, 226, ⟨[[(0,
    25400203605318144), (0, 2469665840302772), (25755913679, 0)], [(19600569776131215, 0), (0, 3393236110982), (0,
    4867517750)], [(51867412027476, 0), (29935909258, 0), (0, 34133747)]], 2, 2⟩, ⟨[[(8762352620175360, 0), (0,
    3845722519365825), (611746346077, 0)], [(0, 2673504817286875), (0, 3191178200742), (1194483959, 0)],
    [(27933560218693, 0), (0, 7140818771), (0, 1394974)]], 2, 2⟩, 72057594037927936, 6193846187098675,
    2740887171260749, ⟨[], 0, 0⟩, 0, 0, 0, lc0⟩ 0 16 11)) (.out ⟨43, 16, 19, 220, 16, 201, ⟨[[(20578521895533056, 0),
    (0, 1368924782952114), (0, 239262316102)], [(28652484222629547, 0), (2708104740475, 0), (0, 11225161554)],
    [(115724041807567, 0), (142767391507, 0), (0, 114982241)]], 2, 2⟩, ⟨[[(6219210080643072, 0), (0,
    3623736094267824), (603486139483, 0)], [(2328644222778708, 0), (0, 7207674330159), (1569934391, 0)],
    [(124168041737526, 0), (0, 22392594127), (0, 12243890)]], 2, 2⟩, 72057594037927936, 12191481261459679,
    4954867043451756, ⟨[], 0, 0⟩, 0, 0, 0, lc0⟩ 0 10 13)
theorem c37 : checkR job con0 true ⟨7, 9, 7, 9, 13, 17⟩ 1 28336 t37 171 21 80 6745 251 8000 = true := by decide +kernel

def t38 : CTree :=
  .sy (.out ⟨89, 16, 334, 847, 16, 1165, ⟨[[(15003220044390400, 0), (0, 1110384308633777), (50719931823, 0)],
    [(33290198098759948, 0), (0, 11059023862221), (574650157, 0)], [(0, 120219444698996), (0, 4956516885), (1585957,
    0)]], 2, 2⟩, ⟨[[(0, 9873251296821248), (0, 4284414020840282), (300808398571, 0)]], 2, 2⟩, 72057594037927936,
    4368835694829005, 339962743707373, ⟨[], 0, 0⟩, 0, 0, 0, lc0⟩ 1 1 1160112657318) (.sy (.out ⟨110, 16, 440, 1755,
    16, 2478, ⟨[[(424720952008704, 0), (0, 706912059437814), (15776744957, 0)], [(38474194863109486, 0), (0,
    7013120822810), (169487086, 0)], [(0, 160564644961975), (0, 2600262745), (347414, 0)]], 2, 2⟩, ⟨[[(0,
    5718926769143808), (0, 4324886576483272), (147914996289, 0)]], 2, 2⟩, 72057594037927936, 5710502541555399,
    80689145982778, ⟨[], 0, 0⟩, 0, 0, 0, lc0⟩ 1 1 768531241384) (.out ⟨113, 16, 473, 1785, 16, 2564,
    ⟨[[(1481140620855296, 0), (0, 743310654420724), (16107020368, 0)], [(37619391797972736, 0), (0, 7366374222694),
    (160527661, 0)], [(0, 173930254420544), (0, 2507184253), (190783, 0)]], 2, 2⟩, ⟨[[(12714098615844864, 0), (0,
    4325191468219536), (145428582368, 0)]], 2, 2⟩, 72057594037927936, 6277540252736044, 77982322031606, ⟨[], 0, 0⟩,
    0, 0, 0, lc0⟩ 1 1 560891466635))
theorem c38 : checkR job con0 true ⟨7, 9, 7, 9, 13, 17⟩ 1 28336 t38 117 21 320 7247 251 8000 = true := by decide +kernel

def t39 : CTree :=
  .sx (.out ⟨161, 16, 527, 847, 16, 1165, ⟨[[(27198101109725184, 0), (0, 2308145874684069), (111193025632, 0)],
    [(21198364873127439, 0), (0, 8914182141964), (538221127, 0)], [(0, 33555734654237), (0, 1182211849), (730724,
    0)]], 2, 2⟩, ⟨[[(0, 9873251296821248), (0, 4284414020840282), (300808398571, 0)]], 2, 2⟩, 72057594037927936,
    764521184716694, 339962743707373, ⟨[], 0, 0⟩, 0, 0, 0, lc0⟩ 1 1 769754853002) (.sy (.out ⟨244, 16, 725, 1694, 16,
    2310, ⟨[[(31535925592371200, 0), (0, 1870154816261537), (47549004652, 0)], [(27298968952266990, 0), (0,
    6300396323090), (214022834, 0)], [(0, 35630104001164), (0, 855062778), (284640, 0)]], 2, 2⟩,
    ⟨[[(8284824107565056, 0), (0, 4323493859548698), (153125335915, 0)]], 2, 2⟩, 72057594037927936, 752940847729486,
    86528350918520, ⟨[], 0, 0⟩, 0, 0, 0, lc0⟩ 1 1 661557034815) (.out ⟨249, 16, 780, 1724, 16, 2393,
    ⟨[[(10110746671632384, 0), (0, 1961836059125990), (48780895741, 0)], [(26024043419078040, 0), (0, 6554277077152),
    (215722599, 0)], [(0, 38717950390219), (0, 613438992), (306269, 0)]], 2, 2⟩, ⟨[[(23658862400241664, 0), (0,
    4323727284817065), (150458547685, 0)]], 2, 2⟩, 72057594037927936, 816308169818862, 83523091347558, ⟨[], 0, 0⟩, 0,
    0, 0, lc0⟩ 1 1 428926914397))
theorem c39 : checkR job con0 true ⟨7, 9, 7, 9, 13, 17⟩ 1 28336 t39 159 21 320 14243 251 16000 = true := by decide +kernel

def t40 : CTree :=
  .sy (.out ⟨236, 16, 830, 1755, 16, 2478, ⟨[[(0, 35700657375113216), (0, 1753967068294635), (40580951633, 0)],
    [(28216257156170472, 0), (0, 6719035970451), (185587382, 0)], [(0, 53392839565199), (0, 522388375), (255650,
    0)]], 2, 2⟩, ⟨[[(0, 5718926769143808), (0, 4324886576483272), (147914996289, 0)]], 2, 2⟩, 72057594037927936,
    1033647792073989, 80689145982778, ⟨[], 0, 0⟩, 0, 0, 0, lc0⟩ 1 1 425157747408) (.sy (.out ⟨310, 16, 1138, 3571,
    16, 5107, ⟨[[(31635092782325760, 0), (0, 1181995214948864), (13184218291, 0)], [(35253363836994731, 0), (0,
    4514932591722), (57304514, 0)], [(0, 73426982094229), (0, 229765152), (82952, 0)]], 2, 2⟩, ⟨[[(0,
    14437543288897536), (0, 4344063594505441), (73341047669, 0)]], 2, 2⟩, 72057594037927936, 1377154415481710,
    19663621528788, ⟨[], 0, 0⟩, 0, 0, 0, lc0⟩ 1 1 303859671132) (.out ⟨317, 16, 1194, 3601, 16, 5194,
    ⟨[[(8890710866448384, 0), (0, 1226575604224137), (13209802937, 0)], [(34624835833860456, 0), (0, 4679405328261),
    (54661607, 0)], [(0, 77139588220456), (0, 155119928), (84261, 0)]], 2, 2⟩, ⟨[[(7878451358138368, 0), (0,
    4344119240318361), (72725616331, 0)]], 2, 2⟩, 72057594037927936, 1458622684901173, 19334057805178, ⟨[], 0, 0⟩, 0,
    0, 0, lc0⟩ 1 1 223266986921))
theorem c40 : checkR job con0 true ⟨7, 9, 7, 9, 13, 17⟩ 1 28336 t40 297 21 640 14745 251 16000 = true := by decide +kernel

def t41 : CTree :=
  .sy (.sy (.out ⟨512, 16, 1696, 3510, 16, 4935, ⟨[[(2339417186992128, 0), (0, 2020784418403107), (24252615125, 0)],
    [(26560597073142504, 0), (0, 3472628952643), (53369394, 0)], [(0, 22575787199871), (0, 110472448), (40436, 0)]],
    2, 2⟩, ⟨[[(2512975642853376, 0), (0, 4343769523567587), (74600606653, 0)]], 2, 2⟩, 72057594037927936,
    227635268862909, 20347697660487, ⟨[], 0, 0⟩, 0, 0, 0, lc0⟩ 1 1 333953328056) (.out ⟨518, 16, 1764, 3540, 16,
    5020, ⟨[[(488522839195648, 0), (0, 2076898665672247), (24371833718, 0)], [(25826125598664850, 0), (0,
    3557551867911), (52609149, 0)], [(0, 23527960387290), (0, 72231231), (43048, 0)]], 2, 2⟩, ⟨[[(0,
    2033204723941376), (0, 4343371242308586), (73956158666, 0)]], 2, 2⟩, 72057594037927936, 239125784835998,
    19998756815008, ⟨[], 0, 0⟩, 0, 0, 0, lc0⟩ 1 1 248519198849)) (.sy (.out ⟨525, 16, 1838, 3571, 16, 5107, ⟨[[(0,
    18095658946936832), (0, 2139034600104132), (24359343644, 0)], [(25062255849734263, 0), (0, 3653470435265),
    (51311357, 0)], [(0, 24541307621968), (0, 29411260), (46614, 0)]], 2, 2⟩, ⟨[[(0, 14437543288897536), (0,
    4344063594505441), (73341047669, 0)]], 2, 2⟩, 72057594037927936, 252372244488531, 19663621528788, ⟨[], 0, 0⟩, 0,
    0, 0, lc0⟩ 1 1 171571384980) (.sy (.out ⟨717, 16, 2565, 7202, 16, 10366, ⟨[[(0, 16121905744723968), (0,
    1479984508039891), (8185495189, 0)], [(33065696170781324, 0), (0, 2523096109506), (16849107, 0)], [(0,
    34254458841542), (4443319, 0), (16923, 0)]], 2, 2⟩, ⟨[[(7013493797879808, 0), (0, 4353192180136349),
    (36515473557, 0)]], 2, 2⟩, 72057594037927936, 336257600982647, 4853807516421, ⟨[], 0, 0⟩, 0, 0, 0, lc0⟩ 1 1
    119329187475) (.sy (.out ⟨881, 16, 3186, 14465, 16, 20885, ⟨[[(0, 19718085518712832), (0, 915360222548793),
    (2488205229, 0)], [(39894076017816363, 0), (0, 1559229446522), (5052943, 0)], [(0, 42542563133963), (10765863,
    0), (5380, 0)]], 2, 2⟩, ⟨[[(0, 13407894860857344), (0, 4357749881320022), (18219312749, 0)]], 2, 2⟩,
    72057594037927936, 414794474178398, 1205809997172, ⟨[], 0, 0⟩, 0, 0, 0, lc0⟩ 1 1 95861839307) (.out ⟨888, 16,
    3237, 14495, 16, 20973, ⟨[[(25532596319338496, 0), (0, 927493862424857), (2489642975, 0)], [(39738702064395118,
    0), (0, 1579098225015), (5005990, 0)], [(0, 43216688346519), (16473049, 0), (5561, 0)]], 2, 2⟩,
    ⟨[[(24439619809050624, 0), (0, 4357799884012659), (18181362555, 0)]], 2, 2⟩, 72057594037927936, 422255317684400,
    1200775393962, ⟨[], 0, 0⟩, 0, 0, 0, lc0⟩ 1 1 81909213727))))
theorem c41 : checkR job con0 true ⟨7, 9, 7, 9, 13, 17⟩ 1 28336 t41 657 21 1280 14745 251 16000 = true := by decide +kernel

def t42 : CTree :=
  .sy (.out ⟨528, 16, 1698, 3510, 16, 4935, ⟨[[(0, 28402284203745280), (0, 2169376419429608), (26599699988, 0)],
    [(24812531747443956, 0), (0, 3485446655071), (57041035, 0)], [(0, 19803104026321), (0, 98976443), (45430, 0)]],
    2, 2⟩, ⟨[[(2512975642853376, 0), (0, 4343769523567587), (74600606653, 0)]], 2, 2⟩, 72057594037927936,
    211188425154475, 20347697660487, ⟨[], 0, 0⟩, 0, 0, 0, lc0⟩ 1 1 243280616542) (.sy (.out ⟨723, 16, 2378, 7080, 16,
    10019, ⟨[[(6854737546141696, 0), (0, 1505227679763480), (9071707465, 0)], [(32922634911262299, 0), (0,
    2411064592209), (19286831, 0)], [(0, 27776737376360), (0, 44912732), (16520, 0)]], 2, 2⟩, ⟨[[(19093797377474560,
    0), (0, 4352870217528879), (37138312708, 0)]], 2, 2⟩, 72057594037927936, 282788856371337, 5021353879268, ⟨[], 0,
    0⟩, 0, 0, 0, lc0⟩ 1 1 184844990591) (.out ⟨731, 16, 2440, 7111, 16, 10105, ⟨[[(15885203864551424, 0), (0,
    1535216550923411), (9127591626, 0)], [(32544038728721969, 0), (0, 2454309416493), (19282915, 0)], [(0,
    28519761440059), (0, 28806986), (17481, 0)]], 2, 2⟩, ⟨[[(0, 29903610746306560), (0, 4352867219948851),
    (36979901451, 0)]], 2, 2⟩, 72057594037927936, 290702287068378, 4978566532591, ⟨[], 0, 0⟩, 0, 0, 0, lc0⟩ 1 1
    149645507711))
theorem c42 : checkR job con0 true ⟨7, 9, 7, 9, 13, 17⟩ 1 28336 t42 699 21 1280 29239 251 32000 = true := by decide +kernel

def t43 : CTree :=
  .sy (.sy (.out ⟨739, 16, 2504, 7141, 16, 10192, ⟨[[(32907679429697536, 0), (0, 1566179280828834), (9166686943, 0)],
    [(32138214006975451, 0), (0, 2499093036806), (19232180, 0)], [(0, 29278088512861), (0, 11236964), (18584, 0)]],
    2, 2⟩, ⟨[[(25089982316740608, 0), (0, 4353134386877365), (36825121071, 0)]], 2, 2⟩, 72057594037927936,
    299003740444157, 4936630131220, ⟨[], 0, 0⟩, 0, 0, 0, lc0⟩ 1 1 113310164283) (.sy (.out ⟨920, 16, 3149, 14344, 16,
    20536, ⟨[[(0, 24274702418911232), (0, 980501546302849), (2831280918, 0)], [(39236755033478839, 0), (0,
    1562412598186), (5906965, 0)], [(0, 36821744224050), (1862427, 0), (6017, 0)]], 2, 2⟩, ⟨[[(0, 34864501853257728),
    (0, 4357791775601076), (18373739962, 0)]], 2, 2⟩, 72057594037927936, 373028813225264, 1226336665700, ⟨[], 0, 0⟩,
    0, 0, 0, lc0⟩ 1 1 86917029483) (.out ⟨927, 16, 3199, 14374, 16, 20623, ⟨[[(24235165387915264, 0), (0,
    993200293923644), (2840065793, 0)], [(39064477651440542, 0), (0, 1581245265285), (5901841, 0)], [(0,
    37403900930165), (8094056, 0), (6243, 0)]], 2, 2⟩, ⟨[[(0, 10196106050797568), (0, 4357786662550963),
    (18334911088, 0)]], 2, 2⟩, 72057594037927936, 379378830118599, 1221157609504, ⟨[], 0, 0⟩, 0, 0, 0, lc0⟩ 1 1
    72623352980))) (.sx (.sy (.sy (.out ⟨1510, 16, 5281, 14404, 16, 20710, ⟨[[(11880917244968960, 0), (0,
    1607617623798656), (4526776910, 0)], [(32249756529701858, 0), (0, 1300557747652), (4678541, 0)], [(0,
    15965680354332), (4693366, 0), (2517, 0)]], 2, 2⟩, ⟨[[(5255936497025024, 0), (0, 4357742875983235), (18296083517,
    0)]], 2, 2⟩, 72057594037927936, 80277889613663, 1216000510789, ⟨[], 0, 0⟩, 0, 0, 0, lc0⟩ 1 1 73789391329) (.out
    ⟨1519, 16, 5353, 14435, 16, 20798, ⟨[[(30099125215674368, 0), (0, 1624960600262830), (4524448362, 0)],
    [(32028848909647768, 0), (0, 1313573695918), (4650647, 0)], [(0, 16180317180709), (7346650, 0), (2607, 0)]], 2,
    2⟩, ⟨[[(0, 10496234455957504), (0, 4357870436704362), (18258137165, 0)]], 2, 2⟩, 72057594037927936,
    81514350449221, 1210923603210, ⟨[], 0, 0⟩, 0, 0, 0, lc0⟩ 1 1 59244751462)) (.sx (.sy (.out ⟨2219, 16, 7901,
    14465, 16, 20885, ⟨[[(13183015851720704, 0), (0, 2371490143576926), (6509119660, 0)], [(23404237039756212, 0),
    (0, 966151708422), (3320993, 0)], [(0, 6070184697262), (3384312, 0), (959, 0)]], 2, 2⟩, ⟨[[(0,
    13407894860857344), (0, 4357749881320022), (18219312749, 0)]], 2, 2⟩, 72057594037927936, 16124377976997,
    1205809997172, ⟨[], 0, 0⟩, 0, 0, 0, lc0⟩ 1 1 52579436776) (.sy (.out ⟨3073, 16, 11004, 28991, 16, 41925,
    ⟨[[(35622327181639680, 0), (0, 1648035401638794), (2239957780, 0)], [(32089938453637870, 0), (0, 671069723535),
    (1137044, 0)], [(0, 8452194229722), (2863949, 0), (340, 0)]], 2, 2⟩, ⟨[[(24810622012096512, 0), (0,
    4360183001249337), (9100417644, 0)]], 2, 2⟩, 72057594037927936, 21155386304948, 300515385147, ⟨[], 0, 0⟩, 0, 0,
    0, lc0⟩ 1 1 41528341287) (.out ⟨3083, 16, 11081, 29022, 16, 42013, ⟨[[(32227157324103680, 0), (0,
    1657311920914289), (2237397685, 0)], [(31975539521801265, 0), (0, 674622561654), (1131732, 0)], [(0,
    8509803782077), (3229434, 0), (346, 0)]], 2, 2⟩, ⟨[[(0, 15205202960580608), (0, 4360193338001847), (9090914155,
    0)]], 2, 2⟩, 72057594037927936, 21325697349729, 299887214001, ⟨[], 0, 0⟩, 0, 0, 0, lc0⟩ 1 1 34730669715))) (.sy
    (.sy (.out ⟨3094, 16, 10928, 28930, 16, 41749, ⟨[[(0, 9751014630064128), (0, 1669237562243558), (2308351437, 0)],
    [(31845002075262574, 0), (0, 668528221914), (1183000, 0)], [(0, 8117845864180), (2576116, 0), (347, 0)]], 2, 2⟩,
    ⟨[[(18964500753678336, 0), (0, 4360133357075199), (9119423898, 0)]], 2, 2⟩, 72057594037927936, 20514216092943,
    301775754083, ⟨[], 0, 0⟩, 0, 0, 0, lc0⟩ 1 1 38364553356) (.out ⟨3104, 16, 11004, 28961, 16, 41837, ⟨[[(0,
    23091133254762496), (0, 1678521681813051), (2306564845, 0)], [(31728835729912747, 0), (0, 671987748790),
    (1178906, 0)], [(0, 8172911779333), (2946730, 0), (353, 0)]], 2, 2⟩, ⟨[[(0, 11833040986177536), (0,
    4360163027831115), (9109920934, 0)]], 2, 2⟩, 72057594037927936, 20676153020518, 301144925025, ⟨[], 0, 0⟩, 0, 0,
    0, lc0⟩ 1 1 31294425827)) (.leaf ⟨2824, 16, 8150, 1403, 16, 6445, ⟨[[(32115248731127808, 0), (0,
    2481244834925582), (6751817366, 0), (0, 73387), (0, 2)], [(23125361222534385, 0), (0, 992792811748), (3436460,
    0), (0, 50)], [(0, 6051390744007), (5160699, 0), (1067, 0)], [(1633077281, 0), (5054, 0)]], 3, 4⟩, ⟨[[(0,
    21842853492670464), (0, 1851563353712034), (720448415, 0), (0, 108620), (0, 3)], [(0, 30939767189422903), (0,
    116612260389), (0, 1733737), (0, 113)], [(3905983129226, 0), (32994733, 0), (41, 0)], [(0, 484414157), (253,
    0)]], 3, 4⟩, 72057594037927936, 44804568840, 14818018204, ⟨[[(11458292294026, 0), (6151148357, 0), (446867, 0),
    (0, 1117), (0, 2)], [(0, 4608023025), (0, 2986253), (444, 0), (3, 0)], [(2198130, 0), (1223, 0)], [(0, 1001), (0,
    1)]], 3, 4⟩, 17592186044416, 156892,
    8465394463776373593899467307036353980003624901759390406477316063446683609313916325838672082406044453794910071378900198319286177,
    lc0⟩)))) (.sy (.sx (.sy (.out ⟨2232, 16, 7735, 14404, 16, 20710, ⟨[[(17862705899405312, 0), (0,
    2414649787897900), (6849901171, 0)], [(22899624992997138, 0), (0, 952193294915), (3546491, 0)], [(0,
    5556030923091), (2392261, 0), (986, 0)]], 2, 2⟩, ⟨[[(5255936497025024, 0), (0, 4357742875983235), (18296083517,
    0)]], 2, 2⟩, 72057594037927936, 15073044136001, 1216000510789, ⟨[], 0, 0⟩, 0, 0, 0, lc0⟩ 1 1 47511337539) (.leaf
    ⟨2812, 16, 7976, 1420, 16, 6489, ⟨[[(0, 22319059778371584), (0, 2482841302015874), (6963680406, 0), (0, 67614),
    (0, 1)], [(23121132381545149, 0), (0, 978221879127), (3591559, 0), (0, 44)], [(0, 5727644009589), (3499928, 0),
    (1042, 0)], [(1558651246, 0), (3709, 0)]], 3, 4⟩, ⟨[[(19098225665933312, 0), (0, 1870716944786760), (974920095,
    0), (0, 100500), (0, 3)], [(0, 30709781129806129), (0, 111451025447), (0, 1418827), (0, 101)], [(3838545571452,
    0), (33093956, 0), (65, 0)], [(0, 477340769), (0, 521)]], 3, 4⟩, 72057594037927936, 42789235955, 13059327192,
    ⟨[[(11280446648836, 0), (5972669606, 0), (439705, 0), (0, 992), (0, 1)], [(0, 4515734216), (0, 2905383), (467,
    0), (3, 0)], [(2155624, 0), (1187, 0), (0, 1)], [(0, 984)]], 3, 4⟩, 17592186044416, 151960,
    10238532480239352470780841068324407904759907593192132821507599216817905497937059177871231767901801185108251485427206427734792560,
    lc0⟩)) (.leaf ⟨1794, 16, 5049, 994, 16, 4580, ⟨[[(0, 8638933566144512), (0, 3199943824079250), (18150362248, 0),
    (0, 344122), (0, 15)], [(14492380763131502, 0), (0, 1240429579104), (9401424, 0), (0, 213)], [(0, 3503369382687),
    (4300281, 0), (2719, 0)], [(964499305, 0), (3901, 0), (1, 0)]], 3, 4⟩, ⟨[[(34619058369249280, 0), (0,
    2647942563935204), (2803744680, 0), (0, 572910), (0, 36)], [(0, 21430265480179547), (0, 152432384188), (0,
    3774620), (0, 549)], [(2661423793216, 0), (46551694, 0), (303, 0)], [(0, 329898608), (0, 901), (1, 0)]], 3, 4⟩,
    72057594037927936, 27940638988, 12978893349, ⟨[[(11113056581579, 0), (8356912881, 0), (965898, 0), (0, 2468), (0,
    5)], [(0, 6933099944), (0, 6408000), (1102, 0), (12, 0)], [(5186438, 0), (4122, 0), (0, 2)], [(0, 3710), (0,
    3)]], 3, 4⟩, 17592186044416, 361622,
    8430029308091052104441765753843972098244896602480231052668779867526628690170518409039946164364236570198962106350539487825630187,
    lc0⟩)) (.leaf ⟨1408, 16, 4023, 695, 16, 3241, ⟨[[(28622023412137984, 0), (0, 2514778485947752), (13879825326, 0),
    (0, 295412), (0, 13)], [(22342561462729999, 0), (0, 1962412981911), (14262643, 0), (0, 372)], [(0,
    11351909752267), (21636019, 0), (8939, 0)], [(6231353266, 0), (32807, 0), (6, 0)]], 3, 4⟩, ⟨[[(9756772651360256,
    0), (0, 1869780424243040), (1402471377, 0), (0, 450842), (0, 28)], [(0, 30599869207122066), (0, 224495721742),
    (0, 6600262), (0, 870)], [(7658893138721, 0), (132733686, 0), (940, 0)], [(0, 1888031134), (1241, 0), (7, 0)]],
    3, 4⟩, 72057594037927936, 332522917222, 101203596304, ⟨[[(11202375931808, 0), (12024563568, 0), (2055700, 0), (0,
    7134), (0, 21)], [(0, 8963005506), (0, 11810834), (1977, 0), (39, 0)], [(8577535, 0), (9762, 0), (0, 4)], [(0,
    7838), (0, 8)]], 3, 4⟩, 17592186044416, 1100618,
    6815022648512163506086783398248456286832721395126524858390481805124196867306934909214306972799979791964030729129692087285096104,
    lc0⟩)))
theorem c43 : checkR job con0 true ⟨7, 9, 7, 9, 13, 17⟩ 1 28336 t43 699 21 1280 29741 251 32000 = true := by decide +kernel

def t44 : CTree :=
  .sy (.sy (.out ⟨186, 16, 859, 1816, 16, 2652, ⟨[[(32865922437918720, 0), (0, 1184416065241120), (24638421640, 0)],
    [(34374978903338490, 0), (0, 6500732287151), (118852283, 0)], [(0, 89132473692465), (0, 1543005208), (0,
    65802)]], 2, 2⟩, ⟨[[(0, 14612745410838528), (0, 4326355785717895), (143053129178, 0)]], 2, 2⟩, 72057594037927936,
    1590655637777709, 75424614527826, ⟨[], 0, 0⟩, 0, 0, 0, lc0⟩ 1 1 510246629781) (.out ⟨191, 16, 921, 1846, 16,
    2741, ⟨[[(11296599682056192, 0), (0, 1244528750472032), (23979759819, 0)], [(33386372666193908, 0), (0,
    6859895800488), (89236431, 0)], [(0, 96429246439182), (0, 1818795440), (0, 268651)]], 2, 2⟩,
    ⟨[[(6596045987823616, 0), (0, 4326717015449758), (140729127190, 0)]], 2, 2⟩, 72057594037927936, 1759722540244187,
    72977799301236, ⟨[], 0, 0⟩, 0, 0, 0, lc0⟩ 1 1 356441254161)) (.sx (.sy (.out ⟨297, 16, 1536, 1876, 16, 2831,
    ⟨[[(0, 4218049991950336), (0, 1919599129193637), (33409530151, 0)], [(26740290673158327, 0), (0, 5626295904582),
    (37163590, 0)], [(0, 43044634494650), (0, 1046795608), (0, 239953)]], 2, 2⟩, ⟨[[(5416557836566528, 0), (0,
    4326350144749555), (138456496456, 0)]], 2, 2⟩, 72057594037927936, 458609715623345, 70636447665655, ⟨[], 0, 0⟩, 0,
    0, 0, lc0⟩ 1 1 286101375385) (.out ⟨302, 16, 1637, 1907, 16, 2924, ⟨[[(23837527550484480, 0), (0,
    2013668022752374), (27999170179, 0)], [(25493464154432296, 0), (0, 5987356177859), (0, 25907654)], [(0,
    46513741968541), (0, 1459920253), (0, 440950)]], 2, 2⟩, ⟨[[(4846798629257216, 0), (0, 4328283682287878),
    (136328189306, 0)]], 2, 2⟩, 72057594037927936, 534498863587032, 68442182898917, ⟨[], 0, 0⟩, 0, 0, 0, lc0⟩ 1 1
    193605929548)) (.sy (.sy (.out ⟨427, 16, 2078, 3753, 16, 5640, ⟨[[(0, 33901285759959040), (0, 1465514904040573),
    (12360460165, 0)], [(32526405978380233, 0), (0, 3862746014302), (11120097, 0)], [(0, 51700731714281), (0,
    509386501), (0, 60843)]], 2, 2⟩, ⟨[[(0, 25708456558723072), (0, 4344367109036917), (69796878509, 0)]], 2, 2⟩,
    72057594037927936, 473849224107053, 17804161175270, ⟨[], 0, 0⟩, 0, 0, 0, lc0⟩ 1 1 216357582115) (.out ⟨434, 16,
    2164, 3783, 16, 5732, ⟨[[(0, 29329547643768832), (0, 1513956956512764), (11405205126, 0)], [(31855229092548370,
    0), (0, 4016334640581), (576575, 0)], [(0, 54124531965050), (0, 605328523), (0, 86431)]], 2, 2⟩,
    ⟨[[(24735132040593408, 0), (0, 4344865939557288), (69246409109, 0)]], 2, 2⟩, 72057594037927936, 503727460022647,
    17521855684621, ⟨[], 0, 0⟩, 0, 0, 0, lc0⟩ 1 1 165569426940)) (.sy (.out ⟨441, 16, 2257, 3814, 16, 5824,
    ⟨[[(19176250497167360, 0), (0, 1567970950320997), (10061462914, 0)], [(31120434748029513, 0), (0, 4195056985443),
    (0, 13206285)], [(0, 56792537617805), (0, 735798518), (0, 118758)]], 2, 2⟩, ⟨[[(0, 31995481227264000), (0,
    4344801621886095), (68695774059, 0)]], 2, 2⟩, 72057594037927936, 537410996682003, 17244007883179, ⟨[], 0, 0⟩, 0,
    0, 0, lc0⟩ 1 1 128895476063) (.sy (.out ⟨556, 16, 2898, 7688, 16, 11811, ⟨[[(6685397410643968, 0), (0,
    1002156960555173), (2714602512, 0)], [(37927680817626715, 0), (0, 2702487806728), (0, 8132344)], [(0,
    73300705897649), (0, 535695576), (0, 46129)]], 2, 2⟩, ⟨[[(5647844853350400, 0), (0, 4353614865642752),
    (34213890038, 0)]], 2, 2⟩, 72057594037927936, 664934857235496, 4260235227153, ⟨[], 0, 0⟩, 0, 0, 0, lc0⟩ 1 1
    99421575640) (.out ⟨564, 16, 2977, 7719, 16, 11905, ⟨[[(6432841623085056, 0), (0, 1026870623905472), (2395656560,
    0)], [(37565614849566714, 0), (0, 2786019041235), (0, 11333186)], [(0, 75587589719217), (0, 600895637), (0,
    53491)]], 2, 2⟩, ⟨[[(0, 13403302493618176), (0, 4353843592327707), (34081234235, 0)]], 2, 2⟩, 72057594037927936,
    689406475934674, 4227008422179, ⟨[], 0, 0⟩, 0, 0, 0, lc0⟩ 1 1 83604701507)))))
theorem c44 : checkR job con0 true ⟨7, 9, 7, 9, 13, 17⟩ 1 28336 t44 213 21 640 7749 251 8000 = true := by decide +kernel

def t45 : CTree :=
  .sx (.sy (.out ⟨321, 16, 1376, 1816, 16, 2652, ⟨[[(0, 7965452300775424), (0, 2227389778720423), (45386933052, 0)],
    [(23398135225710437, 0), (0, 5267939551740), (93296006, 0)], [(0, 30056481436920), (0, 362583371), (530, 0)]], 2,
    2⟩, ⟨[[(0, 14612745410838528), (0, 4326355785717895), (143053129178, 0)]], 2, 2⟩, 72057594037927936,
    327630085846989, 75424614527826, ⟨[], 0, 0⟩, 0, 0, 0, lc0⟩ 1 1 342706290825) (.sy (.out ⟨450, 16, 2000, 3692, 16,
    5459, ⟨[[(0, 27422228316295168), (0, 1594967615495377), (15011178851, 0)], [(31143643086703244, 0), (0,
    3784243829093), (24335635, 0)], [(0, 43887696595832), (0, 273954755), (0, 14674)]], 2, 2⟩, ⟨[[(0,
    17150909929422848), (0, 4343955425106558), (70934460476, 0)]], 2, 2⟩, 72057594037927936, 404664997636799,
    18392215341270, ⟨[], 0, 0⟩, 0, 0, 0, lc0⟩ 1 1 239479290952) (.out ⟨457, 16, 2083, 3723, 16, 5550, ⟨[[(0,
    17353867360841728), (0, 1646094888613594), (14332417826, 0)], [(30463289189997982, 0), (0, 3919941304769),
    (16913340, 0)], [(0, 45857139234214), (0, 306845183), (0, 27937)]], 2, 2⟩, ⟨[[(0, 15456768823328768), (0,
    4344843229529525), (70372090338, 0)]], 2, 2⟩, 72057594037927936, 430156471187318, 18097439118073, ⟨[], 0, 0⟩, 0,
    0, 0, lc0⟩ 1 1 182191457855))) (.sy (.sy (.out ⟨468, 16, 1905, 3632, 16, 5282, ⟨[[(5503952154804224, 0), (0,
    1704087110160133), (17570831265, 0)], [(30016986032641256, 0), (0, 3680427090470), (35516577, 0)], [(0,
    36948278152273), (0, 154353982), (13740, 0)]], 2, 2⟩, ⟨[[(0, 28724215771922432), (0, 4344392086494269),
    (72124048917, 0)]], 2, 2⟩, 72057594037927936, 342604336310208, 19013665147494, ⟨[], 0, 0⟩, 0, 0, 0, lc0⟩ 1 1
    284940367519) (.out ⟨475, 16, 1983, 3662, 16, 5370, ⟨[[(0, 3847736000593920), (0, 1756027925287484),
    (17199062037, 0)], [(29331635293279000, 0), (0, 3796956989019), (30894026, 0)], [(0, 38538659447284), (0,
    149242406), (8334, 0)]], 2, 2⟩, ⟨[[(0, 29589348778737664), (0, 4344062433411485), (71522505778, 0)]], 2, 2⟩,
    72057594037927936, 363196219924023, 18698597002131, ⟨[], 0, 0⟩, 0, 0, 0, lc0⟩ 1 1 216278283459)) (.sy (.out ⟨482,
    16, 2066, 3692, 16, 5459, ⟨[[(10183276406333440, 0), (0, 1812205199800342), (16544717108, 0)],
    [(28580979546692175, 0), (0, 3927287305955), (24531879, 0)], [(0, 40228171610446), (0, 150275162), (1535, 0)]],
    2, 2⟩, ⟨[[(0, 17150909929422848), (0, 4343955425106558), (70934460476, 0)]], 2, 2⟩, 72057594037927936,
    386421970229156, 18392215341270, ⟨[], 0, 0⟩, 0, 0, 0, lc0⟩ 1 1 156468642355) (.sy (.out ⟨629, 16, 2747, 7445, 16,
    11077, ⟨[[(0, 34708696107483136), (0, 1196789323631893), (5095148978, 0)], [(36040114421312622, 0), (0,
    2600278419582), (5904498, 0)], [(0, 53563590796391), (0, 100629862), (0, 1510)]], 2, 2⟩, ⟨[[(19969419838554112,
    0), (0, 4353521086676340), (35328132423, 0)]], 2, 2⟩, 72057594037927936, 494478105004678, 4542629939558, ⟨[], 0,
    0⟩, 0, 0, 0, lc0⟩ 1 1 112638644042) (.out ⟨637, 16, 2821, 7475, 16, 11167, ⟨[[(0, 6818277895790592), (0,
    1223929601233976), (4920872680, 0)], [(35671862633365077, 0), (0, 2665093679990), (4332376, 0)], [(0,
    55058905298670), (0, 105649577), (0, 3067)]], 2, 2⟩, ⟨[[(22896845161037824, 0), (0, 4353352883051994),
    (35183442437, 0)]], 2, 2⟩, 72057594037927936, 512133164942126, 4505633324588, ⟨[], 0, 0⟩, 0, 0, 0, lc0⟩ 1 1
    89683233771))))
theorem c45 : checkR job con0 true ⟨7, 9, 7, 9, 13, 17⟩ 1 28336 t45 255 21 640 15247 251 16000 = true := by decide +kernel

def t46 : CTree :=
  .sy (.out ⟨464, 16, 2172, 3753, 16, 5640, ⟨[[(26498246907904000, 0), (0, 1702220041657709), (13305301347, 0)],
    [(29716593635252541, 0), (0, 4074889319299), (7008533, 0)], [(0, 47985682779545), (0, 356805378), (0, 44708)]],
    2, 2⟩, ⟨[[(0, 25708456558723072), (0, 4344367109036917), (69796878509, 0)]], 2, 2⟩, 72057594037927936,
    458966001094628, 17804161175270, ⟨[], 0, 0⟩, 0, 0, 0, lc0⟩ 1 1 134938098513) (.sy (.out ⟨596, 16, 2843, 7567, 16,
    11441, ⟨[[(15639796210999296, 0), (0, 1107836161628459), (3880647675, 0)], [(36889578748913189, 0), (0,
    2665679911163), (0, 775718)], [(0, 62994932485915), (0, 258810696), (0, 19053)]], 2, 2⟩, ⟨[[(0,
    25931500465750016), (0, 4353547078661877), (34761911854, 0)]], 2, 2⟩, 72057594037927936, 578269678830228,
    4398012930548, ⟨[], 0, 0⟩, 0, 0, 0, lc0⟩ 1 1 100148136985) (.out ⟨604, 16, 2920, 7597, 16, 11533,
    ⟨[[(32542253542703104, 0), (0, 1134018772488115), (3622477253, 0)], [(36513889861475998, 0), (0, 2739842381637),
    (0, 3153604)], [(0, 64839741299464), (0, 287132273), (0, 22932)]], 2, 2⟩, ⟨[[(2446124401557504, 0), (0,
    4353583859127413), (34623423220, 0)]], 2, 2⟩, 72057594037927936, 599603734135387, 4362968270354, ⟨[], 0, 0⟩, 0,
    0, 0, lc0⟩ 1 1 80314095339))
theorem c46 : checkR job con0 true ⟨7, 9, 7, 9, 13, 17⟩ 1 28336 t46 489 21 1280 31247 251 32000 = true := by decide +kernel

def t47 : CTree :=
  .sy (.sy (.out ⟨959, 16, 4737, 7628, 16, 11626, ⟨[[(22492868443602944, 0), (0, 1787405167065185), (5324243746, 0)],
    [(29625276867381742, 0), (0, 2220331962933), (0, 4175282)], [(0, 27178881361010), (0, 141985211), (0, 11901)]],
    2, 2⟩, ⟨[[(0, 11374436455088128), (0, 4353856870360014), (34487907214, 0)]], 2, 2⟩, 72057594037927936,
    130926873001776, 4328575924618, ⟨[], 0, 0⟩, 0, 0, 0, lc0⟩ 1 1 79284426914) (.out ⟨969, 16, 4846, 7658, 16, 11718,
    ⟨[[(0, 24083087417147392), (0, 1823398360684914), (4773603920, 0)], [(29165447547926248, 0), (0, 2276834672769),
    (0, 6543797)], [(0, 27880407839675), (0, 158356275), (0, 13954)]], 2, 2⟩, ⟨[[(0, 17812553104621568), (0,
    4353617441235137), (34349421604, 0)]], 2, 2⟩, 72057594037927936, 135849734799560, 4294085335696, ⟨[], 0, 0⟩, 0,
    0, 0, lc0⟩ 1 1 60725485830)) (.sx (.sy (.out ⟨1371, 16, 6978, 7688, 16, 11811, ⟨[[(0, 27340722529402880), (0,
    2584711243800105), (5949172806, 0)], [(20600233969726903, 0), (0, 1642191513286), (0, 6255406)], [(0,
    10223200944246), (0, 65602645), (0, 5956)]], 2, 2⟩, ⟨[[(5647844853350400, 0), (0, 4353614865642752),
    (34213890038, 0)]], 2, 2⟩, 72057594037927936, 35197642126947, 4260235227153, ⟨[], 0, 0⟩, 0, 0, 0, lc0⟩ 1 1
    53239757242) (.sy (.out ⟨1975, 16, 10155, 15438, 16, 23787, ⟨[[(735413108867072, 0), (0, 1877713983097673),
    (1863800674, 0)], [(29078104498508623, 0), (0, 1198744618893), (0, 2794651)], [(0, 14914914913175), (0,
    51156468), (0, 2379)]], 2, 2⟩, ⟨[[(0, 8529203503693824), (0, 4358196599975819), (17074428299, 0)]], 2, 2⟩,
    72057594037927936, 36460011095451, 1058848895183, ⟨[], 0, 0⟩, 0, 0, 0, lc0⟩ 1 1 43007293503) (.out ⟨1986, 16,
    10277, 15468, 16, 23880, ⟨[[(0, 35641546394320896), (0, 1898485366412798), (1672185695, 0)], [(28817699853511217,
    0), (0, 1216169894067), (0, 3198012)], [(0, 15120707737815), (0, 54263021), (0, 2558)]], 2, 2⟩, ⟨[[(0,
    13100620518260736), (0, 4358076723499021), (17040444825, 0)]], 2, 2⟩, 72057594037927936, 37186784988736,
    1054665266170, ⟨[], 0, 0⟩, 0, 0, 0, lc0⟩ 1 1 35739421570))) (.sy (.sy (.out ⟨1995, 16, 10037, 15377, 16, 23600,
    ⟨[[(2503864642338816, 0), (0, 1909630322819865), (2142956246, 0)], [(28711848771891218, 0), (0, 1183641219989),
    (0, 2253202)], [(0, 14245881394965), (0, 41546224), (0, 1905)]], 2, 2⟩, ⟨[[(165120590610432, 0), (0,
    4358152588829617), (17141681733, 0)]], 2, 2⟩, 72057594037927936, 34977745752558, 1067221600562, ⟨[], 0, 0⟩, 0, 0,
    0, lc0⟩ 1 1 40755183048) (.out ⟨2006, 16, 10158, 15407, 16, 23693, ⟨[[(0, 26739282594037760), (0,
    1930578043792255), (1960431644, 0)], [(28456027004843002, 0), (0, 1200372257635), (0, 2626120)], [(0,
    14439225315392), (0, 44046750), (0, 2056)]], 2, 2⟩, ⟨[[(12740136768765952, 0), (0, 4358099634847100),
    (17107694498, 0)]], 2, 2⟩, 72057594037927936, 35679033549265, 1063004570772, ⟨[], 0, 0⟩, 0, 0, 0, lc0⟩ 1 1
    32969622256)) (.sy (.out ⟨2016, 16, 10281, 15438, 16, 23787, ⟨[[(22237645329563648, 0), (0, 1952072446469037),
    (1763956787, 0)], [(28190008412277888, 0), (0, 1217757988970), (0, 3023660)], [(0, 14636980102779), (0,
    46736420), (0, 2216)]], 2, 2⟩, ⟨[[(0, 8529203503693824), (0, 4358196599975819), (17074428299, 0)]], 2, 2⟩,
    72057594037927936, 36405022907515, 1058848895183, ⟨[], 0, 0⟩, 0, 0, 0, lc0⟩ 1 1 26963299599) (.sy (.out ⟨2625,
    16, 13451, 30937, 16, 47738, ⟨[[(0, 23878411353292800), (0, 1276156204518255), (520870617, 0)],
    [(36281564499654949, 0), (0, 798177406461), (0, 1082226)], [(0, 19173523706668), (0, 31690512), (0, 759)]], 2,
    2⟩, ⟨[[(0, 31175409313775616), (0, 4360347564566761), (8528847239, 0)]], 2, 2⟩, 72057594037927936,
    44904959503938, 263933360914, ⟨[], 0, 0⟩, 0, 0, 0, lc0⟩ 1 1 21589589594) (.out ⟨2636, 16, 13557, 30966, 16,
    47831, ⟨[[(28347462825869312, 0), (0, 1285705183836013), (486265895, 0)], [(36163356843471726, 0), (0,
    805594728486), (0, 1155139)], [(0, 19340848548414), (0, 32720091), (0, 789)]], 2, 2⟩, ⟨[[(30954807723294720, 0),
    (0, 4360275079748470), (8520339228, 0)]], 2, 2⟩, 72057594037927936, 45399286710426, 263411309231, ⟨[], 0, 0⟩, 0,
    0, 0, lc0⟩ 1 1 18714055714)))))
theorem c47 : checkR job con0 true ⟨7, 9, 7, 9, 13, 17⟩ 1 28336 t47 957 21 2560 31749 251 32000 = true := by decide +kernel

def t48 : CTree :=
  .sx (.sy (.out ⟨1384, 16, 6746, 7628, 16, 11626, ⟨[[(5942871096606720, 0), (0, 2645250672208139), (7378960723, 0)],
    [(19903199771739227, 0), (0, 1586845500053), (0, 3469312)], [(0, 9240164903933), (0, 42230685), (0, 3626)]], 2,
    2⟩, ⟨[[(0, 11374436455088128), (0, 4353856870360014), (34487907214, 0)]], 2, 2⟩, 72057594037927936,
    32233403115963, 4328575924618, ⟨[], 0, 0⟩, 0, 0, 0, lc0⟩ 1 1 52186374423) (.sy (.out ⟨2014, 16, 9913, 15316, 16,
    23414, ⟨[[(0, 31051314372231168), (0, 1939677876740940), (2427678776, 0)], [(28368289884331063, 0), (0,
    1168160864582), (0, 1725488)], [(0, 13602231530621), (0, 33146321), (0, 1482)]], 2, 2⟩, ⟨[[(21211736106598400,
    0), (0, 4358157005915404), (17209659673, 0)]], 2, 2⟩, 72057594037927936, 33510593620855, 1075705934279, ⟨[], 0,
    0⟩, 0, 0, 0, lc0⟩ 1 1 38812804576) (.out ⟨2024, 16, 10031, 15347, 16, 23507, ⟨[[(0, 9211268443291648), (0,
    1960401122231349), (2254745346, 0)], [(28112109622071534, 0), (0, 1183979449505), (0, 2067742)], [(0,
    13781370911818), (0, 35100043), (0, 1607)]], 2, 2⟩, ⟨[[(0, 21013156584882176), (0, 4358171846660552),
    (17175670651, 0)]], 2, 2⟩, 72057594037927936, 34177916418718, 1071455294289, ⟨[], 0, 0⟩, 0, 0, 0, lc0⟩ 1 1
    31796241392))) (.sy (.sy (.out ⟨2031, 16, 9784, 15255, 16, 23228, ⟨[[(0, 18386755865608192), (0,
    1967979492992262), (2715544538, 0)], [(28047375335469720, 0), (0, 1152484822163), (0, 1215932)], [(0,
    12984045259526), (0, 25888266), (0, 1107)]], 2, 2⟩, ⟨[[(7433965734068224, 0), (0, 4358023394906832),
    (17277631554, 0)]], 2, 2⟩, 72057594037927936, 32068225212577, 1084257511968, ⟨[], 0, 0⟩, 0, 0, 0, lc0⟩ 1 1
    38791602578) (.out ⟨2041, 16, 9900, 15286, 16, 23321, ⟨[[(0, 3016227456155648), (0, 1988650282827870),
    (2553110888, 0)], [(27794166087005452, 0), (0, 1167532553384), (0, 1528392)], [(0, 13151424963809), (0,
    27364060), (0, 1209)]], 2, 2⟩, ⟨[[(0, 17326959077883904), (0, 4358107659364037), (17243647188, 0)]], 2, 2⟩,
    72057594037927936, 32704150745723, 1079973274510, ⟨[], 0, 0⟩, 0, 0, 0, lc0⟩ 1 1 31043383174)) (.sx (.sy (.out
    ⟨2808, 16, 13743, 15316, 16, 23414, ⟨[[(33811262345641984, 0), (0, 2740152527853692), (3288308658, 0)],
    [(19077240542717629, 0), (0, 811121147791), (0, 1257914)], [(0, 4605082540233), (0, 10326629), (0, 467)]], 2, 2⟩,
    ⟨[[(21211736106598400, 0), (0, 4358157005915404), (17209659673, 0)]], 2, 2⟩, 72057594037927936, 8402707608299,
    1075705934279, ⟨[], 0, 0⟩, 0, 0, 0, lc0⟩ 1 1 27266378171) (.sy (.out ⟨4123, 16, 20280, 30693, 16, 46990,
    ⟨[[(16469780397817856, 0), (0, 2020000128043000), (1133161409, 0)], [(27700604821522456, 0), (0, 599214853964),
    (0, 525924)], [(0, 6801374501880), (0, 7885983), (0, 182)]], 2, 2⟩, ⟨[[(0, 5124203542216704), (0,
    4360259151358218), (8596200057, 0)]], 2, 2⟩, 72057594037927936, 8485256988507, 268124797621, ⟨[], 0, 0⟩, 0, 0, 0,
    lc0⟩ 1 1 21625458768) (.out ⟨4134, 16, 20403, 30724, 16, 47084, ⟨[[(5926723608051712, 0), (0, 2031134580839610),
    (1084917794, 0)], [(27565844274949285, 0), (0, 603401712227), (0, 571775)], [(0, 6846654846354), (0, 8120672),
    (0, 189)]], 2, 2⟩, ⟨[[(0, 5711329526022144), (0, 4360346496863060), (8587872951, 0)]], 2, 2⟩, 72057594037927936,
    8572257956733, 267600046393, ⟨[], 0, 0⟩, 0, 0, 0, lc0⟩ 1 1 17919473382))) (.sy (.sy (.out ⟨4139, 16, 20140,
    30633, 16, 46805, ⟨[[(0, 3629766072926208), (0, 2033387073498335), (1211811911, 0)], [(27544041315261867, 0), (0,
    594716360683), (0, 454473)], [(0, 6641449725668), (0, 6909295), (0, 156)]], 2, 2⟩, ⟨[[(0, 19872663603511296), (0,
    4360337171862115), (8613403022, 0)]], 2, 2⟩, 72057594037927936, 8296314600651, 269194574397, ⟨[], 0, 0⟩, 0, 0, 0,
    lc0⟩ 1 1 21088344136) (.out ⟨4150, 16, 20262, 30663, 16, 46897, ⟨[[(0, 16269906060443648), (0, 2044507533963506),
    (1165067374, 0)], [(27410417268805333, 0), (0, 598798484021), (0, 498248)], [(0, 6685210580648), (0, 7112100),
    (0, 163)]], 2, 2⟩, ⟨[[(0, 33906178291400704), (0, 4360255876033724), (8604709571, 0)]], 2, 2⟩, 72057594037927936,
    8381204160802, 268656216048, ⟨[], 0, 0⟩, 0, 0, 0, lc0⟩ 1 1 17314975801)) (.sx (.sy (.out ⟨5656, 16, 27739, 30693,
    16, 46990, ⟨[[(13750878119133184, 0), (0, 2788785875218613), (1527036680, 0)], [(18653139323068602, 0), (0,
    410133382270), (0, 367313)], [(0, 2298355044611), (0, 2542890), (0, 59)]], 2, 2⟩, ⟨[[(0, 5124203542216704), (0,
    4360259151358218), (8596200057, 0)]], 2, 2⟩, 72057594037927936, 2147063765586, 268124797621, ⟨[], 0, 0⟩, 0, 0, 0,
    lc0⟩ 1 1 15656481105) (.out ⟨5661, 16, 27859, 30724, 16, 47084, ⟨[[(10986392019206144, 0), (0, 2799349057840184),
    (1456541304, 0)], [(18526960480495241, 0), (0, 412292716403), (0, 398300)], [(0, 2309594977983), (0, 2614431),
    (0, 61)]], 2, 2⟩, ⟨[[(0, 5711329526022144), (0, 4360346496863060), (8587872951, 0)]], 2, 2⟩, 72057594037927936,
    2178271180792, 267600046393, ⟨[], 0, 0⟩, 0, 0, 0, lc0⟩ 1 1 12073716793)) (.sy (.out ⟨5666, 16, 27732, 30693, 16,
    46990, ⟨[[(0, 30485112041570304), (0, 2805307797690695), (1511125299, 0)], [(18456181174499831, 0), (0,
    410239094300), (0, 372084)], [(0, 2279644785136), (0, 2438817), (0, 57)]], 2, 2⟩, ⟨[[(0, 5124203542216704), (0,
    4360259151358218), (8596200057, 0)]], 2, 2⟩, 72057594037927936, 2152625261469, 268124797621, ⟨[], 0, 0⟩, 0, 0, 0,
    lc0⟩ 1 1 11535860697) (.leaf ⟨7661, 16, 28408, 3652, 16, 16667, ⟨[[(31427080686665728, 0), (0, 2872176264834116),
    (1468077144, 0), (0, 53629), (0, 1)], [(18695013593839412, 0), (0, 420636913705), (0, 411310), (0, 20)], [(0,
    2336482768132), (0, 2557742), (0, 60)], [(147451515, 0), (862, 0)]], 3, 4⟩, ⟨[[(29447333513494528, 0), (0,
    2247000774787054), (0, 1746071998), (0, 79289), (0, 1)], [(0, 26277282101927061), (0, 96667457339), (0, 1651688),
    (0, 31)], [(885695392504, 0), (0, 1205645), (0, 130)], [(0, 28770907), (363, 0)]], 3, 4⟩, 72057594037927936,
    2645544220, 1536117415, ⟨[[(15621166771373, 0), (3351470949, 0), (0, 14322), (0, 328)], [(0, 2643742832), (0,
    598957), (27, 0)], [(480798, 0), (97, 0)], [(0, 83)]], 3, 4⟩, 17592186044416, 40573,
    12494788329396606440473747368807355410721146805551087713155868069818965413232951837748867232138188443143413965249249420230190864,
    lc0⟩))))))
theorem c48 : checkR job con0 true ⟨7, 9, 7, 9, 13, 17⟩ 1 28336 t48 999 21 2560 63247 251 64000 = true := by decide +kernel

def t49 : CTree :=
  .sx (.sy (.out ⟨2798, 16, 13989, 15377, 16, 23600, ⟨[[(0, 15266085488951296), (0, 2713555306069830), (2885236050,
    0)], [(19390286918373858, 0), (0, 826592353077), (0, 1650845)], [(0, 4848966371126), (0, 13239164), (0, 616)]],
    2, 2⟩, ⟨[[(165120590610432, 0), (0, 4358152588829617), (17141681733, 0)]], 2, 2⟩, 72057594037927936,
    8796623567960, 1067221600562, ⟨[], 0, 0⟩, 0, 0, 0, lc0⟩ 1 1 28257924442) (.sy (.out ⟨4090, 16, 20552, 30815, 16,
    47363, ⟨[[(0, 31661995945263104), (0, 1991781826220002), (976947091, 0)], [(28029749305338027, 0), (0,
    608158952719), (0, 673027)], [(0, 7131333391573), (0, 10074269), (0, 237)]], 2, 2⟩, ⟨[[(0, 30417921909981184),
    (0, 4360279441199200), (8562343892, 0)]], 2, 2⟩, 72057594037927936, 8868090200368, 266015301979, ⟨[], 0, 0⟩, 0,
    0, 0, lc0⟩ 1 1 23043983725) (.out ⟨4100, 16, 20677, 30845, 16, 47457, ⟨[[(34355839015780352, 0), (0,
    2002937818647127), (925848790, 0)], [(27892902849751832, 0), (0, 612560683880), (0, 723103)], [(0,
    7179856017576), (0, 10379337), (0, 247)]], 2, 2⟩, ⟨[[(23622792588296192, 0), (0, 4360332229293848), (8554015136,
    0)]], 2, 2⟩, 72057594037927936, 8959202143567, 265494621422, ⟨[], 0, 0⟩, 0, 0, 0, lc0⟩ 1 1 19833406379))) (.sy
    (.sy (.out ⟨4107, 16, 20417, 30754, 16, 47177, ⟨[[(0, 22152768402292736), (0, 2006096222127886), (1054794757,
    0)], [(27861928355201298, 0), (0, 603687057372), (0, 598808)], [(0, 6964523514477), (0, 8939903), (0, 209)]], 2,
    2⟩, ⟨[[(14373933478051840, 0), (0, 4360332564612657), (8579363020, 0)]], 2, 2⟩, 72057594037927936, 8675769933325,
    267070688021, ⟨[], 0, 0⟩, 0, 0, 0, lc0⟩ 1 1 21969502990) (.out ⟨4118, 16, 20541, 30784, 16, 47270, ⟨[[(0,
    30478200530075648), (0, 2017242602142631), (1005099049, 0)], [(27726097197794700, 0), (0, 607980491307), (0,
    646760)], [(0, 7011390261116), (0, 9208653), (0, 217)]], 2, 2⟩, ⟨[[(30153356064587776, 0), (0, 4360310196073096),
    (8570853302, 0)]], 2, 2⟩, 72057594037927936, 8764842145919, 266542431591, ⟨[], 0, 0⟩, 0, 0, 0, lc0⟩ 1 1
    18321260037)) (.sy (.out ⟨4129, 16, 20667, 30815, 16, 47363, ⟨[[(0, 21733124485611520), (0, 2028630061944986),
    (953574639, 0)], [(27588924953051307, 0), (0, 612386017311), (0, 696311)], [(0, 7059105416318), (0, 9488168), (0,
    226)]], 2, 2⟩, ⟨[[(0, 30417921909981184), (0, 4360279441199200), (8562343892, 0)]], 2, 2⟩, 72057594037927936,
    8855940971699, 266015301979, ⟨[], 0, 0⟩, 0, 0, 0, lc0⟩ 1 1 15246940384) (.sy (.out ⟨5408, 16, 27141, 61690, 16,
    94890, ⟨[[(7790387733397504, 0), (0, 1331591656559849), (298593442, 0)], [(35928319022152375, 0), (0,
    402461767831), (0, 240051)], [(0, 9275125158382), (0, 6343207), (0, 76)]], 2, 2⟩, ⟨[[(17645977794510848, 0), (0,
    4361376981447355), (4279085881, 0)]], 2, 2⟩, 72057594037927936, 10924106266616, 66406144943, ⟨[], 0, 0⟩, 0, 0, 0,
    lc0⟩ 1 1 12752575157) (.out ⟨5420, 16, 27249, 61721, 16, 94984, ⟨[[(22738050200895488, 0), (0, 1336594293392228),
    (289959292, 0)], [(35868384557072396, 0), (0, 404309113272), (0, 248772)], [(0, 9315249203764), (0, 6445646), (0,
    78)]], 2, 2⟩, ⟨[[(0, 3083308335366144), (0, 4361400168776155), (4277002087, 0)]], 2, 2⟩, 72057594037927936,
    10984877582641, 66341203608, ⟨[], 0, 0⟩, 0, 0, 0, lc0⟩ 1 1 11242876222))))
theorem c49 : checkR job con0 true ⟨7, 9, 7, 9, 13, 17⟩ 1 28336 t49 1977 21 5120 127247 251 128000 = true := by decide +kernel

def t50 : CTree :=
  .sx (.sy (.sy (.out ⟨4112, 16, 20804, 30875, 16, 47550, ⟨[[(0, 26949517403947008), (0, 2014334116046586),
    (872889819, 0)], [(27754642091506700, 0), (0, 617077196673), (0, 774840)], [(0, 7229261002835), (0, 10696348),
    (0, 256)]], 2, 2⟩, ⟨[[(26514818685206528, 0), (0, 4360284669735225), (8545506101, 0)]], 2, 2⟩, 72057594037927936,
    9052376813905, 264969408535, ⟨[], 0, 0⟩, 0, 0, 0, lc0⟩ 1 1 16107138386) (.out ⟨4123, 16, 20933, 30906, 16, 47644,
    ⟨[[(281872320626688, 0), (0, 2025972803317354), (818007231, 0)], [(27614847043259904, 0), (0, 621710620104), (0,
    828291)], [(0, 7279556236259), (0, 11025691), (0, 266)]], 2, 2⟩, ⟨[[(0, 163108105224192), (0, 4360320391248266),
    (8537176852, 0)]], 2, 2⟩, 72057594037927936, 9147642616186, 264450838651, ⟨[], 0, 0⟩, 0, 0, 0, lc0⟩ 1 1
    13206764262)) (.sx (.sy (.out ⟨5636, 16, 28742, 30937, 16, 47738, ⟨[[(16282089208741888, 0), (0,
    2771697397514830), (1051193536, 0)], [(18849075252129758, 0), (0, 427242919049), (0, 598795)], [(0,
    2510639873133), (0, 3937707), (0, 95)]], 2, 2⟩, ⟨[[(0, 31175409313775616), (0, 4360347564566761), (8528847239,
    0)]], 2, 2⟩, 72057594037927936, 2365975080842, 263933360914, ⟨[], 0, 0⟩, 0, 0, 0, lc0⟩ 1 1 12223891038) (.leaf
    ⟨7701, 16, 29445, 3585, 16, 16428, ⟨[[(0, 27473567122718720), (0, 2838452984887998), (989124499, 0), (0, 58911),
    (0, 1)], [(19090225031403657, 0), (0, 438326554270), (0, 649058), (0, 24)], [(0, 2574097539408), (0, 4133727),
    (0, 101)], [(162045152, 0), (991, 0)]], 3, 4⟩, ⟨[[(0, 33262071643963392), (0, 2200611078892773), (0, 2204889768),
    (0, 88985), (0, 1)], [(0, 26827812320700227), (0, 108413081864), (0, 1926550), (0, 34)], [(890900039011, 0), (0,
    2714329), (0, 169)], [(0, 29793190), (415, 0)]], 3, 4⟩, 72057594037927936, 2480586309, 1973120375,
    ⟨[[(16207327322365, 0), (3546558514, 0), (0, 2879), (0, 365)], [(0, 2769502418), (0, 633475), (2, 0)], [(504681,
    0), (104, 0)], [(0, 89)]], 3, 4⟩, 17592186044416, 46246,
    13272408467886034189330961846066028202789044868719904591567571571898595728256775365036182601233759681322515338142847684194213899,
    lc0⟩)) (.leaf ⟨4689, 16, 17882, 2392, 16, 10988, ⟨[[(26125477936037888, 0), (0, 3470564273643310), (2445159380,
    0), (0, 288021), (0, 6)], [(11529576201325122, 0), (0, 532412982985), (0, 1553204), (0, 116)], [(0,
    1550276555909), (0, 4808936), (0, 235)], [(97789799, 0), (1204, 0)]], 3, 4⟩, ⟨[[(17246427122761728, 0), (0,
    2948377863070991), (0, 5935513304), (0, 476628), (0, 14)], [(0, 17875891419624771), (0, 144033352903), (0,
    5123686), (0, 181)], [(593834502766, 0), (0, 3448786), (0, 440)], [(0, 19683276), (561, 0)]], 3, 4⟩,
    72057594037927936, 1560141485, 1882162641, ⟨[[(16121092789556, 0), (5283443447, 0), (14545, 0), (0, 1166), (0,
    2)], [(0, 4518138513), (0, 1549390), (0, 1), (1, 0)], [(1351514, 0), (414, 0)], [(0, 391)]], 3, 4⟩,
    17592186044416, 73807,
    12217629186164169078768682340857755686647395265517724973162324871082014297121798014409304206995900216932363131787879067529577258,
    lc0⟩))) (.sy (.sx (.sy (.sy (.out ⟨8302, 16, 41847, 61751, 16, 95077, ⟨[[(0, 13092255527075840), (0,
    2045680764048189), (434174332, 0)], [(27536670614529524, 0), (0, 310542739086), (0, 195772)], [(0,
    3591878302147), (0, 2547244), (0, 31)]], 2, 2⟩, ⟨[[(0, 733094263914496), (0, 4361375326607913), (4274873266,
    0)]], 2, 2⟩, 72057594037927936, 2256696944327, 66275469927, ⟨[], 0, 0⟩, 0, 0, 0, lc0⟩ 1 1 11382216089) (.out
    ⟨8313, 16, 41976, 61782, 16, 95171, ⟨[[(8359330169094144, 0), (0, 2051557327393919), (420179517, 0)],
    [(27465133743454360, 0), (0, 311700250588), (0, 202469)], [(0, 3604241290153), (0, 2586240), (0, 31)]], 2, 2⟩,
    ⟨[[(0, 25791830295576576), (0, 4361394250449399), (4272789416, 0)]], 2, 2⟩, 72057594037927936, 2268570168786,
    66210497286, ⟨[], 0, 0⟩, 0, 0, 0, lc0⟩ 1 1 9916009174)) (.leaf ⟨7694, 16, 29184, 3598, 16, 16491, ⟨[[(0,
    7924026750074880), (0, 2851853087450064), (1103696307, 0), (0, 57862), (0, 1)], [(18931991538679598, 0), (0,
    433855628226), (0, 588840), (0, 23)], [(0, 2507231118009), (0, 3662453), (0, 89)], [(158098222, 0), (962, 0)]],
    3, 4⟩, ⟨[[(0, 10584079988293632), (0, 2213711236487545), (0, 2107371091), (0, 86862), (0, 1)], [(0,
    26673304487546904), (0, 105440621423), (0, 1860335), (0, 33)], [(889362061983, 0), (0, 2292808), (0, 158)], [(0,
    29394566), (407, 0)]], 3, 4⟩, 72057594037927936, 2461190362, 1834173378, ⟨[[(16035438838708, 0), (3494398935, 0),
    (0, 1776), (0, 349)], [(0, 2731873404), (0, 624021), (7, 0)], [(497234, 0), (102, 0)], [(0, 87)]], 3, 4⟩,
    17592186044416, 44837,
    11253701401637037409859327139390260763781285808666842991322802379247988554464590908568236107872923714381376593458283165585928122,
    lc0⟩)) (.leaf ⟨4677, 16, 17691, 2397, 16, 11009, ⟨[[(0, 24551970588393472), (0, 3480289683623212), (2722687205,
    0), (0, 282249), (0, 6)], [(11415226823385318, 0), (0, 526005646028), (0, 1403619), (0, 111)], [(0,
    1507272511450), (0, 4240380), (0, 206)], [(95226957, 0), (1165, 0)]], 3, 4⟩, ⟨[[(0, 26388065219837952), (0,
    2960117346379158), (0, 5660566311), (0, 464333), (0, 14)], [(0, 17739074507710001), (0, 139786232239), (0,
    4936155), (0, 176)], [(591632264029, 0), (0, 2888249), (0, 410)], [(0, 19394554), (547, 0)]], 3, 4⟩,
    72057594037927936, 1185550366, 1487665502, ⟨[[(15951381999369, 0), (5214451199, 0), (13364, 0), (0, 1128), (0,
    2)], [(0, 4464127018), (0, 1531592), (19, 0), (1, 0)], [(1336015, 0), (406, 0)], [(0, 384)]], 3, 4⟩,
    17592186044416, 73317,
    10380095829869818632218390170712074016257595633545027136899739891491744120406498129444783047512609860209662960559624590383495854,
    lc0⟩)) (.leaf ⟨3848, 16, 14641, 1778, 16, 8220, ⟨[[(0, 26748774743670784), (0, 2869024451337174), (1921119206,
    0), (0, 241819), (0, 5)], [(18561864967571365, 0), (0, 872801578103), (0, 2590911), (0, 191)], [(0,
    5016881626614), (0, 14998520), (0, 739)], [(635947542, 0), (8006, 0)]], 3, 4⟩, ⟨[[(0, 4314282082828288), (0,
    2212446896431509), (0, 4683066822), (0, 365110), (0, 11)], [(0, 26633908371229812), (0, 216139499552), (0,
    7748093), (0, 273)], [(1765962625754, 0), (0, 9995566), (0, 1290)], [(0, 115041324), (3509, 0)]], 3, 4⟩,
    72057594037927936, 8687030568, 6393935058, ⟨[[(15991951727940, 0), (7038617031, 0), (116456, 0), (0, 2516), (0,
    5)], [(0, 5454028445), (0, 2514344), (0, 72), (2, 0)], [(1988061, 0), (801, 0), (1, 0)], [(0, 699)]], 3, 4⟩,
    17592186044416, 118021,
    7717093208554613930521417088496878486734777020124765134553671246591467431621437950799222493607376502888769895441412932411290504,
    lc0⟩))
theorem c50 : checkR job con0 true ⟨7, 9, 7, 9, 13, 17⟩ 1 28336 t50 1977 21 5120 127749 251 128000 = true := by decide +kernel

def t51 : CTree :=
  .sy (.sx (.sy (.sy (.out ⟨4145, 16, 20527, 30754, 16, 47177, ⟨[[(0, 1812917195177984), (0, 2042411350664079),
    (1034829336, 0)], [(27428479507029571, 0), (0, 607668408297), (0, 619134)], [(0, 6892415563793), (0, 8364610),
    (0, 197)]], 2, 2⟩, ⟨[[(14373933478051840, 0), (0, 4360332564612657), (8579363020, 0)]], 2, 2⟩, 72057594037927936,
    8660818958955, 267070688021, ⟨[], 0, 0⟩, 0, 0, 0, lc0⟩ 1 1 14236833308) (.sy (.out ⟨5440, 16, 27012, 61569, 16,
    94517, ⟨[[(31502486176333824, 0), (0, 1343328456010827), (326183755, 0)], [(35792647560199674, 0), (0,
    400138173945), (0, 214723)], [(0, 9074085776213), (0, 5602524), (0, 67)]], 2, 2⟩, ⟨[[(3363945891495936, 0), (0,
    4361400962490109), (4287556379, 0)]], 2, 2⟩, 72057594037927936, 10701935317744, 66668937945, ⟨[], 0, 0⟩, 0, 0, 0,
    lc0⟩ 1 1 11887392846) (.out ⟨5453, 16, 27119, 61599, 16, 94610, ⟨[[(0, 29297001190850560), (0, 1348325712997842),
    (317803313, 0)], [(35732709482026331, 0), (0, 401943392464), (0, 223066)], [(0, 9112870599248), (0, 5692335), (0,
    68)]], 2, 2⟩, ⟨[[(16450736151330816, 0), (0, 4361386608247291), (4285427407, 0)]], 2, 2⟩, 72057594037927936,
    10761144589450, 66602815139, ⟨[], 0, 0⟩, 0, 0, 0, lc0⟩ 1 1 9853925631))) (.leaf ⟨3831, 16, 14385, 1806, 16, 8276,
    ⟨[[(0, 23865420875988992), (0, 2859195929681265), (2488029337, 0), (0, 225267), (0, 5)], [(18686289108457557, 0),
    (0, 854065849223), (0, 2055232), (0, 175)], [(0, 4837677222420), (0, 12447081), (0, 601)], [(611176065, 0),
    (7369, 0)]], 3, 4⟩, ⟨[[(0, 31336480651231232), (0, 2227649434632777), (0, 3967815872), (0, 336608), (0, 10)],
    [(0, 26454995225668788), (0, 203376227131), (0, 7104182), (0, 257)], [(1772037335734, 0), (0, 7181707), (0,
    1155)], [(0, 115670289), (3148, 0)]], 3, 4⟩, 72057594037927936, 8473632479, 5679737512, ⟨[[(15827029688782, 0),
    (6866951568, 0), (0, 6662), (0, 2666), (0, 5)], [(0, 5388517428), (0, 2459792), (108, 0), (3, 0)], [(1965169, 0),
    (796, 0), (1, 0)], [(0, 685)]], 3, 4⟩, 17592186044416, 123914,
    14438260235273964467706029189474433805905267086209808237730833092759603988827280331009292504072366962713657272952402766909481389,
    lc0⟩)) (.leaf ⟨2320, 16, 8664, 1197, 16, 5512, ⟨[[(0, 17783278353940480), (0, 3488892994207625), (6201134352, 0),
    (0, 1096855), (0, 48)], [(11141019407301774, 0), (0, 1028777401684), (0, 4751940), (0, 833)], [(0,
    2865831611130), (0, 13531754), (0, 1307)], [(363375116, 0), (8839, 0), (1, 0)]], 3, 4⟩, ⟨[[(35374975891472384,
    0), (0, 2975955232867602), (0, 10684249636), (0, 1796435), (0, 108)], [(0, 17487083244491371), (0, 266937652959),
    (0, 18665541), (0, 1355)], [(1171734738738, 0), (0, 8282546), (0, 2919)], [(0, 75377631), (4238, 0), (1, 0)]], 3,
    4⟩, 72057594037927936, 11386217108, 12462788557, ⟨[[(15655331255517, 0), (10232808196, 0), (140076, 0), (0,
    8251), (0, 24)], [(0, 8776173454), (0, 6053987), (230, 0), (14, 0)], [(5281934, 0), (3182, 0), (3, 0)], [(0,
    3024), (0, 2)]], 3, 4⟩, 17592186044416, 314851,
    13057421018981609615864184839471060476803875189077465934946416459297405362539294641815978623120055123951787037383719717590785438,
    lc0⟩)) (.sx (.leaf ⟨2327, 16, 8807, 1181, 16, 5486, ⟨[[(0, 874392361566208), (0, 3496890915690259), (4805517412,
    0), (0, 1177137), (0, 50)], [(11045904343236881, 0), (0, 1049939627805), (0, 6031399), (0, 913)], [(0,
    2967748967329), (0, 16404913), (0, 1621)], [(377690552, 0), (9615, 0), (1, 0)]], 3, 4⟩, ⟨[[(30333094840238080,
    0), (0, 2962035856336999), (0, 12630528850), (0, 1952558), (0, 115)], [(0, 17640762554317720), (0, 284402819153),
    (0, 20420400), (0, 1444)], [(1170620625371, 0), (0, 11905036), (0, 3271)], [(0, 74997790), (4746, 0), (1, 0)]],
    3, 4⟩, 72057594037927936, 11626525078, 13448680042, ⟨[[(15822192844832, 0), (10466075481, 0), (394393, 0), (0,
    7753), (0, 24)], [(0, 8898265821), (0, 6179215), (0, 374), (11, 0)], [(5359496, 0), (3198, 0), (4, 0)], [(0,
    3097), (0, 2)]], 3, 4⟩, 17592186044416, 365311,
    13683804118096634821715364259752428244023324799166316194856411372576324889900261934318900031603273017786388254511437666192922818,
    lc0⟩) (.leaf ⟨2321, 16, 8761, 1170, 16, 5481, ⟨[[(11998487527849984, 0), (0, 3522521455164592), (4525637544, 0),
    (0, 1209379), (0, 52)], [(10742203391773573, 0), (0, 1045775551952), (0, 6131029), (0, 920)], [(0,
    2905134211790), (0, 15102828), (0, 1509)], [(372128609, 0), (9742, 0), (1, 0)]], 3, 4⟩, ⟨[[(7198733929005056, 0),
    (0, 2971290881763504), (0, 13481598312), (0, 2011690), (0, 117)], [(0, 17526834529561374), (0, 285117190510), (0,
    20672093), (0, 1458)], [(1160257124167, 0), (0, 11281126), (0, 3167)], [(0, 72647240), (4987, 0), (1, 0)]], 3,
    4⟩, 72057594037927936, 11189028768, 13729664564, ⟨[[(15663816389435, 0), (10427498996, 0), (608597, 0), (0,
    6797), (0, 22)], [(0, 8817418647), (0, 6167987), (0, 639), (9, 0)], [(5326891, 0), (3131, 0), (3, 0)], [(0,
    3078), (0, 2)]], 3, 4⟩, 17592186044416, 356651,
    15005446754038065635881111179252870791954135583934331264582032206688969354788269571595130825566126710553796634878501114972429852,
    lc0⟩))
theorem c51 : checkR job con0 true ⟨7, 9, 7, 9, 13, 17⟩ 1 28336 t51 2019 21 5120 63749 251 64000 = true := by decide +kernel

def t52 : CTree :=
  .sy (.out ⟨996, 16, 4506, 7506, 16, 11258, ⟨[[(0, 27945741728735232), (0, 1902748597979210), (7271675085, 0)],
    [(28360467350221525, 0), (0, 2123679100402), (2041257, 0)], [(0, 22698386680071), (0, 55385166), (0, 2812)]], 2,
    2⟩, ⟨[[(0, 15685625368543232), (0, 4353431925168580), (35041911902, 0)]], 2, 2⟩, 72057594037927936,
    110159857714435, 4469339251424, ⟨[], 0, 0⟩, 0, 0, 0, lc0⟩ 1 1 85625937467) (.out ⟨1005, 16, 4608, 7537, 16,
    11350, ⟨[[(0, 27465774092115968), (0, 1938639953460777), (6857913861, 0)], [(27912618300704780, 0), (0,
    2170481129297), (417910, 0)], [(0, 23241424256881), (0, 59937847), (0, 3706)]], 2, 2⟩, ⟨[[(0, 24089212366028800),
    (0, 4353752271190560), (34903455039, 0)]], 2, 2⟩, 72057594037927936, 114209237362032, 4433728265218, ⟨[], 0, 0⟩,
    0, 0, 0, lc0⟩ 1 1 64429500229)
theorem c52 : checkR job con0 true ⟨7, 9, 7, 9, 13, 17⟩ 1 28336 t52 1041 21 2560 62243 251 64000 = true := by decide +kernel

def t53 : CTree :=
  .sx (.sy (.out ⟨1395, 16, 6512, 7567, 16, 11441, ⟨[[(6783167147376640, 0), (0, 2698184428949235), (8815205357, 0)],
    [(19301087802253428, 0), (0, 1532996023064), (0, 925537)], [(0, 8351240489500), (0, 25101476), (0, 1827)]], 2,
    2⟩, ⟨[[(0, 25931500465750016), (0, 4353547078661877), (34761911854, 0)]], 2, 2⟩, 72057594037927936,
    29308137311609, 4398012930548, ⟨[], 0, 0⟩, 0, 0, 0, lc0⟩ 1 1 54326186265) (.sy (.out ⟨2046, 16, 9650, 15195, 16,
    23044, ⟨[[(35673152798097408, 0), (0, 1994468838419484), (3004026649, 0)], [(27746321538997547, 0), (0,
    1136660836472), (0, 727987)], [(0, 12389940403166), (0, 19693362), (0, 778)]], 2, 2⟩, ⟨[[(0, 18616689524736000),
    (0, 4358126683079677), (17347089663, 0)]], 2, 2⟩, 72057594037927936, 30655710141259, 1092971146599, ⟨[], 0, 0⟩,
    0, 0, 0, lc0⟩ 1 1 40456075000) (.out ⟨2056, 16, 9763, 15225, 16, 23136, ⟨[[(29698266469466112, 0), (0,
    2014865482261821), (2852367685, 0)], [(27493732796493312, 0), (0, 1150847368295), (0, 1011400)], [(0,
    12545230759516), (0, 20749673), (0, 858)]], 2, 2⟩, ⟨[[(0, 1254520556748800), (0, 4358092163947103), (17312359381,
    0)]], 2, 2⟩, 72057594037927936, 31256534530309, 1088605529745, ⟨[], 0, 0⟩, 0, 0, 0, lc0⟩ 1 1 31467288460))) (.sy
    (.sy (.out ⟨2061, 16, 9512, 15134, 16, 22860, ⟨[[(0, 2497967571795968), (0, 2019287079540928), (3291053438, 0)],
    [(27465348608024716, 0), (0, 1120840027614), (0, 264480)], [(0, 11819803021055), (0, 14481361), (0, 491)]], 2,
    2⟩, ⟨[[(0, 7513292911280128), (0, 4358091312596523), (17416551022, 0)]], 2, 2⟩, 72057594037927936,
    29280291891639, 1101754948329, ⟨[], 0, 0⟩, 0, 0, 0, lc0⟩ 1 1 41358642142) (.out ⟨2071, 16, 9623, 15164, 16,
    22952, ⟨[[(0, 14748906849075200), (0, 2039597300986788), (3150829935, 0)], [(27216538618459035, 0), (0,
    1134314069461), (0, 520074)], [(0, 11965218198883), (0, 15177263), (0, 553)]], 2, 2⟩, ⟨[[(27352954522304512, 0),
    (0, 4358126538795518), (17381820766, 0)]], 2, 2⟩, 72057594037927936, 29849214773677, 1097354264161, ⟨[], 0, 0⟩,
    0, 0, 0, lc0⟩ 1 1 31579852837)) (.sx (.sy (.out ⟨2827, 16, 13252, 15195, 16, 23044, ⟨[[(0, 14210621977329664),
    (0, 2788127743491083), (4092825987, 0)], [(18521806008361442, 0), (0, 781256982075), (0, 530896)], [(0,
    4154690074025), (0, 5762593), (0, 225)]], 2, 2⟩, ⟨[[(0, 18616689524736000), (0, 4358126683079677), (17347089663,
    0)]], 2, 2⟩, 72057594037927936, 7626422719779, 1092971146599, ⟨[], 0, 0⟩, 0, 0, 0, lc0⟩ 1 1 27400425173) (.sy
    (.out ⟨4182, 16, 19708, 30450, 16, 46249, ⟨[[(20753222036226048, 0), (0, 2070975855424631), (1448084148, 0)],
    [(27107543311172931, 0), (0, 581268250540), (0, 249919)], [(0, 6182012928758), (0, 4415700), (0, 90)]], 2, 2⟩,
    ⟨[[(747023668609024, 0), (0, 4360272419301043), (8664829982, 0)]], 2, 2⟩, 72057594037927936, 7742913636589,
    272423463018, ⟨[], 0, 0⟩, 0, 0, 0, lc0⟩ 1 1 21112892626) (.out ⟨4193, 16, 19826, 30480, 16, 46341, ⟨[[(0,
    12970653998252032), (0, 2081938461141420), (1405980561, 0)], [(26976237302588968, 0), (0, 585019091163), (0,
    287657)], [(0, 6221280299845), (0, 4535003), (0, 95)]], 2, 2⟩, ⟨[[(12676792137547776, 0), (0, 4360242245284914),
    (8656134785, 0)]], 2, 2⟩, 72057594037927936, 7821044321675, 271878695772, ⟨[], 0, 0⟩, 0, 0, 0, lc0⟩ 1 1
    16692826554))) (.sy (.sy (.out ⟨4195, 16, 19560, 30389, 16, 46065, ⟨[[(29509244584329216, 0), (0,
    2082626549212512), (1526407245, 0)], [(26971970524905664, 0), (0, 576808154093), (0, 185288)], [(0,
    6035302908040), (0, 3720016), (0, 71)]], 2, 2⟩, ⟨[[(35908614701449216, 0), (0, 4360306990156117), (8682221198,
    0)]], 2, 2⟩, 72057594037927936, 7563370746886, 273516226865, ⟨[], 0, 0⟩, 0, 0, 0, lc0⟩ 1 1 21434428962) (.out
    ⟨4206, 16, 19676, 30420, 16, 46157, ⟨[[(0, 21573088112082944), (0, 2093460713001197), (1485849199, 0)],
    [(26840602221016064, 0), (0, 580433384242), (0, 221088)], [(0, 6072991831497), (0, 3815271), (0, 75)]], 2, 2⟩,
    ⟨[[(0, 15523894163931136), (0, 4360294018136797), (8673525487, 0)]], 2, 2⟩, 72057594037927936, 7638977320472,
    272969351760, ⟨[], 0, 0⟩, 0, 0, 0, lc0⟩ 1 1 17100681581)) (.sx (.sy (.out ⟨5689, 16, 26732, 30450, 16, 46249,
    ⟨[[(0, 12356361656991744), (0, 2833920329526774), (1953390965, 0)], [(18121807748415479, 0), (0, 394397544207),
    (0, 173157)], [(0, 2071571029382), (0, 1366002), (0, 28)]], 2, 2⟩, ⟨[[(747023668609024, 0), (0,
    4360272419301043), (8664829982, 0)]], 2, 2⟩, 72057594037927936, 1946790732371, 272423463018, ⟨[], 0, 0⟩, 0, 0, 0,
    lc0⟩ 1 1 14932808542) (.sy (.out ⟨8454, 16, 39830, 60961, 16, 92660, ⟨[[(11032970836574208, 0), (0,
    2110153440552946), (708123730, 0)], [(26779747377190939, 0), (0, 293923438235), (0, 71355)], [(0, 3087360339306),
    (0, 1033440), (0, 11)]], 2, 2⟩, ⟨[[(5041372303196160, 0), (0, 4361380237274088), (4330275866, 0)]], 2, 2⟩,
    72057594037927936, 1946085747172, 68004640936, ⟨[], 0, 0⟩, 0, 0, 0, lc0⟩ 1 1 11974008336) (.out ⟨8465, 16, 39949,
    60991, 16, 92752, ⟨[[(0, 23821154570731520), (0, 2115751487407062), (697014181, 0)], [(26711748342945438, 0), (0,
    294875776074), (0, 76217)], [(0, 3097107493396), (0, 1047398), (0, 11)]], 2, 2⟩, ⟨[[(14238226760335360, 0), (0,
    4361361890068844), (4328100438, 0)]], 2, 2⟩, 72057594037927936, 1955960992213, 67936608034, ⟨[], 0, 0⟩, 0, 0, 0,
    lc0⟩ 1 1 9827209954))) (.sy (.sy (.out ⟨8467, 16, 39677, 60900, 16, 92475, ⟨[[(0, 27258188310249472), (0,
    2115783630088306), (728612033, 0)], [(26713540697611139, 0), (0, 292742798251), (0, 62823)], [(0, 3050161099124),
    (0, 943609), (0, 9)]], 2, 2⟩, ⟨[[(4752548879138816, 0), (0, 4361363365224965), (4334579995, 0)]], 2, 2⟩,
    72057594037927936, 1923147969475, 68139975647, ⟨[], 0, 0⟩, 0, 0, 0, lc0⟩ 1 1 11980467004) (.out ⟨8477, 16, 39796,
    60931, 16, 92568, ⟨[[(16816524777619456, 0), (0, 2121402156777753), (717726131, 0)], [(26646246547511872, 0), (0,
    293686340214), (0, 67559)], [(0, 3059786714106), (0, 956050), (0, 10)]], 2, 2⟩, ⟨[[(0, 6320625206427648), (0,
    4361396452003943), (4332451345, 0)]], 2, 2⟩, 72057594037927936, 1932915906117, 68072656939, ⟨[], 0, 0⟩, 0, 0, 0,
    lc0⟩ 1 1 10130499993)) (.leaf ⟨7624, 16, 27369, 3710, 16, 16903, ⟨[[(0, 5977898480041984), (0, 2916447947559027),
    (1919710517, 0), (0, 48842), (0, 1)], [(18173371643255619, 0), (0, 404102335451), (0, 204884), (0, 17)], [(0,
    2104813496573), (0, 1335459), (0, 28)], [(133223689, 0), (733, 0)]], 3, 4⟩, ⟨[[(0, 24932488478851072), (0,
    2297096086751549), (0, 1373151934), (0, 71379), (0, 1)], [(0, 25685152003461251), (0, 86081052278), (0, 1400530),
    (0, 27)], [(871885213757, 0), (27420, 0), (0, 96)], [(0, 27702349), (309, 0)]], 3, 4⟩, 72057594037927936,
    2665354893, 963639426, ⟨[[(15003056119340, 0), (3161314551, 0), (0, 10981), (0, 277)], [(0, 2511217484), (0,
    565644), (41, 0)], [(456644, 0), (90, 0)], [(0, 78)]], 3, 4⟩, 17592186044416, 35243,
    10676939534101410287069407893541130940459749965203466353460428378260164333965916760826182898734933444827097873660059208361286451,
    lc0⟩))))))
theorem c53 : checkR job con0 true ⟨7, 9, 7, 9, 13, 17⟩ 1 28336 t53 1041 21 2560 62745 251 64000 = true := by decide +kernel

def t54 : CTree :=
  .sx (.sy (.out ⟨1404, 16, 6277, 7506, 16, 11258, ⟨[[(0, 17230821170544640), (0, 2743845360158019), (10215997737,
    0)], [(18780216477221251, 0), (0, 1481223110974), (1329121, 0)], [(0, 7546245872764), (0, 13196020), (0, 484)]],
    2, 2⟩, ⟨[[(0, 15685625368543232), (0, 4353431925168580), (35041911902, 0)]], 2, 2⟩, 72057594037927936,
    26487155755639, 4469339251424, ⟨[], 0, 0⟩, 0, 0, 0, lc0⟩ 1 1 59274794378) (.sy (.out ⟨2074, 16, 9370, 15073, 16,
    22677, ⟨[[(6799547612102656, 0), (0, 2042374939897363), (3574446221, 0)], [(27201935688713868, 0), (0,
    1105042645075), (172548, 0)], [(0, 11272198960718), (0, 10167892), (0, 243)]], 2, 2⟩, ⟨[[(16160850964774912, 0),
    (0, 4358106096887738), (17486773279, 0)]], 2, 2⟩, 72057594037927936, 27945007520221, 1110658006750, ⟨[], 0, 0⟩,
    0, 0, 0, lc0⟩ 1 1 43753892816) (.out ⟨2084, 16, 9479, 15103, 16, 22768, ⟨[[(0, 11496357005557760), (0,
    2062587866168931), (3445924197, 0)], [(26957212572100901, 0), (0, 1117837294448), (0, 56460)], [(0,
    11408556338584), (0, 10555264), (0, 290)]], 2, 2⟩, ⟨[[(20846817553940480, 0), (0, 4358020580928539),
    (17451278730, 0)]], 2, 2⟩, 72057594037927936, 28482219800959, 1106173231935, ⟨[], 0, 0⟩, 0, 0, 0, lc0⟩ 1 1
    33689267902))) (.sy (.sy (.out ⟨2086, 16, 9226, 15012, 16, 22494, ⟨[[(19409810836684800, 0), (0,
    2064115551059143), (3853015926, 0)], [(26959509077057018, 0), (0, 1089513313965), (581736, 0)], [(0,
    10748087266556), (0, 6670702), (0, 32)]], 2, 2⟩, ⟨[[(4468431855550464, 0), (0, 4357978519489763), (17556990075,
    0)]], 2, 2⟩, 72057594037927936, 26657958599646, 1119632795260, ⟨[], 0, 0⟩, 0, 0, 0, lc0⟩ 1 1 47573750278) (.out
    ⟨2096, 16, 9332, 15042, 16, 22585, ⟨[[(0, 21088727242768384), (0, 2083998244110039), (3735897121, 0)],
    [(26716165367093748, 0), (0, 1101545137169), (377873, 0)], [(0, 10874972979268), (0, 6796238), (0, 65)]], 2, 2⟩,
    ⟨[[(26794632610316288, 0), (0, 4357963839607923), (17521495329, 0)]], 2, 2⟩, 72057594037927936, 27161082338237,
    1115111774015, ⟨[], 0, 0⟩, 0, 0, 0, lc0⟩ 1 1 36422886185)) (.sx (.sy (.out ⟨2841, 16, 12761, 15073, 16, 22677,
    ⟨[[(0, 22085063328464896), (0, 2828928570757585), (4875158331, 0)], [(18045231691877940, 0), (0, 752862458815),
    (109334, 0)], [(0, 3748409600626), (0, 2630056), (0, 47)]], 2, 2⟩, ⟨[[(16160850964774912, 0), (0,
    4358106096887738), (17486773279, 0)]], 2, 2⟩, 72057594037927936, 6878035330172, 1110658006750, ⟨[], 0, 0⟩, 0, 0,
    0, lc0⟩ 1 1 30886512490) (.sy (.out ⟨4231, 16, 19107, 30207, 16, 45514, ⟨[[(17494184452358144, 0), (0,
    2115173980422895), (1758221856, 0)], [(26594663589424463, 0), (0, 563600371555), (0, 2968)], [(0, 5613973586442),
    (0, 1997914), (0, 21)]], 2, 2⟩, ⟨[[(11924044106694656, 0), (0, 4360296529335587), (8734585865, 0)]], 2, 2⟩,
    72057594037927936, 7041969232824, 276826946169, ⟨[], 0, 0⟩, 0, 0, 0, lc0⟩ 1 1 24215455067) (.out ⟨4241, 16,
    19219, 30237, 16, 45605, ⟨[[(16518926322630656, 0), (0, 2125819958641677), (1722514754, 0)], [(26465965111133739,
    0), (0, 566922185216), (0, 33271)], [(0, 5647895527336), (0, 2032085), (0, 24)]], 2, 2⟩, ⟨[[(11126575839576064,
    0), (0, 4360240618891431), (8725699206, 0)]], 2, 2⟩, 72057594037927936, 7110930937160, 276267344975, ⟨[], 0, 0⟩,
    0, 0, 0, lc0⟩ 1 1 19578498861))) (.sy (.sy (.out ⟨4242, 16, 18953, 30146, 16, 45331, ⟨[[(0, 2453489889968128),
    (0, 2125202520890337), (1833996732, 0)], [(26477690404355788, 0), (0, 559256492956), (53810, 0)], [(0,
    5479458926204), (0, 1535572), (0, 7)]], 2, 2⟩, ⟨[[(24591717687099392, 0), (0, 4360286276628755), (8752167879,
    0)]], 2, 2⟩, 72057594037927936, 6874147910280, 277943466480, ⟨[], 0, 0⟩, 0, 0, 0, lc0⟩ 1 1 25379091163) (.out
    ⟨4252, 16, 19064, 30176, 16, 45422, ⟨[[(0, 5507647245123584), (0, 2135819247537018), (1799947525, 0)],
    [(26350379698841164, 0), (0, 562491934961), (25238, 0)], [(0, 5512327202056), (0, 1552670), (0, 9)]], 2, 2⟩,
    ⟨[[(32556609223262208, 0), (0, 4360247834452055), (8743280658, 0)]], 2, 2⟩, 72057594037927936, 6941046199206,
    277381667974, ⟨[], 0, 0⟩, 0, 0, 0, lc0⟩ 1 1 20545689074)) (.sy (.out ⟨4262, 16, 19176, 30207, 16, 45514, ⟨[[(0,
    4125151353307136), (0, 2146572366219315), (1764414623, 0)], [(26221160845902738, 0), (0, 565785924804), (0,
    4342)], [(0, 5545498349863), (0, 1572095), (0, 11)]], 2, 2⟩, ⟨[[(11924044106694656, 0), (0, 4360296529335587),
    (8734585865, 0)]], 2, 2⟩, 72057594037927936, 7009217379846, 276826946169, ⟨[], 0, 0⟩, 0, 0, 0, lc0⟩ 1 1
    16017272289) (.sy (.out ⟨5680, 16, 25626, 60475, 16, 91188, ⟨[[(35836769698316288, 0), (0, 1433415626489502),
    (577683802, 0)], [(34756185601995575, 0), (0, 378054149111), (0, 9050)], [(0, 7411564027007), (0, 1056562), (0,
    4)]], 2, 2⟩, ⟨[[(0, 6441353826271232), (0, 4361379369174295), (4365085327, 0)]], 2, 2⟩, 72057594037927936,
    8791914610122, 69102762628, ⟨[], 0, 0⟩, 0, 0, 0, lc0⟩ 1 1 12905679313) (.out ⟨5692, 16, 25723, 60505, 16, 91279,
    ⟨[[(0, 1630557215195136), (0, 1438263237246254), (571867319, 0)], [(34697241071285419, 0), (0, 379496871290), (0,
    14242)], [(0, 7440151944685), (0, 1065122), (0, 5)]], 2, 2⟩, ⟨[[(0, 9973506892103680), (0, 4361348141563061),
    (4362862055, 0)]], 2, 2⟩, 72057594037927936, 8837220845164, 69032672707, ⟨[], 0, 0⟩, 0, 0, 0, lc0⟩ 1 1
    10465883199))))))
theorem c54 : checkR job con0 true ⟨7, 9, 7, 9, 13, 17⟩ 1 28336 t54 1083 21 2560 62243 251 64000 = true := by decide +kernel

def t55 : CTree :=
  .sx (.sy (.out ⟨2834, 16, 13006, 15134, 16, 22860, ⟨[[(14871456856408064, 0), (0, 2809316546314901), (4487935150,
    0)], [(18273893511762502, 0), (0, 766842755087), (0, 199510)], [(0, 3946257668931), (0, 4035415), (0, 129)]], 2,
    2⟩, ⟨[[(0, 7513292911280128), (0, 4358091312596523), (17416551022, 0)]], 2, 2⟩, 72057594037927936, 7247584810578,
    1101754948329, ⟨[], 0, 0⟩, 0, 0, 0, lc0⟩ 1 1 29101085398) (.sy (.out ⟨4208, 16, 19411, 30329, 16, 45881,
    ⟨[[(4288024396759040, 0), (0, 2093934048606584), (1604337914, 0)], [(26842196576810493, 0), (0, 572391125056),
    (0, 122556)], [(0, 5891947190622), (0, 3087248), (0, 53)]], 2, 2⟩, ⟨[[(0, 18456390340182016), (0,
    4360306845646561), (8699612826, 0)]], 2, 2⟩, 72057594037927936, 7386833141710, 274613365578, ⟨[], 0, 0⟩, 0, 0, 0,
    lc0⟩ 1 1 22227637046) (.out ⟨4218, 16, 19525, 30359, 16, 45973, ⟨[[(7600474542178304, 0), (0, 2104635639383080),
    (1565333103, 0)], [(26710777965462540, 0), (0, 575893124481), (0, 156471)], [(0, 5928122906663), (0, 3160323),
    (0, 56)]], 2, 2⟩, ⟨[[(10916292110319616, 0), (0, 4360311283412425), (8690917012, 0)]], 2, 2⟩, 72057594037927936,
    7459956585609, 274064324148, ⟨[], 0, 0⟩, 0, 0, 0, lc0⟩ 1 1 17717155366))) (.sy (.sy (.out ⟨4220, 16, 19260,
    30268, 16, 45697, ⟨[[(684737632075776, 0), (0, 2104785801839567), (1681656308, 0)], [(26716530494126040, 0), (0,
    567988413115), (0, 61768)], [(0, 5751535486235), (0, 2514196), (0, 36)]], 2, 2⟩, ⟨[[(0, 18337993941319680), (0,
    4360271566436150), (8717004029, 0)]], 2, 2⟩, 72057594037927936, 7213011817026, 275714911838, ⟨[], 0, 0⟩, 0, 0, 0,
    lc0⟩ 1 1 23115679620) (.out ⟨4230, 16, 19373, 30298, 16, 45789, ⟨[[(1813676160843776, 0), (0, 2115460081598848),
    (1644295128, 0)], [(26586457198005708, 0), (0, 571399090894), (0, 93853)], [(0, 5786559179802), (0, 2567001), (0,
    39)]], 2, 2⟩, ⟨[[(19834986320101376, 0), (0, 4360293624284680), (8708308534, 0)]], 2, 2⟩, 72057594037927936,
    7284041267767, 275163693117, ⟨[], 0, 0⟩, 0, 0, 0, lc0⟩ 1 1 18409203288)) (.sy (.sy (.out ⟨5612, 16, 25768, 60657,
    16, 91739, ⟨[[(0, 25013056925597696), (0, 1406070825816958), (534751971, 0)], [(35076443591947197, 0), (0,
    380061622424), (0, 39279)], [(0, 7697987271312), (0, 1727423), (0, 14)]], 2, 2⟩, ⟨[[(34039277962657792, 0), (0,
    4361397817357613), (4351984475, 0)]], 2, 2⟩, 72057594037927936, 9102521558582, 68687715675, ⟨[], 0, 0⟩, 0, 0, 0,
    lc0⟩ 1 1 14971077210) (.out ⟨5623, 16, 25866, 60687, 16, 91830, ⟨[[(11812866086993920, 0), (0, 1410883501891070),
    (528628416, 0)], [(35018318215724276, 0), (0, 381549390721), (0, 44906)], [(0, 7728137997665), (0, 1748150), (0,
    14)]], 2, 2⟩, ⟨[[(17437678321008640, 0), (0, 4361353639608497), (4349761525, 0)]], 2, 2⟩, 72057594037927936,
    9149893911533, 68618581792, ⟨[], 0, 0⟩, 0, 0, 0, lc0⟩ 1 1 13044014862)) (.sy (.out ⟨5635, 16, 25965, 60718, 16,
    91922, ⟨[[(0, 12881605467570176), (0, 1415754918758904), (522369148, 0)], [(34960065250274353, 0), (0,
    383057784668), (0, 50639)], [(0, 7758601414834), (0, 1769548), (0, 15)]], 2, 2⟩, ⟨[[(0, 25771903793233920), (0,
    4361354812200876), (4347586007, 0)]], 2, 2⟩, 72057594037927936, 9197849575403, 68549863583, ⟨[], 0, 0⟩, 0, 0, 0,
    lc0⟩ 1 1 10885117423) (.leaf ⟨7517, 16, 26585, 3070, 16, 13956, ⟨[[(0, 32933946221002752), (0, 1449028052147615),
    (526264870, 0), (0, 5728)], [(35597951862398104, 0), (0, 392259494203), (0, 57608), (0, 4)], [(0, 7944777020899),
    (0, 1827374), (0, 16)], [(1005880723, 0), (2659, 0)]], 3, 4⟩, ⟨[[(0, 28898131815727104), (0, 951385593829218),
    (0, 243364485), (0, 6924)], [(0, 41734203585064058), (0, 66847115468), (0, 527520), (0, 5)], [(2837875709573, 0),
    (814254, 0), (0, 68)], [(0, 179593317), (918, 0)]], 3, 4⟩, 72057594037927936, 12724033819, 4811570261,
    ⟨[[(14746587473980, 0), (3751530798, 0), (0, 18465), (0, 469)], [(0, 2485174744), (0, 679212), (72, 0)],
    [(457409, 0), (110, 0)], [(0, 79)]], 3, 4⟩, 17592186044416, 61319,
    13572402126143513363040655056406986772337003002289553327698324496352351752101752925260433910027368643522025228540933338219018052,
    lc0⟩))))
theorem c55 : checkR job con0 true ⟨7, 9, 7, 9, 13, 17⟩ 1 28336 t55 2145 21 5120 125239 251 128000 = true := by decide +kernel

def t56 : CTree :=
  .sx (.sy (.sx (.sy (.out ⟨5696, 16, 26480, 30389, 16, 46065, ⟨[[(0, 34213745892327424), (0, 2844027235973050),
    (2058431820, 0)], [(18001252666957714, 0), (0, 390587329887), (0, 128260)], [(0, 2018489276675), (0, 1133334),
    (0, 21)]], 2, 2⟩, ⟨[[(35908614701449216, 0), (0, 4360306990156117), (8682221198, 0)]], 2, 2⟩, 72057594037927936,
    1897663083759, 273516226865, ⟨[], 0, 0⟩, 0, 0, 0, lc0⟩ 1 1 15060053734) (.sy (.out ⟨8479, 16, 39523, 60840, 16,
    92291, ⟨[[(0, 18589217319288832), (0, 2121298812484963), (749039955, 0)], [(26648438764452620, 0), (0,
    291564595547), (0, 54418)], [(0, 3013358624611), (0, 857926), (0, 8)]], 2, 2⟩, ⟨[[(0, 28873758476861440), (0,
    4361384980236335), (4338931012, 0)]], 2, 2⟩, 72057594037927936, 1900372058547, 68276720771, ⟨[], 0, 0⟩, 0, 0, 0,
    lc0⟩ 1 1 12296536825) (.out ⟨8489, 16, 39641, 60870, 16, 92383, ⟨[[(17029224540143616, 0), (0, 2126884359108705),
    (738360975, 0)], [(26581183888569396, 0), (0, 292492119154), (0, 59028)], [(0, 3022789380957), (0, 868884), (0,
    8)]], 2, 2⟩, ⟨[[(0, 10973150706139136), (0, 4361375248651373), (4336755488, 0)]], 2, 2⟩, 72057594037927936,
    1909989339051, 68208263220, ⟨[], 0, 0⟩, 0, 0, 0, lc0⟩ 1 1 10309306582))) (.sy (.sy (.out ⟨8491, 16, 39368, 60779,
    16, 92107, ⟨[[(0, 35312118156361728), (0, 2126698090370063), (769397646, 0)], [(26584401036378429, 0), (0,
    290388883549), (0, 46141)], [(0, 2976946476381), (0, 776291), (0, 7)]], 2, 2⟩, ⟨[[(844848238690304, 0), (0,
    4361397961980042), (4343282132, 0)]], 2, 2⟩, 72057594037927936, 1877768431398, 68413566714, ⟨[], 0, 0⟩, 0, 0, 0,
    lc0⟩ 1 1 12412439729) (.out ⟨8501, 16, 39486, 60809, 16, 92199, ⟨[[(7303842115354624, 0), (0, 2132304168441780),
    (758945372, 0)], [(26517859823432829, 0), (0, 291307926790), (0, 50629)], [(0, 2986262122862), (0, 785845), (0,
    7)]], 2, 2⟩, ⟨[[(23105059429548032, 0), (0, 4361392553509241), (4341106563, 0)]], 2, 2⟩, 72057594037927936,
    1887272534271, 68345161794, ⟨[], 0, 0⟩, 0, 0, 0, lc0⟩ 1 1 10407125986)) (.leaf ⟨7614, 16, 27111, 3724, 16, 16960,
    ⟨[[(0, 30309649197432832), (0, 2926521114005135), (2031049824, 0), (0, 47601), (0, 1)], [(18056474593152893, 0),
    (0, 400134277406), (0, 157220), (0, 16)], [(0, 2050770120857), (0, 1094548), (0, 21)], [(129863143, 0), (701,
    0)]], 3, 4⟩, ⟨[[(28913690989428736, 0), (0, 2309311154528949), (0, 1280622612), (0, 69451), (0, 1)], [(0,
    25540079705283828), (0, 83588583949), (0, 1339856), (0, 26)], [(867700644604, 0), (289630, 0), (0, 89)], [(0,
    27476047), (294, 0)]], 3, 4⟩, 72057594037927936, 2755735459, 904909727, ⟨[[(14852612895118, 0), (3115801081, 0),
    (0, 9491), (0, 265)], [(0, 2479267779), (0, 557787), (43, 0)], [(450955, 0), (89, 0)], [(0, 77)]], 3, 4⟩,
    17592186044416, 35114,
    10856312405098615488359640117619302518497714769358019248962982531839402803475250363511507332023774254053892202615588190051503588,
    lc0⟩))) (.leaf ⟨3803, 16, 13607, 1849, 16, 8456, ⟨[[(22180911751495680, 0), (0, 2926211548190337), (3866126502,
    0), (0, 196309), (0, 4)], [(17909200535338898, 0), (0, 803743334573), (0, 777050), (0, 135)], [(0,
    4135316574338), (0, 4709896), (0, 190)], [(524967391, 0), (5809, 0)]], 3, 4⟩, ⟨[[(0, 27667285176401920), (0,
    2303024538734420), (0, 2815785944), (0, 288043), (0, 9)], [(0, 25567712724097387), (0, 170830873356), (0,
    5570682), (0, 217)], [(1734256209768, 0), (533972, 0), (0, 739)], [(0, 109293949), (2498, 0)]], 3, 4⟩,
    72057594037927936, 8833286358, 4015489012, ⟨[[(14895802761217, 0), (6290991130, 0), (4836, 0), (0, 2073), (0,
    4)], [(0, 4989047215), (0, 2260226), (278, 0), (3, 0)], [(1818687, 0), (720, 0)], [(0, 621)]], 3, 4⟩,
    17592186044416, 117776,
    10739650250313954389635982816810007834014540010484094389637837243909157754844947341086738199508164837600518329468261503360388412,
    lc0⟩)) (.leaf ⟨2282, 16, 8121, 1213, 16, 5571, ⟨[[(16963223232118784, 0), (0, 3535519202598166), (9509957520, 0),
    (0, 942833), (0, 42)], [(10603426052902598, 0), (0, 959379914813), (0, 1648976), (0, 633)], [(0, 2428201760512),
    (0, 4652788), (0, 355)], [(309151730, 0), (6837, 0), (1, 0)]], 3, 4⟩, ⟨[[(30182009577324544, 0), (0,
    3042074698783431), (0, 7459652692), (0, 1518615), (0, 94)], [(0, 16720969549561993), (0, 221346678506), (0,
    14410952), (0, 1129)], [(1133425022460, 0), (1591017, 0), (0, 1829)], [(0, 70815231), (3272, 0), (1, 0)]], 3, 4⟩,
    72057594037927936, 10239212764, 10700741831, ⟨[[(14745036237875, 0), (9477943974, 0), (130910, 0), (0, 6687), (0,
    18)], [(0, 8205966857), (0, 5683939), (872, 0), (14, 0)], [(4984252, 0), (2992, 0), (1, 0)], [(0, 2833), (0,
    2)]], 3, 4⟩, 17592186044416, 336277,
    12859082298966099781065291392897241213896513387571925669590112684792788479848324450089336386773865968296333579724486307780262186,
    lc0⟩)
theorem c56 : checkR job con0 true ⟨7, 9, 7, 9, 13, 17⟩ 1 28336 t56 2145 21 5120 125741 251 128000 = true := by decide +kernel

def t57 : CTree :=
  .sy (.sy (.sx (.sy (.out ⟨4251, 16, 19332, 30268, 16, 45697, ⟨[[(19819920370171904, 0), (0, 2136603037584281),
    (1685280632, 0)], [(26335295077264942, 0), (0, 570304646499), (0, 64633)], [(0, 5682135184764), (0, 2069141), (0,
    26)]], 2, 2⟩, ⟨[[(0, 18337993941319680), (0, 4360271566436150), (8717004029, 0)]], 2, 2⟩, 72057594037927936,
    7181183804566, 275714911838, ⟨[], 0, 0⟩, 0, 0, 0, lc0⟩ 1 1 15240499056) (.sy (.out ⟨5658, 16, 25797, 60597, 16,
    91555, ⟨[[(6638378239328256, 0), (0, 1424724879518543), (550127321, 0)], [(34855794420291706, 0), (0,
    380551298451), (0, 29517)], [(0, 7583397292970), (0, 1394236), (0, 9)]], 2, 2⟩, ⟨[[(0, 34595127573348352), (0,
    4361384586053510), (4356335593, 0)]], 2, 2⟩, 72057594037927936, 8993160391359, 68825531934, ⟨[], 0, 0⟩, 0, 0, 0,
    lc0⟩ 1 1 11804549289) (.leaf ⟨7529, 16, 26413, 3092, 16, 14048, ⟨[[(0, 4398408401944576), (0, 1458184200393061),
    (554891783, 0), (0, 5591)], [(35492500520580645, 0), (0, 389671487787), (0, 35729), (0, 4)], [(0, 7765198391793),
    (0, 1437423), (0, 10)], [(983489584, 0), (2541, 0)]], 3, 4⟩, ⟨[[(12198916244897792, 0), (0, 959493215993342), (0,
    225393264), (0, 6754)], [(0, 41637473861138743), (0, 65122453654), (0, 505166), (0, 5)], [(2831900240791, 0),
    (1197641, 0), (0, 63)], [(0, 178807037), (871, 0)]], 3, 4⟩, 72057594037927936, 12588381396, 4568407426,
    ⟨[[(14603102448475, 0), (3686131514, 0), (0, 16185), (0, 444)], [(0, 2447211933), (0, 665704), (74, 0)],
    [(449257, 0), (107, 0)], [(0, 77)]], 3, 4⟩, 17592186044416, 57702,
    14046733270157129873479257958385354388517647837319729679263610013816004099548329250264740243797719464497732902816040905299587320,
    lc0⟩))) (.leaf ⟨3786, 16, 13220, 1871, 16, 8541, ⟨[[(21029331136970752, 0), (0, 2953808073199725), (4534587845,
    0), (0, 180921), (0, 4)], [(17587406959609167, 0), (0, 780257114351), (0, 225283), (0, 117)], [(0,
    3824460025747), (0, 2216451), (0, 47)], [(485999615, 0), (5028, 0)]], 3, 4⟩, ⟨[[(28640227078438912, 0), (0,
    2339208648770414), (0, 2248688811), (0, 264840), (0, 8)], [(0, 25141391257913865), (0, 156270371187), (0,
    4852382), (0, 197)], [(1707579839431, 0), (3404548, 0), (0, 579)], [(0, 106913865), (2124, 0)]], 3, 4⟩,
    72057594037927936, 7277437743, 4728811964, ⟨[[(14463758460146, 0), (6024652891, 0), (13287, 0), (0, 1818), (0,
    3)], [(0, 4807413193), (0, 2169561), (333, 0), (3, 0)], [(1755011, 0), (690, 0)], [(0, 599)]], 3, 4⟩,
    17592186044416, 82184,
    12156987906591936351974383370835071284131920577945823048508644928089443695247237253122072453018979032908058083116041157761067858,
    lc0⟩)) (.leaf ⟨2837, 16, 9973, 1257, 16, 5766, ⟨[[(1444077451575296, 0), (0, 2212620386042964), (3216904905, 0),
    (0, 140943), (0, 3)], [(26187752698437486, 0), (0, 1177554026266), (0, 606601), (0, 183)], [(0, 11637024912526),
    (0, 7848496), (0, 225)], [(2964546431, 0), (31689, 0), (1, 0)]], 3, 4⟩, ⟨[[(24208549089820672, 0), (0,
    1578566513145180), (0, 1723083378), (0, 187464), (0, 6)], [(0, 34150451639888079), (0, 217932543576), (0,
    6926815), (0, 277)], [(4633433411585, 0), (7197580, 0), (0, 1665)], [(0, 577348797), (12433, 0), (1, 0)]], 3, 4⟩,
    72057594037927936, 75940312695, 30117493635, ⟨[[(14531689196599, 0), (9005403771, 0), (119555, 0), (0, 5761), (0,
    14)], [(0, 6465550214), (0, 4339957), (757, 0), (10, 0)], [(3153964, 0), (1835, 0), (1, 0)], [(0, 1438), (0,
    1)]], 3, 4⟩, 17592186044416, 229059,
    11637069258295735921135249795960058184813483817907556241529448054277638095167494728071646779232606918716821323302551442510406145,
    lc0⟩)) (.sy (.leaf ⟨2855, 16, 10092, 1243, 16, 5752, ⟨[[(20509767991263232, 0), (0, 2235863023964136),
    (3035531210, 0), (0, 149264), (0, 3)], [(25901866565595142, 0), (0, 1192363636923), (0, 899829), (0, 194)], [(0,
    11779928413953), (0, 8192516), (0, 271)], [(3016394278, 0), (33581, 0), (2, 0)]], 3, 4⟩, ⟨[[(22060685220577280,
    0), (0, 1576603856400444), (0, 2009499206), (0, 199008), (0, 6)], [(0, 34178446633494760), (0, 224552974765), (0,
    7335215), (0, 288)], [(4625363367067, 0), (5477865, 0), (0, 1730)], [(0, 569409290), (13654, 0), (1, 0)]], 3, 4⟩,
    72057594037927936, 77223069553, 30698815729, ⟨[[(14534188812947, 0), (9091485658, 0), (293833, 0), (0, 5335), (0,
    14)], [(0, 6440242580), (0, 4369218), (413, 0), (9, 0)], [(3126971, 0), (1818, 0), (1, 0)], [(0, 1419), (0, 1)]],
    3, 4⟩, 17592186044416, 173540,
    14247851613887626592367560946257487502723777505986629752352814885775337109161053470231789744724692471768233170260039165404033571,
    lc0⟩) (.sx (.leaf ⟨3815, 16, 13576, 1823, 16, 8475, ⟨[[(5263932011872256, 0), (0, 2986935271661636), (3791009176,
    0), (0, 207222), (0, 5)], [(17186258155225112, 0), (0, 802578280239), (0, 801647), (0, 136)], [(0,
    3995290139168), (0, 3226123), (0, 123)], [(512818279, 0), (5893, 0)]], 3, 4⟩, ⟨[[(4822585722322944, 0), (0,
    2322576007531143), (0, 3296184068), (0, 307109), (0, 9)], [(0, 25335435923165193), (0, 171070323963), (0,
    5702504), (0, 221)], [(1711163412588, 0), (1192423, 0), (0, 680)], [(0, 104711042), (2709, 0)]], 3, 4⟩,
    72057594037927936, 8297353218, 5046316841, ⟨[[(14605431909834, 0), (6224739203, 0), (174170, 0), (0, 1621), (0,
    3)], [(0, 4858264888), (0, 2241475), (78, 0), (2, 0)], [(1767659, 0), (694, 0)], [(0, 601)]], 3, 4⟩,
    17592186044416, 68967,
    12485430411507120709531665039951182871301265307518907485087235695081743239702253753707064516492678110304131014055436643492957598,
    lc0⟩) (.leaf ⟨3820, 16, 13558, 1810, 16, 8484, ⟨[[(0, 5646790019874816), (0, 3016643827734468), (3752161219, 0),
    (0, 212679), (0, 5)], [(16831012740132952, 0), (0, 801753579813), (0, 809484), (0, 137)], [(0, 3925803069334),
    (0, 2477554), (0, 89)], [(506757421, 0), (5929, 0)]], 3, 4⟩, ⟨[[(18870490973044736, 0), (0, 2332232735222155),
    (0, 3540625618), (0, 316754), (0, 10)], [(0, 25219001055452827), (0, 171137202435), (0, 5764394), (0, 223)],
    [(1699919257868, 0), (1541363, 0), (0, 649)], [(0, 102511949), (2806, 0)]], 3, 4⟩, 72057594037927936, 7715925533,
    5397269483, ⟨[[(14464186640633, 0), (6189407971, 0), (242399, 0), (0, 1432), (0, 3)], [(0, 4795952104), (0,
    2229388), (2, 0), (2, 0)], [(1744026, 0), (682, 0)], [(0, 593)]], 3, 4⟩, 17592186044416, 109838,
    13574135547319930600305788631761771636588456253095660188597136131015999253430779395295731470185488030030392470877003532111877026,
    lc0⟩)))
theorem c57 : checkR job con0 true ⟨7, 9, 7, 9, 13, 17⟩ 1 28336 t57 2187 21 5120 62745 251 64000 = true := by decide +kernel

def t58 : CTree :=
  .sx (.sy (.out ⟨2818, 16, 13498, 15255, 16, 23228, ⟨[[(20511412869300224, 0), (0, 2765141205986312), (3692064149,
    0)], [(18789389871255851, 0), (0, 796040773221), (0, 884110)], [(0, 4374150080486), (0, 7847501), (0, 338)]], 2,
    2⟩, ⟨[[(7433965734068224, 0), (0, 4358023394906832), (17277631554, 0)]], 2, 2⟩, 72057594037927936, 8012311829509,
    1084257511968, ⟨[], 0, 0⟩, 0, 0, 0, lc0⟩ 1 1 26913006833) (.sy (.out ⟨4154, 16, 19998, 30572, 16, 46619,
    ⟨[[(3093019473477632, 0), (0, 2046349488546313), (1290626518, 0)], [(27393241982852261, 0), (0, 590224163676),
    (0, 384592)], [(0, 6484984125696), (0, 6007339), (0, 133)]], 2, 2⟩, ⟨[[(0, 27059291783168000), (0,
    4360287844448392), (8630422298, 0)]], 2, 2⟩, 72057594037927936, 8109509855846, 270262647485, ⟨[], 0, 0⟩, 0, 0, 0,
    lc0⟩ 1 1 20928631549) (.out ⟨4165, 16, 20119, 30602, 16, 46712, ⟨[[(0, 11571103571443712), (0, 2057454026655945),
    (1245420183, 0)], [(27260801595534220, 0), (0, 594203550875), (0, 426324)], [(0, 6527290221809), (0, 6180374),
    (0, 139)]], 2, 2⟩, ⟨[[(14747954855542784, 0), (0, 4360316853435219), (8621912805, 0)]], 2, 2⟩, 72057594037927936,
    8192285504684, 269728118060, ⟨[], 0, 0⟩, 0, 0, 0, lc0⟩ 1 1 16741751119))) (.sy (.sy (.out ⟨4168, 16, 19854,
    30511, 16, 46434, ⟨[[(35597828945346560, 0), (0, 2058881236234189), (1369438089, 0)], [(27247856346599680, 0),
    (0, 585740780765), (0, 316379)], [(0, 6331872909868), (0, 5177139), (0, 111)]], 2, 2⟩, ⟨[[(0, 4431479653269504),
    (0, 4360297450535513), (8647626231, 0)]], 2, 2⟩, 72057594037927936, 7925008351356, 271340957142, ⟨[], 0, 0⟩, 0,
    0, 0, lc0⟩ 1 1 21027066060) (.out ⟨4179, 16, 19973, 30541, 16, 46526, ⟨[[(3907754887610368, 0), (0,
    2069864468627235), (1325737651, 0)], [(27115285654256780, 0), (0, 589590024048), (0, 356084)], [(0,
    6372467519921), (0, 5322176), (0, 116)]], 2, 2⟩, ⟨[[(0, 1192255576080384), (0, 4360250093134189), (8638931396,
    0)]], 2, 2⟩, 72057594037927936, 8005246024693, 270798325010, ⟨[], 0, 0⟩, 0, 0, 0, lc0⟩ 1 1 16791381257)) (.sx
    (.sy (.out ⟨5674, 16, 27235, 30572, 16, 46619, ⟨[[(0, 34509318866665472), (0, 2812223306435169), (1741012275,
    0)], [(18376679461353911, 0), (0, 402157805303), (0, 267390)], [(0, 2181914654648), (0, 1902658), (0, 42)]], 2,
    2⟩, ⟨[[(0, 27059291783168000), (0, 4360287844448392), (8630422298, 0)]], 2, 2⟩, 72057594037927936, 2046246324568,
    270262647485, ⟨[], 0, 0⟩, 0, 0, 0, lc0⟩ 1 1 14787720047) (.sy (.out ⟨8401, 16, 40433, 61204, 16, 93400,
    ⟨[[(5991325496246272, 0), (0, 2086551348921758), (625785692, 0)], [(27057119579261818, 0), (0, 298676203368), (0,
    106706)], [(0, 3240336463288), (0, 1436268), (0, 16)]], 2, 2⟩, ⟨[[(0, 9035883008229376), (0, 4361361067024723),
    (4313059118, 0)]], 2, 2⟩, 72057594037927936, 2039511138016, 67465077610, ⟨[], 0, 0⟩, 0, 0, 0, lc0⟩ 1 1
    12002599533) (.out ⟨8412, 16, 40556, 61234, 16, 93493, ⟨[[(4432468817739776, 0), (0, 2092275510784030),
    (613863783, 0)], [(26989010255872835, 0), (0, 299694791763), (0, 112092)], [(0, 3250921094673), (0, 1457035), (0,
    16)]], 2, 2⟩, ⟨[[(30057030492880896, 0), (0, 4361372352452921), (4310930159, 0)]], 2, 2⟩, 72057594037927936,
    2050051383305, 67398608293, ⟨[], 0, 0⟩, 0, 0, 0, lc0⟩ 1 1 10020368564))) (.sy (.sy (.out ⟨8415, 16, 40284, 61143,
    16, 93215, ⟨[[(0, 6746237566058496), (0, 2092633399878678), (646413884, 0)], [(26986078858303522, 0), (0,
    297486625164), (0, 97690)], [(0, 3201483634342), (0, 1328846), (0, 15)]], 2, 2⟩, ⟨[[(25539297883455488, 0), (0,
    4361378755150155), (4317363237, 0)]], 2, 2⟩, 72057594037927936, 2015934795895, 67599458500, ⟨[], 0, 0⟩, 0, 0, 0,
    lc0⟩ 1 1 11783722637) (.out ⟨8426, 16, 40406, 61174, 16, 93308, ⟨[[(0, 16547426809675776), (0, 2098326824023931),
    (634693089, 0)], [(26917990470626947, 0), (0, 298488424230), (0, 102943)], [(0, 3211852158846), (0, 1347813), (0,
    15)]], 2, 2⟩, ⟨[[(0, 3073123844358144), (0, 4361394349198978), (4315234288, 0)]], 2, 2⟩, 72057594037927936,
    2026295395576, 67532919594, ⟨[], 0, 0⟩, 0, 0, 0, lc0⟩ 1 1 9912961175)) (.leaf ⟨7644, 16, 27888, 3681, 16, 16786,
    ⟨[[(0, 22584952545607680), (0, 2895209497792390), (1694806460, 0), (0, 51281), (0, 1)], [(18423479043770365, 0),
    (0, 412251972602), (0, 305019), (0, 19)], [(0, 2217509200297), (0, 1892234), (0, 43)], [(140185864, 0), (798,
    0)]], 3, 4⟩, ⟨[[(0, 32653150659674112), (0, 2272222222992621), (0, 1559041825), (0, 75292), (0, 1)], [(0,
    25977970165042115), (0, 91251771110), (0, 1524554), (0, 29)], [(879373111530, 0), (0, 550922), (0, 112)], [(0,
    28197495), (337, 0)]], 3, 4⟩, 72057594037927936, 2744948605, 1160091952, ⟨[[(15306233640952, 0), (3254471952, 0),
    (0, 12974), (0, 302)], [(0, 2575653976), (0, 581804), (35, 0)], [(468200, 0), (93, 0)], [(0, 80)]], 3, 4⟩,
    17592186044416, 38542,
    11030176661152585742703182342173987403257321802317657023809232380290082067665910036014663256783811136087632056077551666381056507,
    lc0⟩))))
theorem c58 : checkR job con0 true ⟨7, 9, 7, 9, 13, 17⟩ 1 28336 t58 2061 21 5120 126243 251 128000 = true := by decide +kernel

def t59 : CTree :=
  .sx (.sy (.sx (.sy (.out ⟨5665, 16, 27487, 30633, 16, 46805, ⟨[[(9561136617684992, 0), (0, 2800736072715798),
    (1634130482, 0)], [(18512165707873195, 0), (0, 406121096264), (0, 316663)], [(0, 2239356326681), (0, 2209200),
    (0, 50)]], 2, 2⟩, ⟨[[(0, 19872663603511296), (0, 4360337171862115), (8613403022, 0)]], 2, 2⟩, 72057594037927936,
    2096533075382, 269194574397, ⟨[], 0, 0⟩, 0, 0, 0, lc0⟩ 1 1 15228265982) (.out ⟨5670, 16, 27605, 30663, 16, 46897,
    ⟨[[(0, 9879359973163008), (0, 2811149488246094), (1565691594, 0)], [(18386806794945274, 0), (0, 408197942609),
    (0, 346213)], [(0, 2250096410485), (0, 2270340), (0, 52)]], 2, 2⟩, ⟨[[(0, 33906178291400704), (0,
    4360255876033724), (8604709571, 0)]], 2, 2⟩, 72057594037927936, 2127040289719, 268656216048, ⟨[], 0, 0⟩, 0, 0, 0,
    lc0⟩ 1 1 11508233046)) (.sy (.sy (.out ⟨8387, 16, 40582, 61265, 16, 93586, ⟨[[(9932217732431872, 0), (0,
    2080409697011457), (605164021, 0)], [(27130144284358376, 0), (0, 299875128903), (0, 115839)], [(0,
    3279700150208), (0, 1548375), (0, 18)]], 2, 2⟩, ⟨[[(0, 5090635095736320), (0, 4361381470019906), (4308801169,
    0)]], 2, 2⟩, 72057594037927936, 2063301290463, 67331475965, ⟨[], 0, 0⟩, 0, 0, 0, lc0⟩ 1 1 12150312319) (.out
    ⟨8398, 16, 40705, 61295, 16, 93679, ⟨[[(1665234752372736, 0), (0, 2086112785654579), (593027629, 0)],
    [(27061349758025039, 0), (0, 300903264276), (0, 121357)], [(0, 3290424715132), (0, 1570974), (0, 18)]], 2, 2⟩,
    ⟨[[(29639554633826304, 0), (0, 4361388426155125), (4306672156, 0)]], 2, 2⟩, 72057594037927936, 2073931649049,
    67264963354, ⟨[], 0, 0⟩, 0, 0, 0, lc0⟩ 1 1 10187077315)) (.leaf ⟨7653, 16, 28148, 3666, 16, 16727, ⟨[[(0,
    11115886850277376), (0, 2883931352068626), (1581569377, 0), (0, 52468), (0, 1)], [(18556519252832866, 0), (0,
    416417424387), (0, 357419), (0, 19)], [(0, 2276193648224), (0, 2210728), (0, 51)], [(143781795, 0), (830, 0)]],
    3, 4⟩, ⟨[[(29575500336955392, 0), (0, 2259690760823330), (0, 1652444156), (0, 77281), (0, 1)], [(0,
    26127213554230159), (0, 93931496800), (0, 1587806), (0, 30)], [(882700062466, 0), (0, 868415), (0, 121)], [(0,
    28473328), (351, 0)]], 3, 4⟩, 72057594037927936, 2718412960, 1349554788, ⟨[[(15460117240747, 0), (3302388730, 0),
    (0, 13213), (0, 314)], [(0, 2608798796), (0, 590253), (31, 0)], [(474278, 0), (95, 0)], [(0, 81)]], 3, 4⟩,
    17592186044416, 39143,
    11611314355478753383227462325863564902110639438849923951983554569502459304396973818202683214138937104922816065522484238518937450,
    lc0⟩))) (.leaf ⟨3822, 16, 14125, 1819, 16, 8337, ⟨[[(35795123930955776, 0), (0, 2883294478567195), (2949604497,
    0), (0, 216030), (0, 5)], [(18405062109981285, 0), (0, 836804916026), (0, 1604609), (0, 161)], [(0,
    4590570260243), (0, 9409876), (0, 444)], [(581232261, 0), (6861, 0)]], 3, 4⟩, ⟨[[(30891671551344640, 0), (0,
    2253127667879425), (0, 3581392926), (0, 320091), (0, 10)], [(0, 26152808129042621), (0, 192047695591), (0,
    6581878), (0, 244)], [(1761918809228, 0), (0, 4291850), (0, 1001)], [(0, 113196697), (2956, 0)]], 3, 4⟩,
    72057594037927936, 8717906570, 5652072397, ⟨[[(15501598970202, 0), (6669805524, 0), (4119, 0), (0, 2438), (0,
    5)], [(0, 5249022093), (0, 2391359), (166, 0), (3, 0)], [(1913120, 0), (766, 0)], [(0, 660)]], 3, 4⟩,
    17592186044416, 141288,
    12014119379207767437777757774284543041389788425901762143502520562337008365439237008555277466903729180575591043783041494257834163,
    lc0⟩)) (.leaf ⟨2307, 16, 8480, 1202, 16, 5532, ⟨[[(23718514331058176, 0), (0, 3506000817820564), (7318062476, 0),
    (0, 1046810), (0, 46)], [(10946041766164663, 0), (0, 1004711468735), (0, 3648660), (0, 763)], [(0,
    2710950281733), (0, 10012709), (0, 940)], [(344394186, 0), (8175, 0), (1, 0)]], 3, 4⟩, ⟨[[(29995389767565312, 0),
    (0, 2998341780537167), (0, 9593686503), (0, 1701295), (0, 103)], [(0, 17224065617491544), (0, 250944424861), (0,
    17202288), (0, 1280)], [(1160390073220, 0), (0, 4551506), (0, 2513)], [(0, 73638645), (3940, 0), (1, 0)]], 3, 4⟩,
    72057594037927936, 9414768468, 12991209822, ⟨[[(15343762999587, 0), (9976729195, 0), (136324, 0), (0, 7707), (0,
    22)], [(0, 8582878129), (0, 5929838), (468, 0), (14, 0)], [(5180229, 0), (3110, 0), (2, 0)], [(0, 2949), (0,
    2)]], 3, 4⟩, 17592186044416, 346718,
    13555622765853709447773901139038939446246629642765504049331812049134234380262345753250108991165429563869214618146502527513923342,
    lc0⟩)
theorem c59 : checkR job con0 true ⟨7, 9, 7, 9, 13, 17⟩ 1 28336 t59 2061 21 5120 126745 251 128000 = true := by decide +kernel

def t60 : CTree :=
  .sy (.sx (.sy (.sx (.sy (.out ⟨5681, 16, 26983, 30511, 16, 46434, ⟨[[(25268629895970816, 0), (0, 2823249032297623),
    (1847474267, 0)], [(18246418113704332, 0), (0, 398244734656), (0, 219539)], [(0, 2125977462878), (0, 1621993),
    (0, 35)]], 2, 2⟩, ⟨[[(0, 4431479653269504), (0, 4360297450535513), (8647626231, 0)]], 2, 2⟩, 72057594037927936,
    1996290077353, 271340957142, ⟨[], 0, 0⟩, 0, 0, 0, lc0⟩ 1 1 14952442989) (.sy (.out ⟨8428, 16, 40133, 61083, 16,
    93030, ⟨[[(13479160839405568, 0), (0, 2098551512637397), (667006320, 0)], [(26915639671493172, 0), (0,
    296291747654), (0, 88789)], [(0, 3162975248395), (0, 1225942), (0, 13)]], 2, 2⟩, ⟨[[(0, 20620128449724416), (0,
    4361387880480803), (4321667435, 0)]], 2, 2⟩, 72057594037927936, 1992457959610, 67734257279, ⟨[], 0, 0⟩, 0, 0, 0,
    lc0⟩ 1 1 11939793082) (.out ⟨8439, 16, 40254, 61113, 16, 93122, ⟨[[(0, 4596654233878528), (0, 2104213678894765),
    (655488347, 0)], [(26847579908459407, 0), (0, 297276904891), (0, 93910)], [(0, 3173132203946), (0, 1243173), (0,
    14)]], 2, 2⟩, ⟨[[(0, 20098613888679936), (0, 4361360973905932), (4319492137, 0)]], 2, 2⟩, 72057594037927936,
    2002665418062, 67666785234, ⟨[], 0, 0⟩, 0, 0, 0, lc0⟩ 1 1 9935665562))) (.sy (.sy (.out ⟨8441, 16, 39982, 61022,
    16, 92845, ⟨[[(24516797251190784, 0), (0, 2104409117817140), (687585085, 0)], [(26847099846430744, 0), (0,
    295106448411), (0, 80011)], [(0, 3124962859947), (0, 1127517), (0, 12)]], 2, 2⟩, ⟨[[(0, 3424896865009664), (0,
    4361388391722541), (4325971662, 0)]], 2, 2⟩, 72057594037927936, 1969183180730, 67869112472, ⟨[], 0, 0⟩, 0, 0, 0,
    lc0⟩ 1 1 11960073997) (.out ⟨8452, 16, 40102, 61052, 16, 92937, ⟨[[(0, 1918579102580736), (0, 2110039483203968),
    (676270803, 0)], [(26779068716862818, 0), (0, 296075118635), (0, 85001)], [(0, 3134912727149), (0, 1143080), (0,
    12)]], 2, 2⟩, ⟨[[(1427798042345472, 0), (0, 4361365751982641), (4323796286, 0)]], 2, 2⟩, 72057594037927936,
    1979233386589, 67801424671, ⟨[], 0, 0⟩, 0, 0, 0, lc0⟩ 1 1 9884987046)) (.leaf ⟨7634, 16, 27629, 3695, 16, 16845,
    ⟨[[(16514255719956480, 0), (0, 2906117597290599), (1807632618, 0), (0, 50072), (0, 1)], [(18296289088077227, 0),
    (0, 408156511904), (0, 254168), (0, 18)], [(0, 2160452829315), (0, 1600965), (0, 35)], [(136669600, 0), (766,
    0)]], 3, 4⟩, ⟨[[(2531421677387776, 0), (0, 2284734426424896), (0, 1465968977), (0, 73327), (0, 1)], [(0,
    25831125327524742), (0, 88636085386), (0, 1462127), (0, 28)], [(875780910600, 0), (0, 252545), (0, 104)], [(0,
    27941996), (324, 0)]], 3, 4⟩, 72057594037927936, 2695361730, 1032236308, ⟨[[(15152831647315, 0), (3207706764, 0),
    (0, 11588), (0, 289)], [(0, 2543126713), (0, 573729), (38, 0)], [(462360, 0), (92, 0)], [(0, 79)]], 3, 4⟩,
    17592186044416, 35318,
    10726857735214808887947108223361932639190163042783924197548025805955233402853620679452222927768720685704782909856305167599253389,
    lc0⟩))) (.leaf ⟨3813, 16, 13866, 1834, 16, 8397, ⟨[[(34078384748625920, 0), (0, 2905694306872582), (3410226588,
    0), (0, 206339), (0, 5)], [(18147168487850237, 0), (0, 820044358697), (0, 1178096), (0, 147)], [(0,
    4356855733114), (0, 6845744), (0, 308)], [(552499911, 0), (6338, 0)]], 3, 4⟩, ⟨[[(0, 15737289715875840), (0,
    2278241876318808), (0, 3197329985), (0, 303903), (0, 9)], [(0, 25856995942644770), (0, 181186887172), (0,
    6069601), (0, 230)], [(1749250047178, 0), (0, 1727174), (0, 863)], [(0, 111104304), (2736, 0)]], 3, 4⟩,
    72057594037927936, 9059603823, 5643653874, ⟨[[(15194609666713, 0), (6477332414, 0), (2880, 0), (0, 2252), (0,
    4)], [(0, 5116557521), (0, 2324405), (227, 0), (3, 0)], [(1864443, 0), (742, 0)], [(0, 639)]], 3, 4⟩,
    17592186044416, 101439,
    10845294111488983767245060881892906116777365017095748687934081298903497338263831985844910738644858014487482328323497303995146935,
    lc0⟩)) (.leaf ⟨2295, 16, 8299, 1208, 16, 5552, ⟨[[(0, 13189031422132224), (0, 3521508198765591), (8423503162, 0),
    (0, 995260), (0, 44)], [(10767273165190338, 0), (0, 981575494436), (0, 2613724), (0, 696)], [(0, 2565292545791),
    (0, 7073124), (0, 624)], [(326319547, 0), (7503, 0), (1, 0)]], 3, 4⟩, ⟨[[(0, 14313476240687104), (0,
    3020546467922001), (0, 8519226018), (0, 1608796), (0, 99)], [(0, 16969743667919698), (0, 235751075078), (0,
    15782556), (0, 1204)], [(1147634547809, 0), (0, 1272103), (0, 2151)], [(0, 72143305), (3615, 0), (1, 0)]], 3, 4⟩,
    72057594037927936, 10073342510, 12351962385, ⟨[[(15040577343842, 0), (9720803940, 0), (120723, 0), (0, 7221), (0,
    20)], [(0, 8389526740), (0, 5801523), (710, 0), (14, 0)], [(5077378, 0), (3047, 0), (2, 0)], [(0, 2883), (0,
    2)]], 3, 4⟩, 17592186044416, 346132,
    13562122026010113059604547428889162284357020298043005301876051050139953930339937269442311875835098615213661324727184696944258111,
    lc0⟩)) (.sx (.sy (.leaf ⟨3826, 16, 13984, 1813, 16, 8376, ⟨[[(0, 34435063886970880), (0, 2927128514914780),
    (3118780173, 0), (0, 217553), (0, 5)], [(17886117396543710, 0), (0, 828329829423), (0, 1416913), (0, 155)], [(0,
    4397478858078), (0, 7228572), (0, 336)], [(560481926, 0), (6679, 0)]], 3, 4⟩, ⟨[[(25349558592290816, 0), (0,
    2275980279698950), (0, 3660181517), (0, 322300), (0, 10)], [(0, 25884613821595682), (0, 186988572552), (0,
    6407789), (0, 239)], [(1743790538937, 0), (0, 2605420), (0, 898)], [(0, 109392148), (2988, 0)]], 3, 4⟩,
    72057594037927936, 8250514900, 5335404332, ⟨[[(15186664576657, 0), (6537029888, 0), (106339, 0), (0, 2057), (0,
    4)], [(0, 5106957643), (0, 2344222), (90, 0), (2, 0)], [(1857796, 0), (734, 0)], [(0, 636)]], 3, 4⟩,
    17592186044416, 107171,
    10803876987867754125896389594909119151263002527671536098035647609437811776566149126566832284053633431449463084708161334024556122,
    lc0⟩) (.leaf ⟨3838, 16, 14104, 1793, 16, 8353, ⟨[[(0, 14903930612219904), (0, 2949257127028107), (2807682042, 0),
    (0, 229329), (0, 5)], [(17619832374950373, 0), (0, 836992927987), (0, 1670334), (0, 164)], [(0, 4438962347649),
    (0, 7645025), (0, 367)], [(568749439, 0), (7042, 0)]], 3, 4⟩, ⟨[[(0, 32664900409098240), (0, 2273643278847810),
    (0, 4149122798), (0, 341408), (0, 10)], [(0, 25908787590175592), (0, 193073907063), (0, 6757307), (0, 249)],
    [(1737468943103, 0), (0, 3516857), (0, 935)], [(0, 107528757), (3250, 0)]], 3, 4⟩, 72057594037927936, 7567458673,
    5136094596, ⟨[[(15193774330021, 0), (6599353678, 0), (195566, 0), (0, 1891), (0, 4)], [(0, 5104935125), (0,
    2361883), (0, 22), (2, 0)], [(1854625, 0), (727, 0)], [(0, 635)]], 3, 4⟩, 17592186044416, 102213,
    13234309089018095564111903585211419892372575252353890049307934220739504765938763472088385115799139942812008212298348006856907587,
    lc0⟩)) (.sy (.leaf ⟨3833, 16, 13972, 1800, 16, 8384, ⟨[[(0, 32523599231778816), (0, 2959388920094229),
    (3056073512, 0), (0, 223915), (0, 5)], [(17504651099009115, 0), (0, 828190238210), (0, 1442366), (0, 157)], [(0,
    4323504826042), (0, 6376370), (0, 299)], [(554302793, 0), (6754, 0)]], 3, 4⟩, ⟨[[(1777232906878976, 0), (0,
    2286019488244834), (0, 3934627415), (0, 332720), (0, 10)], [(0, 25763292723201655), (0, 187370175523), (0,
    6488003), (0, 242)], [(1731833877415, 0), (0, 2222910), (0, 865)], [(0, 106742329), (3120, 0)]], 3, 4⟩,
    72057594037927936, 7620382950, 4288433637, ⟨[[(15038474187878, 0), (6502337440, 0), (191937, 0), (0, 1814), (0,
    3)], [(0, 5038947822), (0, 2330415), (3, 0), (2, 0)], [(1830824, 0), (717, 0)], [(0, 625)]], 3, 4⟩,
    17592186044416, 105017,
    13277881361112450075415812733128279766066147208887449163556575495976858940311175686163153702954358491842591962440528034951171637,
    lc0⟩) (.leaf ⟨3844, 16, 14091, 1779, 16, 8360, ⟨[[(29424617500803072, 0), (0, 2981672976352053), (2734381498, 0),
    (0, 236022), (0, 5)], [(17234059553700571, 0), (0, 836825647084), (0, 1697915), (0, 165)], [(0, 4363634475736),
    (0, 6745744), (0, 327)], [(562521523, 0), (7126, 0)]], 3, 4⟩, ⟨[[(0, 1635541584953344), (0, 2283670507683463),
    (0, 4438274175), (0, 352197), (0, 10)], [(0, 25784994552440213), (0, 193513918706), (0, 6840077), (0, 251)],
    [(1725543091955, 0), (0, 3101473), (0, 900)], [(0, 104806603), (3386, 0)]], 3, 4⟩, 72057594037927936, 8057144883,
    5885744893, ⟨[[(15043389717034, 0), (6564023777, 0), (276834, 0), (0, 1652), (0, 3)], [(0, 5037981347), (0,
    2346499), (0, 97), (2, 0)], [(1828871, 0), (709, 0)], [(0, 625)]], 3, 4⟩, 17592186044416, 119708,
    14454582635774274570244910984826857688515593355579686811207272997389472149715363966983994997548344075313302204542486255155897304,
    lc0⟩)))
theorem c60 : checkR job con0 true ⟨7, 9, 7, 9, 13, 17⟩ 1 28336 t60 2103 21 5120 63247 251 64000 = true := by decide +kernel

def t61 : CTree :=
  .sx (.sy (.sx (.leaf ⟨2314, 16, 8620, 1186, 16, 5508, ⟨[[(26207311677718528, 0), (0, 3514187012037844),
    (5968835925, 0), (0, 1126292), (0, 49)], [(10846839492070557, 0), (0, 1024636875360), (0, 4833042), (0, 838)],
    [(0, 2805949930408), (0, 12346010), (0, 1205)], [(357963286, 0), (8936, 0), (1, 0)]], 3, 4⟩,
    ⟨[[(33525385096265728, 0), (0, 2985013141081200), (0, 11464970615), (0, 1852287), (0, 110)], [(0,
    17376433621391226), (0, 267416367842), (0, 18893091), (0, 1368)], [(1161527304215, 0), (0, 7729111), (0, 2823)],
    [(0, 73213516), (4452, 0), (1, 0)]], 3, 4⟩, 72057594037927936, 10191112589, 13033084815, ⟨[[(15501136437672, 0),
    (10199841658, 0), (376332, 0), (0, 7263), (0, 22)], [(0, 8698239353), (0, 6053623), (0, 125), (12, 0)],
    [(5251174, 0), (3123, 0), (3, 0)], [(0, 3008), (0, 2)]], 3, 4⟩, 17592186044416, 320390,
    15082535352551598862934253079503647037593339577888594351183797516982686653191061075018612605738497759244125267499877603115466598,
    lc0⟩) (.sy (.leaf ⟨3843, 16, 14237, 1785, 16, 8322, ⟨[[(1649405960454144, 0), (0, 2938853795222627), (2558539252,
    0), (0, 234655), (0, 5)], [(17741197957871022, 0), (0, 845985578592), (0, 1905388), (0, 171)], [(0,
    4557952673977), (0, 9033414), (0, 440)], [(583541298, 0), (7329, 0)]], 3, 4⟩, ⟨[[(17525711884337152, 0), (0,
    2261255093876677), (0, 4364530210), (0, 350182), (0, 10)], [(0, 26056726575182485), (0, 198913500256), (0,
    7029952), (0, 256)], [(1742493898896, 0), (0, 4893643), (0, 1008)], [(0, 108392550), (3376, 0)]], 3, 4⟩,
    72057594037927936, 7985992107, 6188238338, ⟨[[(15344297216797, 0), (6697351867, 0), (206016, 0), (0, 1952), (0,
    4)], [(0, 5169400832), (0, 2393704), (0, 55), (2, 0)], [(1878218, 0), (736, 0)], [(0, 645)]], 3, 4⟩,
    17592186044416, 93339,
    13010671350267351315448020535698970821071587716702465734333921980548090953739553520284708638709145176103939899437958461463496459,
    lc0⟩) (.leaf ⟨3856, 16, 14360, 1764, 16, 8297, ⟨[[(0, 30099062101540864), (0, 2961834508082743), (2216308368, 0),
    (0, 247228), (0, 5)], [(17465612141097237, 0), (0, 855356386760), (0, 2187570), (0, 180)], [(0, 4602019532240),
    (0, 9573694), (0, 477)], [(592376998, 0), (7727, 0)]], 3, 4⟩, ⟨[[(11407251257884672, 0), (0, 2259100160907116),
    (0, 4893102983), (0, 370393), (0, 11)], [(0, 26079803371655134), (0, 205548128335), (0, 7400514), (0, 265)],
    [(1734553097404, 0), (0, 5910167), (0, 1049)], [(0, 106305152), (3656, 0)]], 3, 4⟩, 72057594037927936,
    9050271657, 5462959871, ⟨[[(15342845772607, 0), (6757981468, 0), (296977, 0), (0, 1765), (0, 4)], [(0,
    5162829890), (0, 2406354), (0, 154), (2, 0)], [(1873408, 0), (725, 0)], [(0, 644)]], 3, 4⟩, 17592186044416,
    134253,
    14054827781185656713403712528385171667344645599633550376216368969071304339491929617796289884593977768744878510397461903484451281,
    lc0⟩))) (.sx (.leaf ⟨2315, 16, 8715, 1159, 16, 5476, ⟨[[(9883831337844736, 0), (0, 3547744043878053),
    (4243139693, 0), (0, 1241671), (0, 53)], [(10445003747141118, 0), (0, 1041495050688), (0, 6220411), (0, 925)],
    [(0, 2843461301983), (0, 13791622), (0, 1393)], [(366647858, 0), (9862, 0), (1, 0)]], 3, 4⟩, ⟨[[(0,
    10499094341926912), (0, 2980563850759702), (0, 14342257887), (0, 2071360), (0, 119)], [(0, 17413853289712399),
    (0, 285777061092), (0, 20914758), (0, 1472)], [(1150193434059, 0), (0, 10628239), (0, 3062)], [(0, 70371202),
    (5215, 0), (1, 0)]], 3, 4⟩, 72057594037927936, 10765875748, 14858631934, ⟨[[(15505963533138, 0), (10384793410,
    0), (794806, 0), (0, 5937), (0, 20)], [(0, 8736520349), (0, 6152633), (0, 856), (8, 0)], [(5294872, 0), (3073,
    0), (3, 0)], [(0, 3061), (0, 2)]], 3, 4⟩, 17592186044416, 356213,
    15218838272902883362687383413491204801061486525704839306040884763362020107820300070483095948897716044858063361312689508124251452,
    lc0⟩) (.leaf ⟨2309, 16, 8668, 1148, 16, 5471, ⟨[[(0, 26085854193287168), (0, 3572141412843612), (3958028113, 0),
    (0, 1273834), (0, 55)], [(10153034911743334, 0), (0, 1036978313201), (0, 6298653), (0, 930)], [(0,
    2782396871780), (0, 12470863), (0, 1275)], [(361203380, 0), (9974, 0), (1, 0)]], 3, 4⟩, ⟨[[(0,
    22803336793702400), (0, 2989852389853310), (0, 15212114942), (0, 2131543), (0, 122)], [(0, 17301793362458508),
    (0, 286380111789), (0, 21148234), (0, 1485)], [(1140420001094, 0), (0, 9947933), (0, 2954)], [(0, 68168269),
    (5432, 0), (1, 0)]], 3, 4⟩, 72057594037927936, 11658404358, 13739247012, ⟨[[(15346370348344, 0), (10336863324,
    0), (955688, 0), (0, 5165), (0, 18)], [(0, 8653794771), (0, 6133028), (0, 1029), (6, 0)], [(5262111, 0), (3022,
    0), (3, 0)], [(0, 3044), (0, 2)]], 3, 4⟩, 17592186044416, 350178,
    14627725090707182598078280985989222374127779750132722235239077791757638631936882819511816935108327699152459068909687798322098209,
    lc0⟩))) (.sy (.sx (.sy (.leaf ⟨3850, 16, 14225, 1772, 16, 8329, ⟨[[(350282045390848, 0), (0, 2971893534002563),
    (2475671626, 0), (0, 241674), (0, 5)], [(17346774327330694, 0), (0, 845991747904), (0, 1939027), (0, 173)], [(0,
    4481011139376), (0, 8096502), (0, 399)], [(577275140, 0), (7427, 0)]], 3, 4⟩, ⟨[[(0, 29755215339798528), (0,
    2271526915779591), (0, 4665466420), (0, 361275), (0, 11)], [(0, 25932720259461662), (0, 199474088482), (0,
    7119107), (0, 258)], [(1730478164952, 0), (0, 4462836), (0, 973)], [(0, 105522473), (3524, 0)]], 3, 4⟩,
    72057594037927936, 8589374181, 6053829067, ⟨[[(15194882294155, 0), (6660170384, 0), (284303, 0), (0, 1715), (0,
    4)], [(0, 5100957201), (0, 2376215), (0, 123), (2, 0)], [(1851173, 0), (717, 0)], [(0, 634)]], 3, 4⟩,
    17592186044416, 139883,
    14336374841653763287059541412518328516625763775599570884385866295352827493888237798601919393447416881110251350971580650968130448,
    lc0⟩) (.leaf ⟨3862, 16, 14348, 1750, 16, 8303, ⟨[[(30265761135689728, 0), (0, 2995270684572210), (2121840289, 0),
    (0, 254628), (0, 6)], [(17067892354607701, 0), (0, 855404060421), (0, 2223933), (0, 182)], [(0, 4523960821227),
    (0, 8585599), (0, 433)], [(586113129, 0), (7836, 0)]], 3, 4⟩, ⟨[[(19051786646437888, 0), (0, 2269383259411375),
    (0, 5209518368), (0, 381865), (0, 11)], [(0, 25953412826157428), (0, 206173953603), (0, 7492507), (0, 268)],
    [(1722594965782, 0), (0, 5443887), (0, 1013)], [(0, 103355834), (3809, 0)]], 3, 4⟩, 72057594037927936,
    9408174351, 4759176290, ⟨[[(15192607062558, 0), (6720774886, 0), (370291, 0), (0, 1535), (0, 3)], [(0,
    5096180155), (0, 2387812), (0, 210), (1, 0)], [(1847894, 0), (707, 0)], [(0, 634)]], 3, 4⟩, 17592186044416,
    115011,
    14409684552171251882189642927817626861345406478909513323564319390432938566091823092574854417769205863104436617367505739312064651,
    lc0⟩)) (.sy (.leaf ⟨3856, 16, 14212, 1758, 16, 8336, ⟨[[(34517151508561920, 0), (0, 3004690467165472),
    (2391366149, 0), (0, 248732), (0, 5)], [(16957902499898514, 0), (0, 845858646572), (0, 1968962), (0, 174)], [(0,
    4404605872971), (0, 7147768), (0, 356)], [(571042879, 0), (7521, 0)]], 3, 4⟩, ⟨[[(0, 704091444346880), (0,
    2281828559093973), (0, 4970337304), (0, 372483), (0, 11)], [(0, 25809586533437260), (0, 199998016212), (0,
    7205341), (0, 261)], [(1718807421317, 0), (0, 4013426), (0, 937)], [(0, 102738899), (3665, 0)]], 3, 4⟩,
    72057594037927936, 9045886906, 5024507692, ⟨[[(15043800972498, 0), (6622095727, 0), (356634, 0), (0, 1491), (0,
    3)], [(0, 5033925718), (0, 2358128), (0, 183), (1, 0)], [(1825592, 0), (700, 0)], [(0, 624)]], 3, 4⟩,
    17592186044416, 101892,
    14586300058123018299680499038224223778277411428935063635458747475023280269798435764839149056550680189274947769457177318240916867,
    lc0⟩) (.leaf ⟨3868, 16, 14334, 1736, 16, 8309, ⟨[[(34576675642867712, 0), (0, 3028254525040854), (2025719585, 0),
    (0, 262051), (0, 6)], [(16674685119702711, 0), (0, 855248265092), (0, 2256195), (0, 183)], [(0, 4446128158156),
    (0, 7583818), (0, 387)], [(579840788, 0), (7939, 0)]], 3, 4⟩, ⟨[[(31198339489759232, 0), (0, 2279698073069441),
    (0, 5529960502), (0, 393455), (0, 11)], [(0, 25827907148704564), (0, 206760130413), (0, 7581425), (0, 271)],
    [(1710993307039, 0), (0, 4958450), (0, 975)], [(0, 100497217), (3955, 0)]], 3, 4⟩, 72057594037927936, 8840025773,
    5709657464, ⟨[[(15040883495224, 0), (6680414885, 0), (432889, 0), (0, 1329), (0, 3)], [(0, 5028969991), (0,
    2367634), (0, 254), (1, 0)], [(1822376, 0), (691, 0)], [(0, 624)]], 3, 4⟩, 17592186044416, 73462,
    14000953520587433440825545682961703990900054030882807244323278139515180307931059699199750306466763181106565082257018215208238978,
    lc0⟩))) (.sy (.leaf ⟨2935, 16, 10947, 1155, 16, 5555, ⟨[[(0, 25337125355094016), (0, 2297552277034944),
    (1279602089, 0), (0, 205926), (0, 4)], [(25099183995308172, 0), (0, 1309466807675), (0, 3850105), (0, 292)], [(0,
    13706770415435), (0, 25993715), (0, 1345)], [(3584743102, 0), (50415, 0), (2, 0)]], 3, 4⟩, ⟨[[(23393728585449472,
    0), (0, 1525000857364153), (0, 3992812452), (0, 274581), (0, 8)], [(0, 34772098385544113), (0, 286572621206), (0,
    10635275), (0, 375)], [(4584939027433, 0), (0, 16647721), (0, 2776)], [(0, 534435772), (22452, 0), (2, 0)]], 3,
    4⟩, 72057594037927936, 83525212057, 40388288426, ⟨[[(15110813815224, 0), (10069788324, 0), (1056554, 0), (0,
    4195), (0, 15)], [(0, 6679005270), (0, 4695957), (0, 865), (4, 0)], [(3195799, 0), (1794, 0), (1, 0)], [(0,
    1448), (0, 1)]], 3, 4⟩, 17592186044416, 240083,
    14383426812172801972240372388070165868010051480094971550170704802174813598151136896559629872587968445247464323562427459213976039,
    lc0⟩) (.leaf ⟨2956, 16, 11087, 1140, 16, 5534, ⟨[[(0, 1981840704733184), (0, 2325794238025810), (975011373, 0),
    (0, 217732), (0, 5)], [(24753395191459279, 0), (0, 1330354861560), (0, 4353811), (0, 308)], [(0, 13895632056819),
    (0, 27742990), (0, 1461)], [(3656815004, 0), (53450, 0), (2, 0)]], 3, 4⟩, ⟨[[(25847625794469888, 0), (0,
    1523440181421028), (0, 4401587266), (0, 289476), (0, 8)], [(0, 34786680028608037), (0, 296412766293), (0,
    11168658), (0, 388)], [(4558573709951, 0), (0, 19421765), (0, 2887)], [(0, 520750474), (24120, 0), (2, 0)]], 3,
    4⟩, 72057594037927936, 83463855924, 40878471375, ⟨[[(15112535906568, 0), (10161104068, 0), (1206472, 0), (0,
    3690), (0, 14)], [(0, 6648849001), (0, 4692595), (0, 997), (2, 0)], [(3166998, 0), (1763, 0), (1, 0)], [(0,
    1432), (0, 1)]], 3, 4⟩, 17592186044416, 218274,
    14203747039576946691041823403230061585065435618038664967347076054957852521846657506535294964714899103250855024375801628357083694,
    lc0⟩)))
theorem c61 : checkR job con0 true ⟨7, 9, 7, 9, 13, 17⟩ 1 28336 t61 1041 21 2560 63749 251 64000 = true := by decide +kernel

def t62 : CTree :=
  .sx (.sy (.sx (.sy (.leaf ⟨3815, 16, 13722, 1828, 16, 8436, ⟨[[(0, 6722806010281984), (0, 2947180063360169),
    (3593844595, 0), (0, 207080), (0, 5)], [(17653456721208347, 0), (0, 811427056461), (0, 992567), (0, 142)], [(0,
    4172700776277), (0, 4952656), (0, 212)], [(532412034, 0), (6127, 0)]], 3, 4⟩, ⟨[[(16354754650996736, 0), (0,
    2300619641591271), (0, 3255599907), (0, 305708), (0, 9)], [(0, 25594222838356008), (0, 176172627777), (0,
    5890638), (0, 226)], [(1730233422337, 0), (0, 223056), (0, 769)], [(0, 107723631), (2736, 0)]], 3, 4⟩,
    72057594037927936, 8601854955, 5303577465, ⟨[[(14890581715575, 0), (6349756433, 0), (100166, 0), (0, 1903), (0,
    3)], [(0, 4982121778), (0, 2282232), (143, 0), (2, 0)], [(1813460, 0), (715, 0)], [(0, 618)]], 3, 4⟩,
    17592186044416, 114444,
    10552639367441778762601167501257474534626820807585054691097712967637765336699334185717497259131476792781278383613781227039023373,
    lc0⟩) (.leaf ⟨3827, 16, 13839, 1808, 16, 8415, ⟨[[(0, 18763944873033728), (0, 2968830346980210), (3302818376, 0),
    (0, 218399), (0, 5)], [(17392898018032911, 0), (0, 819460499523), (0, 1221425), (0, 150)], [(0, 4210842285232),
    (0, 5220499), (0, 235)], [(540124910, 0), (6465, 0)]], 3, 4⟩, ⟨[[(0, 23325666113847296), (0, 2298388441998262),
    (0, 3721071659), (0, 324119), (0, 10)], [(0, 25620238410647400), (0, 181806269993), (0, 6222428), (0, 235)],
    [(1725618644027, 0), (0, 1008725), (0, 800)], [(0, 106021553), (2985, 0)]], 3, 4⟩, 72057594037927936, 7851566920,
    4912099027, ⟨[[(14893709647394, 0), (6408093386, 0), (183918, 0), (0, 1752), (0, 3)], [(0, 4978448761), (0,
    2300281), (32, 0), (2, 0)], [(1809551, 0), (709, 0)], [(0, 617)]], 3, 4⟩, 17592186044416, 88050,
    13157956299595998159707948000354763113751217787275386007420525385639365202282803777871651138294005122064286856232695554134287438,
    lc0⟩)) (.sy (.leaf ⟨3821, 16, 13707, 1815, 16, 8445, ⟨[[(0, 6242174811078656), (0, 2978009352136517),
    (3547920090, 0), (0, 212830), (0, 5)], [(17286840051062552, 0), (0, 810923132360), (0, 1007834), (0, 143)], [(0,
    4101478095610), (0, 4172399), (0, 177)], [(526296910, 0), (6178, 0)]], 3, 4⟩, ⟨[[(20591869469851648, 0), (0,
    2310481405418714), (0, 3508082693), (0, 315568), (0, 10)], [(0, 25476599780045352), (0, 176364644639), (0,
    5960231), (0, 228)], [(1718649659450, 0), (128770, 0), (0, 738)], [(0, 105343390), (2848, 0)]], 3, 4⟩,
    72057594037927936, 8026689911, 5557787008, ⟨[[(14745589515147, 0), (6315606297, 0), (181079, 0), (0, 1681), (0,
    3)], [(0, 4916867857), (0, 2270785), (53, 0), (2, 0)], [(1788090, 0), (701, 0)], [(0, 609)]], 3, 4⟩,
    17592186044416, 73182,
    12889016053331306368605396718640931914539003585787056261704188602788269860397829301555231802523035058432489644743340084394344233,
    lc0⟩) (.leaf ⟨3833, 16, 13824, 1794, 16, 8423, ⟨[[(0, 27658455953276928), (0, 3000001207043557), (3247601162, 0),
    (0, 224465), (0, 5)], [(17023564031264253, 0), (0, 818976044315), (0, 1238297), (0, 151)], [(0, 4138646462861),
    (0, 4396952), (0, 198)], [(533989881, 0), (6523, 0)]], 3, 4⟩, ⟨[[(35279693794607104, 0), (0, 2308218161720194),
    (0, 3987592223), (0, 334339), (0, 10)], [(0, 25500062451260992), (0, 182047909170), (0, 6294192), (0, 237)],
    [(1714048842388, 0), (0, 626029), (0, 767)], [(0, 103578265), (3100, 0)]], 3, 4⟩, 72057594037927936, 7229730496,
    3953650534, ⟨[[(14743105042900, 0), (6371720058, 0), (260731, 0), (0, 1533), (0, 3)], [(0, 4911295203), (0,
    2286058), (0, 48), (2, 0)], [(1783792, 0), (694, 0)], [(0, 607)]], 3, 4⟩, 17592186044416, 91989,
    14259227996377685187062946078566201564351174205457583138655987066713008502014699411505561502082918082327724488184137855923216318,
    lc0⟩))) (.sx (.sy (.leaf ⟨3839, 16, 13957, 1787, 16, 8392, ⟨[[(0, 34523878912262144), (0, 2990969173270733),
    (2991774599, 0), (0, 230275), (0, 5)], [(17125994285523965, 0), (0, 827800310422), (0, 1464261), (0, 158)], [(0,
    4249451291536), (0, 5514505), (0, 260)], [(548079199, 0), (6824, 0)]], 3, 4⟩, ⟨[[(0, 17750094219935744), (0,
    2296081552337654), (0, 4212645720), (0, 343246), (0, 10)], [(0, 25642823827636687), (0, 187719122888), (0,
    6565513), (0, 244)], [(1720193330495, 0), (0, 1823802), (0, 832)], [(0, 104170529), (3245, 0)]], 3, 4⟩,
    72057594037927936, 7578677421, 4819965011, ⟨[[(14892423099145, 0), (6465875929, 0), (266331, 0), (0, 1597), (0,
    3)], [(0, 4973351938), (0, 2315342), (0, 69), (2, 0)], [(1805473, 0), (701, 0)], [(0, 615)]], 3, 4⟩,
    17592186044416, 101711,
    14424562554532655833164584132648745884227485638577048005334567653643844956089781929040313902719921973162477150944520913696755726,
    lc0⟩) (.leaf ⟨3851, 16, 14077, 1766, 16, 8368, ⟨[[(0, 34745291262033920), (0, 3013833675193453), (2659871497, 0),
    (0, 242746), (0, 5)], [(16853719612253528, 0), (0, 836522478217), (0, 1721926), (0, 166)], [(0, 4288847420008),
    (0, 5836589), (0, 285)], [(556326856, 0), (7205, 0)]], 3, 4⟩, ⟨[[(0, 23185144193990656), (0, 2293996423221292),
    (0, 4731648222), (0, 363137), (0, 11)], [(0, 25665135181234533), (0, 193941708996), (0, 6920824), (0, 253)],
    [(1714148851112, 0), (0, 2669319), (0, 865)], [(0, 102178482), (3516, 0)]], 3, 4⟩, 72057594037927936, 8644974472,
    5775704227, ⟨[[(14893064414102, 0), (6523331726, 0), (343082, 0), (0, 1447), (0, 3)], [(0, 4969306820), (0,
    2327671), (0, 155), (1, 0)], [(1802065, 0), (693, 0)], [(0, 614)]], 3, 4⟩, 17592186044416, 94883,
    14630167650721899846128432447719921037514953607676441835740061877109087684865687718341507742445259748439159771422948371325405858,
    lc0⟩)) (.sy (.leaf ⟨3844, 16, 13942, 1774, 16, 8400, ⟨[[(18994988453724160, 0), (0, 3022494148359049),
    (2926691827, 0), (0, 236673), (0, 5)], [(16753905674573419, 0), (0, 827337164370), (0, 1482827), (0, 159)], [(0,
    4176251552170), (0, 4645011), (0, 220)], [(541928025, 0), (6890, 0)]], 3, 4⟩, ⟨[[(0, 33261877975842816), (0,
    2306165077778722), (0, 4494124538), (0, 353873), (0, 10)], [(0, 25523182042940919), (0, 188034022353), (0,
    6640264), (0, 246)], [(1708859466797, 0), (0, 1408905), (0, 798)], [(0, 101675513), (3364, 0)]], 3, 4⟩,
    72057594037927936, 8046147860, 5653423901, ⟨[[(14752529673499, 0), (6429860276, 0), (330902, 0), (0, 1403), (0,
    3)], [(0, 4911990727), (0, 2299990), (0, 130), (1, 0)], [(1782398, 0), (687, 0)], [(0, 607)]], 3, 4⟩,
    17592186044416, 106999,
    14553720434190021451858192336530358868133645290603841099262740088131192832610628773908812656473220952254732641606806465138195692,
    lc0⟩) (.leaf ⟨3856, 16, 14060, 1752, 16, 8375, ⟨[[(0, 30618868096991232), (0, 3045295301418750), (2583947546, 0),
    (0, 249459), (0, 5)], [(16476468886043273, 0), (0, 835963708496), (0, 1742031), (0, 167)], [(0, 4214007005510),
    (0, 4917578), (0, 243)], [(550084937, 0), (7279, 0)]], 3, 4⟩, ⟨[[(16233430115549184, 0), (0, 2304072212630108),
    (0, 5028030743), (0, 374139), (0, 11)], [(0, 25543032106093684), (0, 194309519037), (0, 6997849), (0, 256)],
    [(1702865071799, 0), (0, 2220553), (0, 830)], [(0, 99618337), (3639, 0)]], 3, 4⟩, 72057594037927936, 9168310322,
    4710731896, ⟨[[(14744771648043, 0), (6483929874, 0), (403363, 0), (0, 1257), (0, 3)], [(0, 4904827756), (0,
    2309685), (0, 206), (1, 0)], [(1778126, 0), (678, 0)], [(0, 605)]], 3, 4⟩, 17592186044416, 95643,
    14026971239822013408818850340227112289940079367669104639616962263377067566144613279207652799973530645008017714605224882930358994,
    lc0⟩)))) (.sy (.sy (.sx (.leaf ⟨3826, 16, 13691, 1802, 16, 8453, ⟨[[(30097717458632704, 0), (0,
    3008559069702500), (3501208035, 0), (0, 218594), (0, 5)], [(16925311592258530, 0), (0, 810293873226), (0,
    1020012), (0, 144)], [(0, 4030799520028), (0, 3386595), (0, 141)], [(520215636, 0), (6225, 0)]], 3, 4⟩,
    ⟨[[(13249063196344320, 0), (0, 2320084030103584), (0, 3763256609), (0, 325482), (0, 10)], [(0,
    25356784286257664), (0, 176505618774), (0, 6026563), (0, 230)], [(1707145328396, 0), (494629, 0), (0, 706)], [(0,
    103020219), (2954, 0)]], 3, 4⟩, 72057594037927936, 7492507910, 4686405289, ⟨[[(14606666534291, 0), (6281829641,
    0), (250596, 0), (0, 1485), (0, 3)], [(0, 4855622936), (0, 2258565), (0, 22), (2, 0)], [(1764858, 0), (688, 0)],
    [(0, 600)]], 3, 4⟩, 17592186044416, 97842,
    13971659169130316561731326034266955391384131050472804797899845577452323558561470988591671447589979988435023358331389650421260393,
    lc0⟩) (.leaf ⟨3831, 16, 13673, 1789, 16, 8462, ⟨[[(10174432218611712, 0), (0, 3038596723740808), (3453593785, 0),
    (0, 224352), (0, 5)], [(16567657136689432, 0), (0, 809479666014), (0, 1028963), (0, 144)], [(0, 3960380066252),
    (0, 2595661), (0, 104)], [(514128865, 0), (6267, 0)]], 3, 4⟩, ⟨[[(25150397525655552, 0), (0, 2329974283115595),
    (0, 4021876704), (0, 335522), (0, 10)], [(0, 25240770621906816), (0, 176636132226), (0, 6091008), (0, 232)],
    [(1696117529523, 0), (873881, 0), (0, 674)], [(0, 100777676), (3054, 0)]], 3, 4⟩, 72057594037927936, 7010222114,
    3818764096, ⟨[[(14464858001275, 0), (6244160946, 0), (311821, 0), (0, 1307), (0, 3)], [(0, 4793210539), (0,
    2243815), (0, 86), (1, 0)], [(1741367, 0), (675, 0)], [(0, 592)]], 3, 4⟩, 17592186044416, 125820,
    14086545914717248738550093679974475392592854685588939498367992436398865478499877102028412059140493157923582361624320036757885476,
    lc0⟩)) (.sx (.leaf ⟨3838, 16, 13807, 1781, 16, 8431, ⟨[[(0, 20705846450683904), (0, 3030673926583221),
    (3191336488, 0), (0, 230530), (0, 5)], [(16658223295719512, 0), (0, 818303212914), (0, 1251785), (0, 151)], [(0,
    4066703102408), (0, 3566704), (0, 160)], [(527848995, 0), (6577, 0)]], 3, 4⟩, ⟨[[(25840267685167104, 0), (0,
    2318064609658957), (0, 4257321748), (0, 344653), (0, 10)], [(0, 25380709325156648), (0, 182256837824), (0,
    6363272), (0, 239)], [(1702769910125, 0), (0, 228842), (0, 734)], [(0, 101207617), (3210, 0)]], 3, 4⟩,
    72057594037927936, 7620709230, 4596993156, ⟨[[(14602294262023, 0), (6334941976, 0), (322878, 0), (0, 1349), (0,
    3)], [(0, 4849362755), (0, 2271012), (0, 109), (1, 0)], [(1760483, 0), (681, 0)], [(0, 598)]], 3, 4⟩,
    17592186044416, 116899,
    14368836782572573066451207036054415522002097337417976335843044044389701608037088362809651857990599482653885095373038079696111783,
    lc0⟩) (.leaf ⟨3842, 16, 13789, 1768, 16, 8439, ⟨[[(22154977855569920, 0), (0, 3061052602427498), (3134411223, 0),
    (0, 236604), (0, 5)], [(16298128624854245, 0), (0, 817500752401), (0, 1261909), (0, 152)], [(0, 3995321248697),
    (0, 2730791), (0, 120)], [(521739432, 0), (6626, 0)]], 3, 4⟩, ⟨[[(20385298689032192, 0), (0, 2327926387623827),
    (0, 4530149070), (0, 355058), (0, 10)], [(0, 25262155998000984), (0, 182431838620), (0, 6429623), (0, 241)],
    [(1691773063771, 0), (182085, 0), (0, 701)], [(0, 98908437), (3313, 0)]], 3, 4⟩, 72057594037927936, 7988626244,
    5406452572, ⟨[[(14466119761834, 0), (6298266701, 0), (376765, 0), (0, 1186), (0, 2)], [(0, 4790887846), (0,
    2255690), (0, 160), (1, 0)], [(1739080, 0), (668, 0)], [(0, 591)]], 3, 4⟩, 17592186044416, 97184,
    13732584088074830754305382924493402637881346056192085650403077668422278172817953447415748831858144172417764487757109241133717802,
    lc0⟩))) (.sx (.sy (.leaf ⟨3849, 16, 13924, 1760, 16, 8407, ⟨[[(0, 3490089786212352), (0, 3053302889016458),
    (2860351226, 0), (0, 243053), (0, 5)], [(16384777566240734, 0), (0, 826622158162), (0, 1497667), (0, 160)], [(0,
    4103011918263), (0, 3767581), (0, 179)], [(535730610, 0), (6950, 0)]], 3, 4⟩, ⟨[[(12184354290122752, 0), (0,
    2315993128014917), (0, 4778381293), (0, 364556), (0, 11)], [(0, 25401321587729512), (0, 188291150893), (0,
    6711407), (0, 248)], [(1697621070983, 0), (0, 978898), (0, 763)], [(0, 99244246), (3476, 0)]], 3, 4⟩,
    72057594037927936, 8572311539, 5386938697, ⟨[[(14604702736698, 0), (6390506209, 0), (389585, 0), (0, 1222), (0,
    3)], [(0, 4847543329), (0, 2282617), (0, 183), (1, 0)], [(1758444, 0), (673, 0)], [(0, 598)]], 3, 4⟩,
    17592186044416, 106339,
    13921801376424638601312968751874374550377560763816035427383156112834826093627911075320293076155625225326818498004279901648289012,
    lc0⟩) (.leaf ⟨3860, 16, 14043, 1739, 16, 8382, ⟨[[(29024400553607168, 0), (0, 3076689370774570), (2507343370, 0),
    (0, 256206), (0, 6)], [(16105896320514356, 0), (0, 835326908168), (0, 1758517), (0, 168)], [(0, 4140032486274),
    (0, 3990701), (0, 200)], [(543912168, 0), (7348, 0)]], 3, 4⟩, ⟨[[(0, 12191147125145600), (0, 2314169473664392),
    (0, 5327832062), (0, 385241), (0, 11)], [(0, 25421744344696378), (0, 194639135787), (0, 7071918), (0, 258)],
    [(1691888375511, 0), (0, 1756383), (0, 794)], [(0, 97137392), (3754, 0)]], 3, 4⟩, 72057594037927936, 8702381330,
    4323339462, ⟨[[(14609035193359, 0), (6446202683, 0), (451736, 0), (0, 1099), (0, 2)], [(0, 4846815649), (0,
    2292386), (0, 244), (1, 0)], [(1757051, 0), (666, 0)], [(0, 598)]], 3, 4⟩, 17592186044416, 96365,
    14047522988565796081499973604611241378556820173148933786742894522185376629630351587702430319216616523024190875139352713205306050,
    lc0⟩)) (.sy (.leaf ⟨3853, 16, 13906, 1747, 16, 8415, ⟨[[(29827480132485120, 0), (0, 3084035158058415),
    (2793541455, 0), (0, 249460), (0, 6)], [(16022210791411179, 0), (0, 825832773483), (0, 1509029), (0, 160)], [(0,
    4030636078497), (0, 2883923), (0, 138)], [(529601617, 0), (7007, 0)]], 3, 4⟩, ⟨[[(4745781527494656, 0), (0,
    2326114221593072), (0, 5066402690), (0, 375376), (0, 11)], [(0, 25283278675859575), (0, 188534033926), (0,
    6780485), (0, 250)], [(1686874330064, 0), (0, 534850), (0, 728)], [(0, 96899405), (3583, 0)]], 3, 4⟩,
    72057594037927936, 9080529703, 4398475113, ⟨[[(14467974650448, 0), (6351874801, 0), (437316, 0), (0, 1069), (0,
    2)], [(0, 4789024178), (0, 2265451), (0, 223), (1, 0)], [(1737181, 0), (661, 0)], [(0, 590)]], 3, 4⟩,
    17592186044416, 79904,
    13878783335205064049772760155305798996042432384338973700417270942494460861329143652288644144589117120377613998528964020287475923,
    lc0⟩) (.leaf ⟨3864, 16, 14024, 1725, 16, 8389, ⟨[[(32711176306688000, 0), (0, 3107569396635763), (2429866932, 0),
    (0, 262944), (0, 6)], [(15739677894362526, 0), (0, 834492524813), (0, 1771059), (0, 169)], [(0, 4066334603274),
    (0, 3056093), (0, 156)], [(537728633, 0), (7411, 0)]], 3, 4⟩, ⟨[[(35627589746868224, 0), (0, 2324286580697265),
    (0, 5630929397), (0, 396439), (0, 11)], [(0, 25301247377417777), (0, 194929267253), (0, 7142983), (0, 260)],
    [(1681209135225, 0), (0, 1277631), (0, 757)], [(0, 94734342), (3864, 0)]], 3, 4⟩, 72057594037927936, 7983126264,
    5128053565, ⟨[[(14465335721364, 0), (6405113343, 0), (495948, 0), (0, 950), (0, 2)], [(0, 4785846276), (0,
    2273363), (0, 275), (1, 0)], [(1735157, 0), (653, 0)], [(0, 590)]], 3, 4⟩, 17592186044416, 86195,
    13470659939366172996750866122026015850191799212955019302348708718021185875856316543790162520997221873238590962377066708187834840,
    lc0⟩))))
theorem c62 : checkR job con0 true ⟨7, 9, 7, 9, 13, 17⟩ 1 28336 t62 1083 21 2560 63247 251 64000 = true := by decide +kernel

def t63 : CTree :=
  .sx (.sy (.sx (.leaf ⟨2289, 16, 8438, 1143, 16, 5491, ⟨[[(14486818762162176, 0), (0, 3608793055867476),
    (5018436780, 0), (0, 1243165), (0, 54)], [(9724211835306469, 0), (0, 1006308134078), (0, 5060221), (0, 852)],
    [(0, 2573545665487), (0, 7545265), (0, 773)], [(336839023, 0), (9256, 0), (1, 0)]], 3, 4⟩, ⟨[[(0,
    9753503759892480), (0, 3020782892591657), (0, 14669628907), (0, 2079991), (0, 119)], [(0, 16939687331881643), (0,
    268781493623), (0, 19715156), (0, 1414)], [(1123159867489, 0), (0, 5269379), (0, 2421)], [(0, 65202236), (5200,
    0), (1, 0)]], 3, 4⟩, 72057594037927936, 9518807014, 12781009170, ⟨[[(14896438829272, 0), (10027547963, 0),
    (1035657, 0), (0, 4283), (0, 14)], [(0, 8392333063), (0, 6005956), (0, 1007), (5, 0)], [(5137685, 0), (2947, 0),
    (2, 0)], [(0, 2964), (0, 1)]], 3, 4⟩, 17592186044416, 334472,
    14771747895750239857315767945475891219154563896321533177912396436066853656345462928398634970278662772351465975040474721763978029,
    lc0⟩) (.leaf ⟨2282, 16, 8392, 1132, 16, 5486, ⟨[[(21336926688477184, 0), (0, 3631166702828252), (4778415715, 0),
    (0, 1272129), (0, 55)], [(9457967704055951, 0), (0, 1001403645807), (0, 5092656), (0, 854)], [(0, 2517512844399),
    (0, 6337042), (0, 660)], [(331717922, 0), (9319, 0), (1, 0)]], 3, 4⟩, ⟨[[(0, 952564038402048), (0,
    3029319667257316), (0, 15487760955), (0, 2137664), (0, 121)], [(0, 16830344401801725), (0, 268951180544), (0,
    19896124), (0, 1424)], [(1114042751089, 0), (0, 4599432), (0, 2317)], [(0, 63349287), (5361, 0), (1, 0)]], 3, 4⟩,
    72057594037927936, 10441793139, 13864297261, ⟨[[(14750842309198, 0), (9981891664, 0), (1151189, 0), (0, 3720),
    (0, 13)], [(0, 8321922443), (0, 5990558), (0, 1139), (4, 0)], [(5115708, 0), (2918, 0), (2, 0)], [(0, 2960), (0,
    1)]], 3, 4⟩, 17592186044416, 271736,
    14746036214241258099902318769713445394632268840135592304514184126808384519604252775913383771242107906854748373913997407485808133,
    lc0⟩)) (.leaf ⟨1935, 16, 7204, 840, 16, 4128, ⟨[[(17989192017772544, 0), (0, 3095704231550965), (2499518225, 0),
    (0, 1174193), (0, 50)], [(15555200653630482, 0), (0, 1728671268509), (0, 10993570), (0, 1595)], [(0,
    8729021744764), (0, 26437650), (0, 2866)], [(2322793184, 0), (69844, 0), (7, 0)]], 3, 4⟩, ⟨[[(0,
    30367086636417024), (0, 2287827539281202), (0, 13869681999), (0, 1775683), (0, 98)], [(0, 25609708016024670), (0,
    436019909580), (0, 33140464), (0, 2312)], [(3355886135324, 0), (0, 22322886), (0, 7763)], [(0, 369472185),
    (36926, 0), (5, 0)]], 3, 4⟩, 72057594037927936, 63166386668, 43564533007, ⟨[[(14828397199134, 0), (13438069210,
    0), (2376099, 0), (0, 7119), (0, 37)], [(0, 9923113212), (0, 9466868), (0, 2859), (6, 0)], [(7226061, 0), (5370,
    0), (4, 0)], [(0, 4973), (0, 3)]], 3, 4⟩, 17592186044416, 643269,
    14271213222497453532199951418703652098832757356496625399361376657582540401480032152306196173783609596051764289716753389506059816,
    lc0⟩)) (.sy (.leaf ⟨1928, 16, 7065, 848, 16, 4163, ⟨[[(17994433129496576, 0), (0, 3110113640743044), (3750694470,
    0), (0, 1116505), (0, 49)], [(15397341552374059, 0), (0, 1687266305585), (0, 8697168), (0, 1452)], [(0,
    8268135656867), (0, 15357280), (0, 1660)], [(2201321813, 0), (63840, 0), (6, 0)]], 3, 4⟩, ⟨[[(0,
    8801881730367488), (0, 2311641576094595), (0, 12710738530), (0, 1690600), (0, 95)], [(0, 25331193201073454), (0,
    408963445958), (0, 30624156), (0, 2185)], [(3345928074911, 0), (0, 10818664), (0, 6559)], [(0, 368904571),
    (33938, 0), (5, 0)]], 3, 4⟩, 72057594037927936, 61151634119, 38157978839, ⟨[[(14539671446854, 0), (13043667785,
    0), (2235043, 0), (0, 6855), (0, 33)], [(0, 9684765773), (0, 9249137), (0, 2609), (8, 0)], [(7058508, 0), (5271,
    0), (4, 0)], [(0, 4834), (0, 3)]], 3, 4⟩, 17592186044416, 571652,
    14479045494976976437321215729546570817250140792206542330326190242881229797312697455690105192513568888776387875347636870221941039,
    lc0⟩) (.leaf ⟨1939, 16, 7185, 826, 16, 4132, ⟨[[(0, 1619629687504896), (0, 3159993571414159), (2027859154, 0),
    (0, 1238367), (0, 53)], [(14795053316214577, 0), (0, 1725955083248), (0, 11169705), (0, 1612)], [(0,
    8416864068507), (0, 17476976), (0, 2019)], [(2272910659, 0), (71437, 0), (7, 0)]], 3, 4⟩, ⟨[[(0,
    33690124550152192), (0, 2308411646280311), (0, 15289676651), (0, 1875339), (0, 102)], [(0, 25354273897798318),
    (0, 438120088768), (0, 33796619), (0, 2349)], [(3313934223014, 0), (0, 17558022), (0, 7084)], [(0, 347941464),
    (38972, 0), (6, 0)]], 3, 4⟩, 72057594037927936, 60746488036, 41521713669, ⟨[[(14541352401947, 0), (13265483035,
    0), (2614987, 0), (0, 5142), (0, 29)], [(0, 9679925018), (0, 9299469), (0, 2967), (2, 0)], [(7051282, 0), (5218,
    0), (2, 0)], [(0, 4839), (0, 3)]], 3, 4⟩, 17592186044416, 600998,
    11349124907707476700352558292731205820381091570206364482327931579604041961133995249473048761517986664592973051381260611371838946,
    lc0⟩))
theorem c63 : checkR job con0 true ⟨7, 9, 7, 9, 13, 17⟩ 1 28336 t63 1083 21 2560 63749 251 64000 = true := by decide +kernel

end PyX.Kron.V3b
