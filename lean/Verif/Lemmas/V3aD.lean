import Verif.Lemmas.V3aJob

/-!
# The volume from pressure and enthalpy in subregion 3a, part D of the certificate
-/

namespace PyX.Kron.V3a

set_option Elab.async false

def t61 : CTree :=
  .sx (.sy (.out ⟨123, 16, 106, 972, 16, 1058, ⟨[[(0, 2072882687620096), (0, 1776594611287026), (52964589283, 0)],
    [(28847956050144518, 0), (0, 2585977869199), (0, 77346238)], [(53633951361122, 0), (363088466, 0), (0, 637493)]],
    2, 2⟩, ⟨[[(15554412698517504, 0), (0, 3668076368538527), (108577954375, 0)], [(0, 7022825003152553), (0,
    1113031880332), (101728256, 0)], [(30668581188396, 0), (0, 1471544147), (236495, 0)]], 2, 2⟩, 72057594037927936,
    472626537235416, 312774352196964, ⟨[], 0, 0⟩, 0, 0, 0, lc0⟩ 0 424 68) (.sx (.sy (.sx (.leaf ⟨383, 16, 334, 332,
    16, 2504, ⟨[[(0, 22020097532293120), (0, 2669693607451825), (43650062676, 0), (320335, 0), (0, 99)],
    [(20644785089292328, 0), (0, 1033292169980), (0, 4914324), (2632, 0)], [(10150410169209, 0), (0, 33150113), (0,
    23159), (2, 0)], [(2249372805, 0), (129162, 0), (0, 12)]], 3, 4⟩, ⟨[[(11316868498313216, 0), (0,
    4026345048233747), (57030168196, 0), (0, 1316847), (92, 0)], [(0, 4711545119764056), (0, 282141609325),
    (11208622, 0), (0, 835)], [(4097347448431, 0), (0, 91271888), (8045, 0)], [(792637523, 0), (0, 46), (2, 0)]], 3,
    4⟩, 72057594037927936, 47527939215, 11863355882, ⟨[[(9091504217445, 0), (3325215757, 0), (1559420, 0), (549, 0)],
    [(0, 5034477293), (0, 7559950), (0, 6684), (0, 3)], [(7530418, 0), (18864, 0), (23, 0)], [(0, 22977), (0, 69)]],
    3, 4⟩, 17592186044416, 29554815,
    5509378349565510611310514360557066774976968898495108821687522917065007496988573703684107736081206420776106095093286278081148891,
    lc0⟩) (.out ⟨336, 16, 319, 2116, 16, 2347, ⟨[[(29386564616622080, 0), (0, 2591292936160700), (41452696575, 0)],
    [(20543305275544606, 0), (0, 988873563375), (0, 6614762)], [(9964107205970, 0), (0, 15402930), (0, 23623)]], 2,
    2⟩, ⟨[[(0, 8884185222840320), (0, 3974409946601760), (56604565305, 0)], [(0, 4294081637062405), (0,
    285215494715), (11708814, 0)], [(4130820969386, 0), (0, 89682400), (8218, 0)]], 2, 2⟩, 72057594037927936,
    28141221820885, 28992691224103, ⟨[], 0, 0⟩, 0, 0, 0, lc0⟩ 0 1277 68)) (.sx (.leaf ⟨371, 16, 340, 307, 16, 2530,
    ⟨[[(0, 14979774045454336), (0, 2672842655304709), (44781192587, 0), (140409, 0), (0, 84)], [(20486686077492794,
    0), (0, 1054937579889), (0, 1225074), (2338, 0)], [(10310177763398, 0), (0, 55591474), (0, 19968), (2, 0)],
    [(2352650902, 0), (119139, 0), (0, 12)]], 3, 4⟩, ⟨[[(33423543859077120, 0), (0, 4011257858952767), (55760224298,
    0), (0, 1142033), (94, 0)], [(0, 4900820987425835), (0, 274303060495), (10161923, 0), (0, 699)], [(4095635178135,
    0), (0, 84130546), (7955, 0)], [(801495241, 0), (2626, 0), (3, 0)]], 3, 4⟩, 72057594037927936, 39525277651,
    14103742385, ⟨[[(9091181526051, 0), (3343822238, 0), (1606627, 0), (595, 0)], [(0, 5019246888), (0, 7690183), (0,
    7050), (0, 4)], [(7944899, 0), (20237, 0), (26, 0)], [(0, 21625), (0, 64)]], 3, 4⟩, 17592186044416, 33619372,
    3266891578193440494614401877883506781774197857483058815899055191198492435445248951177461350715938340475962975210327744552687295,
    lc0⟩) (.leaf ⟨373, 16, 331, 306, 16, 2540, ⟨[[(0, 10806751872495616), (0, 2645312130160568), (43510570748, 0),
    (236364, 0), (0, 89)], [(20799620960742281, 0), (0, 1030924244481), (0, 2886619), (2471, 0)], [(10325039671167,
    0), (0, 38762285), (0, 20892), (2, 0)], [(2275753610, 0), (127807, 0), (0, 12)]], 3, 4⟩, ⟨[[(0,
    6284410789273600), (0, 4038827649841172), (56423413521, 0), (0, 1176292), (98, 0)], [(0, 4570535851000104), (0,
    282463829293), (10888477, 0), (0, 714)], [(4213353980190, 0), (0, 83973548), (8357, 0)], [(806332071, 0), (5161,
    0), (3, 0)]], 3, 4⟩, 72057594037927936, 52666211686, 10131954184, ⟨[[(9024205796462, 0), (3233822426, 0),
    (1509104, 0), (545, 0)], [(0, 4950830651), (0, 7364489), (0, 6558), (0, 3)], [(7534768, 0), (18802, 0), (24, 0)],
    [(0, 22001), (0, 64)]], 3, 4⟩, 17592186044416, 32370154,
    4291713813328173932065205878492609439435997082426335986700227993308490539706487154486621787021460613103880908003779716295922455,
    lc0⟩))) (.sy (.out ⟨240, 16, 216, 1968, 16, 2187, ⟨[[(23448263119058944, 0), (0, 1796807404350879), (27720601814,
    0)], [(29554694042265387, 0), (0, 1339527664060), (0, 13181386)], [(28065163680028, 0), (31642815, 0), (0,
    70103)]], 2, 2⟩, ⟨[[(25150683014987776, 0), (0, 3720540471264727), (53464037113, 0)], [(0, 7015401476735529), (0,
    552522547785), (23804777, 0)], [(15944823802197, 0), (0, 331283195), (32344, 0)]], 2, 2⟩, 72057594037927936,
    115758551230140, 75386114140539, ⟨[], 0, 0⟩, 0, 0, 0, lc0⟩ 0 108 12) (.sx (.sy (.out ⟨473, 16, 450, 3926, 16,
    4403, ⟨[[(0, 35758733537390592), (0, 1835030567865509), (14687125977, 0)], [(29649085662145286, 0), (0,
    701629572621), (0, 1945699)], [(14428091986714, 0), (0, 11004044), (0, 7906)]], 2, 2⟩, ⟨[[(2735812253450240, 0),
    (0, 3699591561309521), (26100520197, 0)], [(0, 7600594116471122), (0, 266134679843), (5408037, 0)],
    [(7872872870318, 0), (0, 77677816), (3987, 0)]], 2, 2⟩, 72057594037927936, 29752849208195, 18245984478381, ⟨[],
    0, 0⟩, 0, 0, 0, lc0⟩ 0 258 13) (.leaf ⟨533, 16, 464, 552, 16, 4733, ⟨[[(33665378174361600, 0), (0,
    1876867985161592), (15235018142, 0), (52083, 0), (0, 8)], [(30207880324738274, 0), (0, 725114556290), (0,
    1301187), (453, 0)], [(14869269806930, 0), (0, 19208466), (0, 7512)], [(3177935035, 0), (95879, 0), (0, 4)]], 3,
    4⟩, ⟨[[(10071483355881472, 0), (0, 3760884867216931), (26297469061, 0), (0, 269274), (12, 0)], [(0,
    7916591370615531), (0, 267028987494), (5282571, 0), (0, 161)], [(8021044507241, 0), (0, 75440370), (4049, 0)],
    [(1500141721, 0), (7969, 0), (1, 0)]], 3, 4⟩, 72057594037927936, 59366182679, 13208887633, ⟨[[(8957906329176, 0),
    (1692172553, 0), (416934, 0), (80, 0)], [(0, 3407476681), (0, 2672993), (0, 1261)], [(3509085, 0), (4642, 0), (3,
    0)], [(0, 7592), (0, 12)]], 3, 4⟩, 17592186044416, 2410850,
    4378959916706342943334602363061411375680595746707411789542767029148355307688082864622399307750078635210751691808680936418666269,
    lc0⟩)) (.out ⟨331, 16, 308, 2123, 16, 2391, ⟨[[(2748037006929920, 0), (0, 2542259923438436), (40118025655, 0)],
    [(21012887709216670, 0), (0, 962675633625), (0, 6179007)], [(10134602438515, 0), (0, 3327345), (0, 22146)]], 2,
    2⟩, ⟨[[(0, 22782957295894528), (0, 4016033226297328), (56733265838, 0)], [(0, 3801068286637853), (0,
    292988248902), (12212236, 0)], [(4364573562601, 0), (0, 81062220), (9003, 0)]], 2, 2⟩, 72057594037927936,
    27681234499339, 27381662566110, ⟨[], 0, 0⟩, 0, 0, 0, lc0⟩ 0 177 13))))) (.out ⟨86, 16, 68, 525, 16, 581,
    ⟨[[(26031500300655616, 0), (0, 2385125213435511), (131175455509, 0)], [(21125638560617841, 0), (0,
    3305876496871), (0, 268308877)], [(37836508029246, 0), (1243929137, 0), (0, 1778113)]], 2, 2⟩,
    ⟨[[(819413780258816, 0), (0, 4021652297130971), (238775100688, 0)], [(0, 2543969323529854), (0, 1291955246041),
    (248624655, 0)], [(18158317246458, 0), (0, 1426140911), (598447, 0)]], 2, 2⟩, 72057594037927936, 632361132423919,
    559050201463278, ⟨[], 0, 0⟩, 0, 0, 0, lc0⟩ 0 137 36)
theorem c61 : checkR job con0 true ⟨7, 9, 7, 9, 13, 17⟩ 1 9016 t61 705 21 320 15247 251 16000 = true := by decide +kernel

def t62 : CTree :=
  .sy (.sx (.sy (.leaf ⟨257, 16, 244, 256, 16, 2330, ⟨[[(4796875859128320, 0), (0, 1901759215544644), (32229170846,
    0), (22494, 0), (0, 51)], [(29268412762032841, 0), (0, 1517741898941), (1915680, 0), (3010, 0)],
    [(29938082052517, 0), (0, 192092183), (0, 49379), (7, 0)], [(13815842686, 0), (652903, 0), (0, 63)]], 3, 4⟩,
    ⟨[[(19570287606497280, 0), (0, 3648504034597186), (50080826874, 0), (0, 888931), (87, 0)], [(0,
    8960192463784442), (0, 493236952638), (17583589, 0), (0, 1035)], [(15125919972903, 0), (0, 279615626), (28764,
    0), (0, 1)], [(5934545634, 0), (51977, 0), (25, 0)]], 3, 4⟩, 72057594037927936, 218194143081, 88605095122,
    ⟨[[(9058605500829, 0), (3636722995, 0), (1940754, 0), (819, 0)], [(0, 6970265972), (0, 11807865), (0, 12175), (0,
    7)], [(15877961, 0), (44596, 0), (65, 0)], [(0, 58309), (0, 192)]], 3, 4⟩, 17592186044416, 443120088,
    3925546677750765975002120492503776426172455500422550951112420278827046293500717199905162482141694908206009832683770410369405505,
    lc0⟩) (.leaf ⟨249, 16, 249, 233, 16, 2346, ⟨[[(0, 5118689136726016), (0, 1907716114625309), (32851046679, 0), (0,
    70503), (0, 41)], [(29091521604666770, 0), (0, 1544683173271), (6207245, 0), (2575, 0)], [(30441301287146, 0),
    (0, 241623606), (0, 40500), (6, 0)], [(14417556850, 0), (603821, 0), (0, 60)]], 3, 4⟩, ⟨[[(0, 27824398146693120),
    (0, 3623564464131665), (49207473287, 0), (0, 723025), (83, 0)], [(0, 9266689267189193), (0, 479574300619),
    (16317433, 0), (0, 811)], [(15095603896648, 0), (0, 253405491), (26930, 0), (0, 2)], [(6008337817, 0), (79992,
    0), (30, 0)]], 3, 4⟩, 72057594037927936, 139485986124, 113346682382, ⟨[[(9059903020516, 0), (3670864321, 0),
    (2015310, 0), (892, 0)], [(0, 6958411062), (0, 12065491), (0, 12949), (0, 8)], [(16387216, 0), (46872, 0), (70,
    0)], [(0, 58220), (0, 203)]], 3, 4⟩, 17592186044416, 484413469,
    3018393299427228220779743741500894555364543955137014527536053158132103496843839969275818087855568858781364225887824659483247816,
    lc0⟩)) (.sy (.sx (.leaf ⟨364, 16, 329, 279, 16, 2576, ⟨[[(31290731983507456, 0), (0, 2628949278462612),
    (43469188790, 0), (167091, 0), (0, 79)], [(21031410006790178, 0), (0, 1030009801523), (0, 932263), (2314, 0)],
    [(10529932013453, 0), (0, 42277944), (0, 18651), (2, 0)], [(2302949425, 0), (127748, 0), (0, 11)]], 3, 4⟩,
    ⟨[[(16661120767066112, 0), (0, 4051192942449606), (56013125702, 0), (0, 1019885), (100, 0)], [(0,
    4416555687936024), (0, 282292780854), (10763682, 0), (0, 605)], [(4335886910353, 0), (0, 75548776), (8617, 0)],
    [(820204571, 0), (11199, 0), (4, 0)]], 3, 4⟩, 72057594037927936, 59809538041, 15568533697, ⟨[[(8958135944220, 0),
    (3145654687, 0), (1460511, 0), (541, 0)], [(0, 4856279706), (0, 7155313), (0, 6422), (0, 3)], [(7481288, 0),
    (18553, 0), (24, 0)], [(0, 21083), (0, 61)]], 3, 4⟩, 17592186044416, 34822909,
    3692248860882537231836346711049320392293328617487549195098090015168282115603448871548546352329349779793702034896002311747463865,
    lc0⟩) (.leaf ⟨368, 16, 321, 278, 16, 2587, ⟨[[(0, 15357461790318592), (0, 2607295267199101), (42341117048, 0),
    (261894, 0), (0, 84)], [(21394854129265374, 0), (0, 1007749381078), (0, 2492997), (2451, 0)], [(10555107809584,
    0), (0, 24833491), (0, 19505), (2, 0)], [(2214617806, 0), (135870, 0), (0, 10)]], 3, 4⟩, ⟨[[(0,
    3907345301172224), (0, 4080532171150156), (56721847442, 0), (0, 1050110), (103, 0)], [(0, 4065294371011875), (0,
    289807220320), (11555454, 0), (0, 624)], [(4457876172478, 0), (0, 74288026), (9102, 0)], [(817849941, 0), (13853,
    0), (4, 0)]], 3, 4⟩, 72057594037927936, 75136415342, 20791467904, ⟨[[(8888764121751, 0), (3035514432, 0),
    (1364917, 0), (492, 0)], [(0, 4771401180), (0, 6809391), (0, 5914), (0, 3)], [(6970504, 0), (16865, 0), (21, 0)],
    [(0, 21447), (0, 62)]], 3, 4⟩, 17592186044416, 32210954,
    6014562451958182832569806012280189592164244237958409165765260516553205803989518005273471195376516641460707299375789153213080508,
    lc0⟩)) (.leaf ⟨251, 16, 234, 232, 16, 2393, ⟨[[(0, 30084634803294208), (0, 1854117909959592), (31045779961, 0),
    (46269, 0), (0, 49)], [(29813585911721131, 0), (0, 1467461757470), (2340301, 0), (2944, 0)], [(30307348346658,
    0), (0, 147057845), (0, 45094), (6, 0)], [(13386065286, 0), (701582, 0), (0, 56)]], 3, 4⟩, ⟨[[(10655406457841664,
    0), (0, 3717154143243804), (50943071476, 0), (0, 774979), (88, 0)], [(0, 8126407764034971), (0, 510391986812),
    (19112829, 0), (0, 952)], [(16171860923838, 0), (0, 245670505), (31310, 0), (0, 1)], [(6132459637, 0), (121546,
    0), (30, 0)]], 3, 4⟩, 72057594037927936, 466600453777, 123695158291, ⟨[[(8919853325915, 0), (3379165505, 0),
    (1719838, 0), (716, 0)], [(0, 6768539606), (0, 10883540), (0, 10852), (0, 6)], [(15069934, 0), (40697, 0), (58,
    0)], [(0, 57346), (0, 181)]], 3, 4⟩, 17592186044416, 491148531,
    3484475982038697944914034682261995525339932002258942578649658151787224908167927617264055250978730072306115728797746535902456045,
    lc0⟩))) (.sx (.sy (.sx (.leaf ⟨337, 16, 362, 232, 16, 2607, ⟨[[(0, 13705057972965376), (0, 2702211048549463),
    (47368387331, 0), (0, 239691), (0, 43)], [(20125385976791610, 0), (0, 1112624618351), (7515470, 0), (1411, 0)],
    [(10848230247189, 0), (0, 106888818), (0, 10619), (2, 0)], [(2669153566, 0), (92518, 0), (0, 10)]], 3, 4⟩,
    ⟨[[(14010519424595968, 0), (0, 3966975509901236), (53432394090, 0), (0, 619935), (81, 0)], [(0,
    5453971707838145), (0, 255000730894), (8181229, 0), (0, 347)], [(4107340531565, 0), (0, 64217468), (6354, 0), (0,
    1)], [(837973716, 0), (14211, 0), (5, 0)]], 3, 4⟩, 72057594037927936, 38395075262, 22152141168,
    ⟨[[(9091708338656, 0), (3406623132, 0), (1769475, 0), (750, 0)], [(0, 4987096584), (0, 8129944), (0, 8337), (0,
    5)], [(8683344, 0), (23343, 0), (33, 0)], [(0, 21457), (0, 74)]], 3, 4⟩, 17592186044416, 45219273,
    4926956314479677396831464567923046607750971069579938215562895733186462589759782165947044852068704395946884042840013236042396509,
    lc0⟩) (.leaf ⟨339, 16, 352, 230, 16, 2617, ⟨[[(12462324151627776, 0), (0, 2673180115729683), (46347852133, 0),
    (0, 171597), (0, 49)], [(20469261034898389, 0), (0, 1090120785018), (6388315, 0), (1556, 0)], [(10875924695621,
    0), (0, 91783232), (0, 11564), (2, 0)], [(2599034135, 0), (102929, 0), (0, 10)]], 3, 4⟩, ⟨[[(0, 305533537320960),
    (0, 3993055860013589), (53993884277, 0), (0, 638094), (83, 0)], [(0, 5124088957307845), (0, 261313565348),
    (8773555, 0), (0, 403)], [(4229483486792, 0), (0, 62495040), (6979, 0), (0, 1)], [(846931873, 0), (17011, 0), (5,
    0)]], 3, 4⟩, 72057594037927936, 30910968141, 18519901476, ⟨[[(9025316829707, 0), (3292843385, 0), (1658034, 0),
    (686, 0)], [(0, 4907223617), (0, 7757275), (0, 7736), (0, 4)], [(8367634, 0), (21878, 0), (30, 0)], [(0, 20889),
    (0, 69)]], 3, 4⟩, 17592186044416, 44214627,
    3541711379913358378045018117143576278297192710205653857453137308137736812715064036597113829711922401871164322371708574017005239,
    lc0⟩)) (.sx (.leaf ⟨325, 16, 370, 207, 16, 2632, ⟨[[(13012238340866048, 0), (0, 2713525634282968), (47985130685,
    0), (0, 323085), (0, 35)], [(20001371130744744, 0), (0, 1128506685518), (9564665, 0), (1055, 0)],
    [(11030676346208, 0), (0, 118447724), (0, 7486), (2, 0)], [(2773034547, 0), (84416, 0), (0, 10)]], 3, 4⟩, ⟨[[(0,
    21101427730112512), (0, 3951289876527344), (53119173755, 0), (0, 476167), (65, 0)], [(0, 5633472863410929), (0,
    249412984665), (7740143, 0), (0, 360)], [(4115704497463, 0), (0, 58968719), (5207, 0), (0, 1)], [(854472092, 0),
    (19488, 0), (5, 0)]], 3, 4⟩, 72057594037927936, 46923690259, 27080358194, ⟨[[(9095013239528, 0), (3434541697, 0),
    (1837228, 0), (809, 0)], [(0, 4993323372), (0, 8328224), (0, 8881), (0, 5)], [(8895751, 0), (24658, 0), (36, 0)],
    [(0, 21755), (0, 80)]], 3, 4⟩, 17592186044416, 52098377,
    6853506191664088801411568882091573665732743453129865500275326572682507424643981436233542521006284365013619222579501752798376222,
    lc0⟩) (.leaf ⟨328, 16, 360, 204, 16, 2643, ⟨[[(35147420069888, 0), (0, 2686500334713848), (47065548568, 0), (0,
    267425), (0, 42)], [(20376629482907066, 0), (0, 1107228593948), (8644691, 0), (1209, 0)], [(11073287473990, 0),
    (0, 104042677), (0, 8459), (2, 0)], [(2708507240, 0), (95673, 0), (0, 9)]], 3, 4⟩, ⟨[[(27081197593888768, 0), (0,
    3978425705543400), (53677254017, 0), (0, 494954), (64, 0)], [(0, 5305297991122005), (0, 255320959300), (8240970,
    0), (0, 437)], [(4241508744473, 0), (0, 56572904), (5926, 0), (0, 1)], [(865249125, 0), (22395, 0), (6, 0)]], 3,
    4⟩, 72057594037927936, 31440471920, 24700747219, ⟨[[(9022986594562, 0), (3310003028, 0), (1711749, 0), (735, 0)],
    [(0, 4889457025), (0, 7883624), (0, 8168), (0, 5)], [(8517656, 0), (22842, 0), (33, 0)], [(0, 20880), (0, 74)]],
    3, 4⟩, 17592186044416, 49714502,
    5760211497827699618477290339405868102020031029022724420103383722710764091053495503740020462118369137061970576745710308024052863,
    lc0⟩))) (.sy (.leaf ⟨243, 16, 239, 208, 16, 2409, ⟨[[(0, 10465590903367680), (0, 1861888132907335), (31709596579,
    0), (0, 43855), (0, 41)], [(29699188704421083, 0), (0, 1494271193408), (6540190, 0), (2503, 0)],
    [(30868756573540, 0), (0, 191542408), (0, 36359), (6, 0)], [(14017849534, 0), (661715, 0), (0, 52)]], 3, 4⟩,
    ⟨[[(0, 13773331115493376), (0, 3691064959929314), (50237839298, 0), (0, 612915), (76, 0)], [(0,
    8433940822615461), (0, 495182155537), (17876717, 0), (0, 877)], [(16163593385157, 0), (0, 216827410), (29041, 0),
    (0, 2)], [(6242991630, 0), (155417, 0), (35, 0)]], 3, 4⟩, 72057594037927936, 399857965958, 98713284712,
    ⟨[[(8922746085912, 0), (3412634824, 0), (1787500, 0), (779, 0)], [(0, 6751527767), (0, 11112069), (0, 11562), (0,
    7)], [(15612874, 0), (42854, 0), (63, 0)], [(0, 56600), (0, 189)]], 3, 4⟩, 17592186044416, 541790054,
    3243177846743017611298127824161948124938647290777660099281220937422008209058671969495896184183430126936762284626898646767213480,
    lc0⟩) (.sx (.leaf ⟨331, 16, 350, 202, 16, 2654, ⟨[[(0, 21431838561161216), (0, 2657258461581047), (46095999620,
    0), (0, 206833), (0, 49)], [(20728867675437745, 0), (0, 1084454017791), (7666887, 0), (1357, 0)],
    [(11097487464362, 0), (0, 88620969), (0, 9337), (2, 0)], [(2631002314, 0), (105801, 0), (0, 9)]], 3, 4⟩,
    ⟨[[(16316257173026816, 0), (0, 4005850264847069), (54259128668, 0), (0, 516952), (62, 0)], [(0,
    4965003083856011), (0, 261031427328), (8804759, 0), (0, 509)], [(4368887803918, 0), (0, 53794946), (6656, 0), (0,
    1)], [(872062634, 0), (25316, 0), (6, 0)]], 3, 4⟩, 72057594037927936, 36891059618, 22386187801,
    ⟨[[(8954251153801, 0), (3192768223, 0), (1595750, 0), (668, 0)], [(0, 4799142571), (0, 7482745), (0, 7521), (0,
    4)], [(8168728, 0), (21210, 0), (30, 0)], [(0, 20196), (0, 68)]], 3, 4⟩, 17592186044416, 47479206,
    4352565884484201735030370031561396279955030612841361615297540523935468690655684315399369834888300255550203477725169674996964791,
    lc0⟩) (.leaf ⟨333, 16, 340, 200, 16, 2666, ⟨[[(18549942181179392, 0), (0, 2625726540642535), (45075149526, 0),
    (0, 141740), (0, 55)], [(21055672388082917, 0), (0, 1060136243074), (6640845, 0), (1501, 0)], [(11101572094010,
    0), (0, 72396161), (0, 10146), (2, 0)], [(2539281903, 0), (114393, 0), (0, 9)]], 3, 4⟩, ⟨[[(24651649071542272,
    0), (0, 4035068905287088), (54888141430, 0), (0, 542178), (59, 0)], [(0, 4614171589675178), (0, 266611673080),
    (9435816, 0), (0, 577)], [(4498948923466, 0), (0, 50671177), (7389, 0), (0, 1)], [(873896672, 0), (27924, 0), (6,
    0)]], 3, 4⟩, 72057594037927936, 55610259136, 31408044350, ⟨[[(8889754114212, 0), (3084662838, 0), (1492090, 0),
    (611, 0)], [(0, 4729468223), (0, 7142375), (0, 6967), (0, 4)], [(7877218, 0), (19862, 0), (27, 0)], [(0, 19798),
    (0, 63)]], 3, 4⟩, 17592186044416, 46275565,
    2966044948823956716711865116221758344701285624915531540636747835368046313485682335567204717523831513098000969967713342852864492,
    lc0⟩))))
theorem c62 : checkR job con0 true ⟨7, 9, 7, 9, 13, 17⟩ 1 9016 t62 1389 21 640 15749 251 16000 = true := by decide +kernel

def t63 : CTree :=
  .sy (.sx (.sy (.sy (.out ⟨289, 16, 265, 3523, 16, 4014, ⟨[[(34658597068570624, 0), (0, 1106806053788386),
    (8654734077, 0)], [(37772765758082243, 0), (0, 831977032834), (0, 2529542)], [(36212903571265, 0), (13000331, 0),
    (0, 18518)]], 2, 2⟩, ⟨[[(12788759386980352, 0), (0, 3350876085919014), (23585438913, 0)], [(0,
    11261586650365029), (0, 492368985313), (10581941, 0)], [(30106627232472, 0), (0, 240464954), (15952, 0)]], 2, 2⟩,
    72057594037927936, 133375442168446, 101120123343849, ⟨[], 0, 0⟩, 0, 0, 0, lc0⟩ 0 133 12) (.out ⟨285, 16, 268,
    3503, 16, 4017, ⟨[[(0, 662950750793728), (0, 1110513344433484), (8819662038, 0)], [(37777430470653952, 0), (0,
    843525447797), (0, 1693656)], [(36624870441119, 0), (0, 4886370), (0, 17202)]], 2, 2⟩, ⟨[[(0, 33797408125845504),
    (0, 3329853712170690), (23268467838, 0)], [(0, 11514722445082578), (0, 482305441855), (10194953, 0)],
    [(30012337143453, 0), (0, 224683922), (15817, 0)]], 2, 2⟩, 72057594037927936, 136994158973158, 101376265966043,
    ⟨[], 0, 0⟩, 0, 0, 0, lc0⟩ 0 1072 68)) (.sx (.leaf ⟨359, 16, 318, 251, 16, 2625, ⟨[[(0, 12846185990623232), (0,
    2582684830164802), (42227413589, 0), (197687, 0), (0, 77)], [(21582223243730295, 0), (0, 1001933278380), (0,
    453880), (2281, 0)], [(10721723047213, 0), (0, 25919274), (0, 17137), (2, 0)], [(2217623394, 0), (134936, 0), (0,
    10)]], 3, 4⟩, ⟨[[(345708299855872, 0), (0, 4095429174869646), (56577512615, 0), (0, 884349), (99, 0)], [(0,
    3888356340545770), (0, 288212793702), (11613992, 0), (0, 563)], [(4592780725961, 0), (0, 63879358), (9361, 0)],
    [(827104360, 0), (20103, 0), (4, 0)]], 3, 4⟩, 72057594037927936, 84770322379, 28256545975, ⟨[[(8822892435586, 0),
    (2946726524, 0), (1313284, 0), (483, 0)], [(0, 4686607373), (0, 6601735), (0, 5756), (0, 3)], [(6935916, 0),
    (16634, 0), (21, 0)], [(0, 20576), (0, 58)]], 3, 4⟩, 17592186044416, 34927861,
    3953587975597266554463843552143332956271146261441576097449279452044533818051656523812848062093505914768758758903434248043989944,
    lc0⟩) (.sy (.out ⟨451, 16, 427, 3991, 16, 4610, ⟨[[(0, 32004931373531136), (0, 1769346584503821), (14118293506,
    0)], [(30373902684229382, 0), (0, 673245236254), (0, 971737)], [(14768299255516, 0), (0, 2412178), (0, 6476)]],
    2, 2⟩, ⟨[[(10179871968329728, 0), (0, 3800499311531916), (26476940448, 0)], [(0, 6382428914320232), (0,
    273478882736), (5828719, 0)], [(8673765481050, 0), (0, 58757330), (4576, 0)]], 2, 2⟩, 72057594037927936,
    28153584465668, 17511300659598, ⟨[], 0, 0⟩, 0, 0, 0, lc0⟩ 0 214 12) (.leaf ⟨508, 16, 440, 456, 16, 4955, ⟨[[(0,
    4159182857412608), (0, 1808567179115196), (14625699890, 0), (44299, 0), (0, 7)], [(30950179301885544, 0), (0,
    694419994630), (0, 356554), (413, 0)], [(15215041518236, 0), (0, 8878990), (0, 6064)], [(3012391862, 0), (97925,
    0), (0, 4)]], 3, 4⟩, ⟨[[(18476032351035392, 0), (0, 3863351971122761), (26780321844, 0), (0, 202693), (11, 0)],
    [(0, 6672450515463822), (0, 274062697546), (5758307, 0), (0, 136)], [(8849919539979, 0), (0, 55485943), (4596,
    0)], [(1532140806, 0), (21184, 0), (2, 0)]], 3, 4⟩, 72057594037927936, 116384651608, 53744253741,
    ⟨[[(8758000695304, 0), (1520565194, 0), (352158, 0), (68, 0)], [(0, 3265549349), (0, 2389415), (0, 1085)],
    [(3289804, 0), (4114, 0), (3, 0)], [(0, 7366), (0, 11)]], 3, 4⟩, 17592186044416, 2815904,
    5623784372654912673390204938830053974564827908438572320807084671869969692083296730815424925977668999007355096111242091391964523,
    lc0⟩)))) (.out ⟨162, 16, 143, 1063, 16, 1225, ⟨[[(12643595779987456, 0), (0, 2436387768944578), (74816247157,
    0)], [(21725928672174507, 0), (0, 1798604499416), (0, 23570686)], [(20484685772960, 0), (110625151, 0), (0,
    160673)]], 2, 2⟩, ⟨[[(0, 18847559175995392), (0, 4072512438808345), (114966229502, 0)], [(0, 2764229940253216),
    (0, 603527130438), (55543619, 0)], [(9525570932153, 0), (0, 244644465), (82797, 0)]], 2, 2⟩, 72057594037927936,
    113726357109941, 99097319111627, ⟨[], 0, 0⟩, 0, 0, 0, lc0⟩ 0 191 25)) (.sx (.sy (.sx (.leaf ⟨347, 16, 324, 225,
    16, 2652, ⟨[[(29583523060518912, 0), (0, 2588104267629087), (43215212550, 0), (56045, 0), (0, 67)],
    [(21477140927905600, 0), (0, 1019633013847), (2773791, 0), (1972, 0)], [(10906653757923, 0), (0, 42204595), (0,
    14029), (2, 0)], [(2326019299, 0), (127796, 0), (0, 9)]], 3, 4⟩, ⟨[[(0, 2875498393055232), (0, 4080792003918813),
    (55958261237, 0), (0, 707210), (84, 0)], [(0, 4071635461994175), (0, 279816138469), (10904077, 0), (0, 547)],
    [(4609964596565, 0), (0, 55304187), (8889, 0)], [(846863851, 0), (24613, 0), (5, 0)]], 3, 4⟩, 72057594037927936,
    79009346148, 32470870376, ⟨[[(8825887050450, 0), (2964449867, 0), (1353262, 0), (520, 0)], [(0, 4674960510), (0,
    6712174), (0, 6088), (0, 3)], [(7302376, 0), (17706, 0), (23, 0)], [(0, 19785), (0, 56)]], 3, 4⟩, 17592186044416,
    39797447,
    2165230160385886690548145941520017467812730541252356868463438945301519669697676792150959421008413928915582288145671226696881473,
    lc0⟩) (.leaf ⟨351, 16, 316, 224, 16, 2664, ⟨[[(21939147189694464, 0), (0, 2566030857319994), (42236976115, 0),
    (139327, 0), (0, 73)], [(21852297952157056, 0), (0, 997239184825), (1507046, 0), (2109, 0)], [(10920016798953,
    0), (0, 24903418), (0, 14862), (2, 0)], [(2214981159, 0), (133164, 0), (0, 10)]], 3, 4⟩, ⟨[[(0,
    21020078046179328), (0, 4111158722324831), (56687594118, 0), (0, 734272), (83, 0)], [(0, 3696595652171723), (0,
    285615669031), (11727095, 0), (0, 587)], [(4736980568645, 0), (0, 52361691), (9482, 0)], [(832866627, 0), (25757,
    0), (4, 0)]], 3, 4⟩, 72057594037927936, 99167436782, 44755123326, ⟨[[(8761033836366, 0), (2862694456, 0),
    (1264161, 0), (474, 0)], [(0, 4597285637), (0, 6390342), (0, 5596), (0, 3)], [(6869058, 0), (16281, 0), (21, 0)],
    [(0, 19750), (0, 55)]], 3, 4⟩, 17592186044416, 37313564,
    3313430132709104977495938329980627591313520055660052286857127933446330127712136286636159922699277196796514881521070977172354752,
    lc0⟩)) (.sx (.leaf ⟨337, 16, 331, 199, 16, 2678, ⟨[[(0, 25161232930332672), (0, 2599684996179228), (44135466020,
    0), (0, 72814), (0, 62)], [(21419196246736171, 0), (0, 1037386416715), (5590446, 0), (1643, 0)],
    [(11117321479088, 0), (0, 55800118), (0, 10955), (2, 0)], [(2439481127, 0), (121386, 0), (0, 9)]], 3, 4⟩, ⟨[[(0,
    24942468276242432), (0, 4064567018830679), (55546787129, 0), (0, 570260), (56, 0)], [(0, 4250694810342008), (0,
    271935310015), (10130663, 0), (0, 640)], [(4629321114205, 0), (0, 47244395), (8104, 0), (0, 1)], [(868858374, 0),
    (29801, 0), (5, 0)]], 3, 4⟩, 72057594037927936, 73304485359, 43267860659, ⟨[[(8823161667850, 0), (2975248673, 0),
    (1389192, 0), (554, 0)], [(0, 4642360220), (0, 6776480), (0, 6386), (0, 3)], [(7492759, 0), (18351, 0), (25, 0)],
    [(0, 19277), (0, 58)]], 3, 4⟩, 17592186044416, 43607918,
    1873192094414463436245101559500996205115957435997079634254074650177815661471901063521269745434549605794061758190705997551902688,
    lc0⟩) (.leaf ⟨340, 16, 322, 197, 16, 2691, ⟨[[(0, 6525463338741760), (0, 2571471085426974), (43144376942, 0),
    (120, 0), (0, 68)], [(21757742951063046, 0), (0, 1013099467392), (4496742, 0), (1781, 0)], [(11111088838070, 0),
    (0, 38881976), (0, 11781), (2, 0)], [(2322704668, 0), (126020, 0), (0, 9)]], 3, 4⟩, ⟨[[(17535020692316160, 0),
    (0, 4095856160042883), (56258732416, 0), (0, 601251), (53, 0)], [(0, 3875985171280535), (0, 277083130455),
    (10890951, 0), (0, 700)], [(4760791563168, 0), (0, 43651871), (8775, 0), (0, 1)], [(855464251, 0), (30470, 0),
    (5, 0)]], 3, 4⟩, 72057594037927936, 94355437730, 55906138952, ⟨[[(8757723586120, 0), (2871603414, 0), (1295927,
    0), (505, 0)], [(0, 4569339017), (0, 6454291), (0, 5878), (0, 3)], [(7135615, 0), (17036, 0), (23, 0)], [(0,
    19041), (0, 54)]], 3, 4⟩, 17592186044416, 41668666,
    2049509721399305904529918933726491358303773699524668120862080839004418921042843594676759813428907994884026795636759267580684050,
    lc0⟩))) (.sy (.sx (.leaf ⟨355, 16, 308, 223, 16, 2677, ⟨[[(6339228298452992, 0), (0, 2541924811528133),
    (41203106753, 0), (225999, 0), (0, 78)], [(22204441498322094, 0), (0, 973332408768), (200236, 0), (2240, 0)],
    [(10911267997798, 0), (0, 7491598), (0, 15743), (2, 0)], [(2086890816, 0), (136217, 0), (0, 11)]], 3, 4⟩, ⟨[[(0,
    17855690254845952), (0, 4143365976778030), (57476267664, 0), (0, 763343), (83, 0)], [(0, 3310401487495657), (0,
    291292273494), (12605479, 0), (0, 624)], [(4863922589510, 0), (0, 49363063), (10007, 0)], [(809340557, 0),
    (25491, 0), (3, 0)]], 3, 4⟩, 72057594037927936, 121610408998, 58121294650, ⟨[[(8695622494452, 0), (2762482829,
    0), (1179411, 0), (430, 0)], [(0, 4527999547), (0, 6092104), (0, 5145), (0, 3)], [(6397435, 0), (14762, 0), (19,
    0)], [(0, 20151), (0, 56)]], 3, 4⟩, 17592186044416, 34814235,
    7721406714109893193601016157318271569341475351250318965075882426856309667565593935081291220486836090600661029159837910719615996,
    lc0⟩) (.out ⟨314, 16, 294, 2134, 16, 2511, ⟨[[(0, 5291605577519104), (0, 2465407452433184), (39310984919, 0)],
    [(22080426580964937, 0), (0, 928994800656), (0, 1126999)], [(10660846912149, 0), (9497838, 0), (0, 16389)]], 2,
    2⟩, ⟨[[(27089067759042560, 0), (0, 4092892241008031), (57146832870, 0)], [(0, 2853828998251179), (0,
    290844876028), (13258623, 0)], [(4888565049793, 0), (0, 45575949), (10206, 0)]], 2, 2⟩, 72057594037927936,
    24209290568271, 20051147003932, ⟨[], 0, 0⟩, 0, 0, 0, lc0⟩ 0 294 20)) (.sx (.leaf ⟨343, 16, 313, 196, 16, 2704,
    ⟨[[(214959765426176, 0), (0, 2541016038606048), (42101165732, 0), (76598, 0), (0, 74)], [(22068686174833347, 0),
    (0, 987298984725), (3358847, 0), (1911, 0)], [(11080827332194, 0), (0, 21996690), (0, 12676), (2, 0)],
    [(2187583507, 0), (127817, 0), (0, 10)]], 3, 4⟩, ⟨[[(3177899383552000, 0), (0, 4127411733620415), (57006032633,
    0), (0, 634800), (49, 0)], [(0, 3488367131400570), (0, 281945465774), (11707752, 0), (0, 756)], [(4890440301825,
    0), (0, 40062965), (9357, 0), (0, 1)], [(831318009, 0), (29347, 0), (4, 0)]], 3, 4⟩, 72057594037927936,
    118119269576, 73923243602, ⟨[[(8694673835806, 0), (2773145206, 0), (1209511, 0), (460, 0)], [(0, 4509298078), (0,
    6164490), (0, 5411), (0, 3)], [(6773214, 0), (15791, 0), (21, 0)], [(0, 19113), (0, 52)]], 3, 4⟩, 17592186044416,
    39930507,
    2609074473741801001940803323277496648802571554816553254770296034875310108587283865882024742198521355345380552449492220617410953,
    lc0⟩) (.leaf ⟨347, 16, 305, 195, 16, 2718, ⟨[[(2664330637959168, 0), (0, 2516505175204252), (41139990204, 0),
    (156592, 0), (0, 80)], [(22422758988181083, 0), (0, 963200594573), (2178586, 0), (2040, 0)], [(11060660520053,
    0), (0, 5569779), (0, 13746), (2, 0)], [(2039465413, 0), (126702, 0), (0, 12)]], 3, 4⟩, ⟨[[(9838121478729728, 0),
    (0, 4160753394219439), (57812300335, 0), (0, 671054), (45, 0)], [(0, 3089148836020754), (0, 286637192561),
    (12576051, 0), (0, 810)], [(5018596830054, 0), (0, 36758737), (9794, 0), (0, 1)], [(794362946, 0), (25776, 0),
    (2, 0)]], 3, 4⟩, 72057594037927936, 145206019502, 93360823835, ⟨[[(8631317733846, 0), (2676545419, 0), (1127758,
    0), (418, 0)], [(0, 4443461007), (0, 5877730), (0, 4966), (0, 3)], [(6337502, 0), (14408, 0), (19, 0)], [(0,
    19353), (0, 52)]], 3, 4⟩, 17592186044416, 37393830,
    5674531351775813188149997599627755210995385875838303138927382904379968021509355678180367176633812399042374412110022460146812345,
    lc0⟩))))
theorem c63 : checkR job con0 true ⟨7, 9, 7, 9, 13, 17⟩ 1 9016 t63 1431 21 640 15749 251 16000 = true := by decide +kernel

def t64 : CTree :=
  .sy (.out ⟨61, 16, 39, 518, 16, 575, ⟨[[(26235313155244032, 0), (0, 1482961910203279), (61041611283, 0)],
    [(29995344293833905, 0), (0, 3457718440665), (0, 609182741)], [(95189267404460, 0), (7900726814, 0), (0,
    5614816)]], 2, 2⟩, ⟨[[(29854306129477632, 0), (0, 4066075342883502), (254241397866, 0)], [(0, 268088232306162),
    (0, 2894218146225), (646796283, 0)], [(78795971829848, 0), (0, 5111029663), (2371549, 0)]], 2, 2⟩,
    72057594037927936, 1261481018187871, 1114357214284611, ⟨[], 0, 0⟩, 0, 0, 0, lc0⟩ 0 26 15) (.sx (.sy (.out ⟨115,
    16, 90, 1029, 16, 1188, ⟨[[(0, 18123976062771200), (0, 1604243520606555), (45721120968, 0)], [(30697281293791707,
    0), (0, 2228597010249), (0, 58118702)], [(54657998549152, 0), (848811250, 0), (0, 505708)]], 2, 2⟩, ⟨[[(0,
    13400080429350912), (0, 3987285679952625), (115212280500, 0)], [(0, 2968972119824841), (0, 1227123377671),
    (128439796, 0)], [(38920742352868, 0), (0, 856354377), (327631, 0)]], 2, 2⟩, 72057594037927936, 348988244944459,
    258455005504019, ⟨[], 0, 0⟩, 0, 0, 0, lc0⟩ 0 41 11) (.sx (.sy (.out ⟨221, 16, 195, 2046, 16, 2409,
    ⟨[[(29878495139284992, 0), (0, 1673990656731380), (25981323692, 0)], [(31101400478671915, 0), (0, 1228629746893),
    (0, 4434189)], [(29194151947497, 0), (92578421, 0), (0, 50121)]], 2, 2⟩, ⟨[[(0, 33007750288277504), (0,
    3944381145118752), (55666054778, 0)], [(0, 4277172066770912), (0, 568609448969), (27938133, 0)],
    [(19281815886675, 0), (0, 160985964), (39803, 0)]], 2, 2⟩, 72057594037927936, 95000453897792, 63145549696412,
    ⟨[], 0, 0⟩, 0, 0, 0, lc0⟩ 0 79 11) (.sx (.sy (.out ⟨433, 16, 405, 4077, 16, 4848, ⟨[[(0, 27246472023920640), (0,
    1704512552661712), (13645644752, 0)], [(31182764284322231, 0), (0, 639456927030), (34265, 0)], [(15016691095081,
    0), (9498274, 0), (0, 5385)]], 2, 2⟩, ⟨[[(0, 23314365010444288), (0, 3921309236722180), (27450299403, 0)], [(0,
    4919817047951328), (0, 274376049805), (6424077, 0)], [(9588440254825, 0), (0, 34118729), (4763, 0)]], 2, 2⟩,
    72057594037927936, 24842636088898, 15783185108690, ⟨[], 0, 0⟩, 0, 0, 0, lc0⟩ 0 136 9) (.leaf ⟨487, 16, 417, 357,
    16, 5211, ⟨[[(0, 26017376872960000), (0, 1740876787689759), (14113281313, 0), (34542, 0), (0, 7)],
    [(31776237169572687, 0), (0, 658077920216), (605722, 0), (362, 0)], [(15465187714278, 0), (4483824, 0), (0,
    5008)], [(2646120140, 0), (82919, 0), (0, 5)]], 3, 4⟩, ⟨[[(0, 358251852197888), (0, 3986127835997907),
    (27845404719, 0), (0, 165204), (3, 0)], [(0, 5175743609981192), (0, 274426356121), (6265145, 0), (0, 222)],
    [(9799284300455, 0), (0, 30137209), (4658, 0)], [(1419093816, 0), (18124, 0)]], 3, 4⟩, 72057594037927936,
    226605257454, 159520214887, ⟨[[(8567977881703, 0), (1358578055, 0), (291964, 0), (56, 0)], [(0, 3132368565), (0,
    2115269), (0, 912)], [(3048644, 0), (3543, 0), (2, 0)], [(0, 7181), (0, 10)]], 3, 4⟩, 17592186044416, 3157424,
    7822277575763267627674706008185724886918378048386554493423979464065668186720111890519446736019657447679621447306757904152144666,
    lc0⟩)) (.out ⟨312, 16, 284, 2148, 16, 2565, ⟨[[(11064371790602240, 0), (0, 2418542698310259), (38380093951, 0)],
    [(22647773636908602, 0), (0, 895278140178), (0, 395661)], [(10748404023397, 0), (23968146, 0), (0, 16310)]], 2,
    2⟩, ⟨[[(19977697339539456, 0), (0, 4146967809649850), (58401856533, 0)], [(0, 2209702479347016), (0,
    289702562302), (14110345, 0)], [(5156383630026, 0), (0, 31877269), (9714, 0)]], 2, 2⟩, 72057594037927936,
    22002978956615, 18385001275156, ⟨[], 0, 0⟩, 0, 0, 0, lc0⟩ 0 95 9))) (.out ⟨161, 16, 134, 1076, 16, 1277, ⟨[[(0,
    607109221242880), (0, 2353444191732466), (71522726774, 0)], [(22878251314513691, 0), (0, 1678180377991), (0,
    17344479)], [(20804054347666, 0), (202701482, 0), (0, 162002)]], 2, 2⟩, ⟨[[(0, 2719897401720832), (0,
    4177288937652086), (119368384091, 0)], [(0, 1471681868537418), (0, 600542219938), (63643231, 0)],
    [(10506536883801, 0), (0, 147762624), (73446, 0)]], 2, 2⟩, 72057594037927936, 95961612866596, 77651484279246,
    ⟨[], 0, 0⟩, 0, 0, 0, lc0⟩ 0 49 10))) (.out ⟨85, 16, 60, 539, 16, 631, ⟨[[(30484679950955520, 0), (0,
    2232051645698059), (119445464186, 0)], [(23247245153983345, 0), (0, 2899928208952), (0, 218923473)],
    [(38344851939115, 0), (1554385180, 0), (0, 1906783)]], 2, 2⟩, ⟨[[(0, 27030722679422976), (0, 4228320294789906),
    (250361239220, 0)], [(30506304577964, 0), (0, 1303740023579), (302242610, 0)], [(21327018919752, 0), (0,
    957601266), (312289, 0)]], 2, 2⟩, 72057594037927936, 456610259609451, 371814443984654, ⟨[], 0, 0⟩, 0, 0, 0, lc0⟩
    0 27 11))
theorem c64 : checkR job con0 true ⟨7, 9, 7, 9, 13, 17⟩ 1 9016 t64 747 21 320 7749 251 8000 = true := by decide +kernel

def t65 : CTree :=
  .sy (.sy (.sx (.sy (.sy (.leaf ⟨4652, 16, 13385, 332, 16, 1300, ⟨[[(148326748192768, 0), (0, 26883671800505538),
    (954913698303, 0), (51504141, 0), (5339, 0)], [(0, 1866487171298057), (0, 58099606038696), (11393035481, 0),
    (1185645, 0), (114, 0)], [(25441609950540, 0), (0, 166404026727), (0, 6951224), (0, 891)], [(866557514752, 0),
    (0, 2028379073), (0, 339536), (0, 44)]], 3, 4⟩, ⟨[[(0, 21402238527307776), (0, 2391062216736651), (0,
    104326481764), (0, 17360046), (0, 1509)], [(0, 70957321700143680), (3131866763015, 0), (643143075, 0), (79028,
    0), (7, 0)], [(136111826188200, 0), (15999622605, 0), (3375295, 0), (448, 0)], [(0, 465064377684), (0,
    120224658), (0, 22801), (0, 3)]], 3, 4⟩, 72057594037927936, 396049781001728, 12861695529716, ⟨[[(18711433414871,
    0), (57007437429, 0), (64515299, 0), (0, 160110), (0, 244)], [(0, 5090070750), (0, 28979102), (94441, 0), (0,
    331), (0, 12)], [(3273666, 0), (2616, 0), (0, 269), (1, 0)], [(0, 1969), (20, 0)]], 3, 4⟩, 17592186044416,
    124189657,
    8711842315608695032234140703298313388423785063703247405078337745431128410600096723961273557913821760516142231462007200891885522,
    lc0⟩) (.out ⟨362, 16, 347, 24983, 16, 24937, ⟨[[(13060438919372800, 0)], [(78137453534878098, 0)]], 2, 2⟩, ⟨[[(0,
    29691106443132928), (28076565976934515, 0)]], 2, 2⟩, 72057594037927936, 1745, 213922, ⟨[], 0, 0⟩, 0, 0, 0, lc0⟩ 2
    1 6191)) (.out ⟨362, 16, 347, 12514, 16, 12468, ⟨[[(13060438919372800, 0)], [(78137453534878098, 0)]], 2, 2⟩,
    ⟨[[(0, 29822836732461056), (28075440077027673, 0)]], 2, 2⟩, 72057594037927936, 1745, 13668, ⟨[], 0, 0⟩, 0, 0, 0,
    lc0⟩ 2 1 13352)) (.sx (.sy (.leaf ⟨2295, 16, 6626, 534, 16, 2235, ⟨[[(16149652185841664, 0), (0,
    27823490686155261), (2370048635139, 0), (304190505, 0), (61582, 0)], [(0, 459959921335289), (0, 33115081164097),
    (10682580887, 0), (2193259, 0), (430, 0)], [(12460961628456, 0), (0, 72492734678), (0, 13853150), (0, 3598), (0,
    1)], [(120340057689, 0), (0, 235922104), (0, 77305), (0, 20)]], 3, 4⟩, ⟨[[(0, 7855713601003520), (0,
    7999277331611325), (0, 628373676233), (0, 216480795), (0, 37334)], [(0, 56475988996173275), (6366810005193, 0),
    (2632188590, 0), (656222, 0), (118, 0)], [(46493276800071, 0), (7351351791, 0), (3359945, 0), (936, 0)], [(0,
    93060217535), (0, 51953749), (0, 19996), (0, 5)]], 3, 4⟩, 72057594037927936, 23209440488306, 2508154944140,
    ⟨[[(17594331486983, 0), (31706147209, 0), (26159523, 0), (0, 63023), (241, 0)], [(0, 9143890544), (0, 39249491),
    (59149, 0), (348, 0), (0, 3)], [(13037329, 0), (34949, 0), (0, 407), (0, 1)], [(0, 18939), (15, 0), (1, 0)]], 3,
    4⟩, 17592186044416, 4694418,
    11095666073209651449079530292724085396318783841342546583749358225487113903835941637376494763182138050865570223859911093358635648,
    lc0⟩) (.out ⟨770, 16, 694, 12514, 16, 12468, ⟨[[(0, 6755399441055744)], [(78137453534878098, 0)]], 2, 2⟩, ⟨[[(0,
    29822836732461056), (28075440077027673, 0)]], 2, 2⟩, 72057594037927936, 107, 13668, ⟨[], 0, 0⟩, 0, 0, 0, lc0⟩ 2 1
    8084)) (.leaf ⟨1103, 16, 3207, 410, 16, 1801, ⟨[[(26876668517908480, 0), (0, 27688527876389530), (5226691842490,
    0), (1447740312, 0), (580967, 0)], [(0, 426064956603726), (0, 35760773822876), (19290492992, 0), (7772007, 0),
    (3108, 0)], [(10637035031079, 0), (0, 89879585573), (0, 39745197), (0, 20717), (0, 7)], [(90432798075, 0), (0,
    207884804), (0, 132347), (0, 72)]], 3, 4⟩, ⟨[[(0, 35957218945998848), (0, 12668037026674842), (0, 1856246837449),
    (0, 1307533516), (0, 446388)], [(0, 43370195256758254), (11084490721614, 0), (9207715852, 0), (4621048, 0),
    (1647, 0)], [(31525207233056, 0), (5211653516, 0), (5732472, 0), (3494, 0), (1, 0)], [(0, 70102207849), (0,
    81417494), (0, 63123), (0, 31)]], 3, 4⟩, 72057594037927936, 15155276563556, 2686373995246, ⟨[[(16946900643125,
    0), (38390086387, 0), (47926978, 0), (0, 164844), (101, 0)], [(0, 17607547943), (0, 110642921), (110716, 0),
    (2375, 0), (0, 6)], [(54875596, 0), (291151, 0), (0, 2293), (0, 17)], [(0, 179069), (0, 438), (15, 0)]], 3, 4⟩,
    17592186044416, 61926202,
    15278065558904192309573207688762230720248650255680638104021594210299750072989830163540291323567177657496458298156544552138638719,
    lc0⟩))) (.out ⟨188, 16, 173, 6280, 16, 6234, ⟨[[(9907919180214272, 0)], [(77912273553509577, 0)]], 2, 2⟩, ⟨[[(0,
    29822836732395520), (28075440077027673, 0)]], 2, 2⟩, 72057594037927936, 873, 51942, ⟨[], 0, 0⟩, 0, 0, 0, lc0⟩ 2 1
    24723)) (.out ⟨188, 16, 173, 3163, 16, 3117, ⟨[[(9907919180214272, 0)], [(77912273553509577, 0)]], 2, 2⟩, ⟨[[(0,
    29822836732428288), (28075440077027673, 0)]], 2, 2⟩, 72057594037927936, 873, 19174, ⟨[], 0, 0⟩, 0, 0, 0, lc0⟩ 2 1
    53343)
theorem c65 : checkR job con1 true ⟨7, 9, 7, 9, 13, 17⟩ 1 9016 t65 174 14 160 4039 39 4000 = true := by decide +kernel

def t66 : CTree :=
  .sy (.leaf ⟨1809, 16, 5221, 305, 16, 1417, ⟨[[(34506020592959488, 0), (0, 24089436027211599), (2384199687055, 0),
    (341658638, 0), (69256, 0)], [(6300934531452009, 0), (0, 73113979028907), (12210363290, 0), (2238847, 0), (484,
    0)], [(186024522941110, 0), (0, 360235900612), (0, 84623161), (0, 22556), (0, 4)], [(2157694487746, 0), (0,
    964585397), (0, 269198), (0, 78)]], 3, 4⟩, ⟨[[(32019916387434496, 0), (0, 4777079043327042), (0, 275353117378),
    (0, 106264572), (0, 18138)], [(0, 64965437747764142), (8458690915346, 0), (3577804233, 0), (909754, 0), (162,
    0)], [(74066975806371, 0), (0, 6691783697), (0, 1328450), (0, 79)], [(0, 354182853154), (0, 210474844), (0,
    82716), (0, 21)]], 3, 4⟩, 72057594037927936, 501380032055782, 40750566450806, ⟨[[(15994311474184, 0),
    (44628380668, 0), (93863873, 0), (0, 259857), (0, 1223)], [(0, 8822525482), (0, 82822481), (0, 70741), (2719, 0),
    (5, 0)], [(16459675, 0), (164747, 0), (0, 536), (0, 12)], [(0, 34076), (0, 275), (3, 0)]], 3, 4⟩, 17592186044416,
    24210700,
    6887179442833009709697807890215376643283973565998285904697685122953448913072876275649171753373557551788561691646253822692972715,
    lc0⟩) (.sy (.leaf ⟨3614, 16, 10540, 332, 16, 1560, ⟨[[(0, 23657892154015744), (0, 24030353070734008),
    (1234276765785, 0), (90384936, 0), (9079, 0)], [(4170794893608273, 0), (0, 72334550130037), (6365858435, 0),
    (594065, 0), (63, 0)], [(332403785211391, 0), (0, 373847366893), (0, 44745238), (0, 5914)], [(4240082120923, 0),
    (0, 1006254659), (0, 142961), (0, 21)]], 3, 4⟩, ⟨[[(0, 1106733928706048), (0, 2647927144913667), (0,
    81021628256), (0, 15216118), (0, 1284)], [(0, 70963129700041957), (4891797295474, 0), (1029586760, 0), (130507,
    0), (12, 0)], [(81105626422923, 0), (0, 3769567006), (0, 369603), (0, 12)], [(0, 403797698139), (0, 121303963),
    (0, 23790), (0, 3)]], 3, 4⟩, 72057594037927936, 1026864125321177, 45788207536566, ⟨[[(16008595165294, 0),
    (41404108663, 0), (80968043, 0), (0, 221649), (0, 1063)], [(0, 4544044435), (0, 39991543), (0, 32686), (1164, 0),
    (3, 0)], [(4390974, 0), (41331, 0), (0, 116), (0, 3)], [(0, 4643), (0, 36)]], 3, 4⟩, 17592186044416, 11286383,
    12465267413576531172076173034304108960052437531981369599713332915136830304221090980428454735241573594497721038168808326424219776,
    lc0⟩) (.sx (.sx (.leaf ⟨4272, 16, 12549, 1049, 16, 4822, ⟨[[(24796854507536384, 0), (0, 27536259560260145),
    (1407931004998, 0), (102586731, 0), (10214, 0)], [(0, 1945464430619014), (0, 18958934260106), (2209312669, 0),
    (218433, 0), (22, 0)], [(14030435759001, 0), (0, 25683813202), (0, 3035707), (0, 396)], [(58114274042, 0), (0,
    23043583), (0, 3553)]], 3, 4⟩, ⟨[[(34817768714207232, 0), (0, 8389648382273684), (0, 296049696618), (0,
    52631134), (0, 4430)], [(0, 55958612863006446), (3935176895850, 0), (819126957, 0), (103068, 0), (9, 0)],
    [(18273075466089, 0), (60785952, 0), (84272, 0), (17, 0)], [(0, 22244603675), (0, 6643393), (0, 1293)]], 3, 4⟩,
    72057594037927936, 4226604151548, 504339408755, ⟨[[(16446696256778, 0), (14115218953, 0), (7932369, 0), (0,
    9549), (0, 8)], [(0, 4277838612), (0, 11513647), (336, 0), (39, 0)], [(3588682, 0), (9492, 0), (0, 16)], [(0,
    3190), (0, 6)]], 3, 4⟩, 17592186044416, 426597,
    15044958328595361289675037751746052114445478794569320803008909197519760236625982542931235652068709649929960566087102460470061314,
    lc0⟩) (.leaf ⟨4232, 16, 12433, 1045, 16, 4902, ⟨[[(19622589941153792, 0), (0, 27828101642760816), (1453772846617,
    0), (107380477, 0), (10710, 0)], [(0, 1004015601360161), (0, 20260443496574), (2012579787, 0), (193374, 0), (20,
    0)], [(19255172414946, 0), (0, 27259721290), (0, 3281888), (0, 430)], [(70075881433, 0), (0, 20306207), (0,
    3001)]], 3, 4⟩, ⟨[[(0, 1075554774024192), (0, 8416922627168049), (0, 277606587019), (0, 50560478), (0, 4243)],
    [(0, 55898748254897445), (3988341108339, 0), (834477253, 0), (105371, 0), (9, 0)], [(16739792999702, 0), (0,
    489197559), (0, 21787), (4, 0)], [(0, 21094021570), (0, 6356922), (0, 1242)]], 3, 4⟩, 72057594037927936,
    4530184221740, 548220428241, ⟨[[(16155195178446, 0), (13549966903, 0), (8235144, 0), (0, 8276), (0, 11)], [(0,
    4076814611), (0, 11404702), (0, 2030), (36, 0)], [(3450805, 0), (10085, 0), (0, 11)], [(0, 3141), (0, 7)]], 3,
    4⟩, 17592186044416, 425500,
    15824826812951600629584768092339593397402015652184235670882456859138291993010738766844565139947733934339474803104962816188340579,
    lc0⟩)) (.sx (.leaf ⟨4177, 16, 12272, 1039, 16, 4978, ⟨[[(22385162991632384, 0), (0, 28049210874224962),
    (1487968118900, 0), (110992628, 0), (11100, 0)], [(246228153020328, 0), (0, 21549924924366), (1798571633, 0),
    (166160, 0), (18, 0)], [(25367238685910, 0), (0, 28478489953), (0, 3465220), (0, 457)], [(82441070797, 0), (0,
    17349577), (0, 2408)]], 3, 4⟩, ⟨[[(22133087039684608, 0), (0, 8434541418645174), (0, 258227550194), (0,
    48348455), (0, 4044)], [(0, 55862547657413769), (4007516925184, 0), (843271661, 0), (106869, 0), (9, 0)],
    [(15268197601582, 0), (0, 1020451511), (0, 124689), (0, 9)], [(0, 19781638436), (0, 6005630), (0, 1179)]], 3, 4⟩,
    72057594037927936, 4773967822503, 586810287580, ⟨[[(15863746217355, 0), (12979554120, 0), (8478254, 0), (0,
    6834), (0, 13)], [(0, 3880363154), (0, 11243078), (0, 4236), (32, 0)], [(3312885, 0), (10578, 0), (0, 6)], [(0,
    3090), (0, 8)]], 3, 4⟩, 17592186044416, 446019,
    15442967099366365567743588816240691752606852447133110661259819240187515851830281671625867580806578769669043128677607876873282709,
    lc0⟩) (.leaf ⟨4000, 16, 11749, 1033, 16, 5051, ⟨[[(0, 24090142012669952), (0, 27453236264791824), (1470120149695,
    0), (110366542, 0), (11076, 0)], [(1791836462909653, 0), (0, 22195305836830), (1531152047, 0), (133834, 0), (15,
    0)], [(31477970107285, 0), (0, 28546277611), (0, 3487766), (0, 463)], [(92429942936, 0), (0, 13879089), (0,
    1743)]], 3, 4⟩, ⟨[[(0, 22669773666238464), (0, 8445316836285151), (0, 238181429092), (0, 46031454), (0, 3837)],
    [(0, 55860043620915575), (3994351696146, 0), (845810284, 0), (107594, 0), (9, 0)], [(13878805249685, 0), (0,
    1526686732), (0, 223176), (0, 21)], [(0, 18328142885), (0, 5597191), (0, 1104)]], 3, 4⟩, 72057594037927936,
    4823867586317, 619738097238, ⟨[[(15592010059093, 0), (12422371002, 0), (8609809, 0), (0, 5373), (0, 14)], [(0,
    3802733137), (0, 11325524), (0, 6263), (29, 0)], [(3360454, 0), (11535, 0), (0, 2)], [(0, 3299), (0, 10)]], 3,
    4⟩, 17592186044416, 417373,
    13839678226161859563141138986106550961424063794092464898468144676155673059193598043640611403214436799471314684951967969780034436,
    lc0⟩))))
theorem c66 : checkR job con1 true ⟨7, 9, 7, 9, 13, 17⟩ 1 9016 t66 390 14 320 16039 39 16000 = true := by decide +kernel

def t67 : CTree :=
  .sy (.sx (.sy (.sy (.sy (.out ⟨8127, 16, 38531, 100233, 16, 155676, ⟨[[(26800961565622272, 0), (0,
    21236566424938059), (278997149900, 0)], [(0, 15181069823787589), (0, 29910700520077), (826280661, 0)],
    [(187844082760621, 0), (0, 82713723471), (0, 2487719)]], 2, 2⟩, ⟨[[(29478275608739840, 0), (0,
    28072068551769974), (109107994387, 0)]], 2, 2⟩, 72057594037927936, 4495321753332081, 25159378220, ⟨[], 0, 0⟩, 0,
    0, 0, lc0⟩ 3 1 1161) (.out ⟨7891, 16, 37518, 100264, 16, 155770, ⟨[[(24395177533767680, 0), (0,
    20635774757626250), (272843294366, 0)], [(0, 17048745250538537), (0, 28998460517414), (809194396, 0)],
    [(176608736749686, 0), (0, 80918460636), (0, 2440831)]], 2, 2⟩, ⟨[[(0, 33462475459395584), (0,
    28071995594363438), (109074643383, 0)]], 2, 2⟩, 72057594037927936, 4349682907423011, 25144267372, ⟨[], 0, 0⟩, 0,
    0, 0, lc0⟩ 3 1 1276)) (.out ⟨4395, 16, 20983, 50147, 16, 77944, ⟨[[(0, 18488907315871744), (0,
    23010630197640067), (614383209269, 0)], [(0, 11426308985572327), (0, 32223696467656), (1825975407, 0)],
    [(93459716487880, 0), (0, 91154390305), (0, 5523038)]], 2, 2⟩, ⟨[[(0, 3832404360298496), (0, 28067735498525030),
    (218017069143, 0)]], 2, 2⟩, 72057594037927936, 2419103354415638, 100484492287, ⟨[], 0, 0⟩, 0, 0, 0, lc0⟩ 3 1
    1401)) (.sy (.out ⟨4254, 16, 20428, 50178, 16, 78039, ⟨[[(21886711409410048, 0), (0, 22308281047092408),
    (603398252329, 0)], [(0, 13560193781034130), (0, 31092453141822), (1798364631, 0)], [(84032847052527, 0), (0,
    89588560774), (0, 5459150)]], 2, 2⟩, ⟨[[(0, 24061207508942848), (0, 28067923927585520), (217886522389, 0)]], 2,
    2⟩, 72057594037927936, 2324805888883686, 100364154640, ⟨[], 0, 0⟩, 0, 0, 0, lc0⟩ 3 1 1641) (.out ⟨831, 16, 694,
    50224, 16, 49874, ⟨[[(0, 26571237801492480)], [(78137453534878098, 0)]], 2, 2⟩, ⟨[[(0, 35478231964975104),
    (28076565976934515, 0)]], 2, 2⟩, 72057594037927936, 6660, 457192, ⟨[], 0, 0⟩, 0, 0, 0, lc0⟩ 2 1 6902))) (.sy (.sy
    (.out ⟨4777, 16, 22688, 50117, 16, 77850, ⟨[[(0, 30176979193561088), (0, 26047577112249446), (708338364996, 0)],
    [(0, 1093395846227140), (0, 40962529640028), (1596787060, 0)], [(201558862573877, 0), (0, 109443457998), (0,
    6736475)]], 2, 2⟩, ⟨[[(0, 11957159745028096), (0, 28067886519349685), (218150412468, 0)]], 2, 2⟩,
    72057594037927936, 3751652764585208, 100607276725, ⟨[], 0, 0⟩, 0, 0, 0, lc0⟩ 3 1 1295) (.out ⟨4587, 16, 21918,
    50147, 16, 77944, ⟨[[(20877077277638656, 0), (0, 25056332318231559), (690400759537, 0)], [(0, 4133509607511965),
    (0, 39330384366416), (1559150912, 0)], [(186431560328297, 0), (0, 106752181406), (0, 6608858)]], 2, 2⟩, ⟨[[(0,
    3832404360298496), (0, 28067735498525030), (218017069143, 0)]], 2, 2⟩, 72057594037927936, 3600744241708508,
    100484492287, ⟨[], 0, 0⟩, 0, 0, 0, lc0⟩ 3 1 1576)) (.sy (.out ⟨4412, 16, 21204, 50178, 16, 78039, ⟨[[(0,
    23650566582566912), (0, 24135437633418903), (673906232412, 0)], [(0, 6957481196862808), (0, 37812587921416),
    (1524650035, 0)], [(172263852956826, 0), (0, 104279726822), (0, 6492551)]], 2, 2⟩, ⟨[[(0, 24061207508942848), (0,
    28067923927585520), (217886522389, 0)]], 2, 2⟩, 72057594037927936, 3460397422295748, 100364154640, ⟨[], 0, 0⟩, 0,
    0, 0, lc0⟩ 3 1 1811) (.out ⟨4248, 16, 20541, 50208, 16, 78133, ⟨[[(34254136763613184, 0), (0, 23278477205396710),
    (658733756341, 0)], [(0, 9588080036358867), (0, 36398619047485), (1493025684, 0)], [(158959606069759, 0), (0,
    102007869748), (0, 6386672)]], 2, 2⟩, ⟨[[(0, 21215108095541248), (0, 28067732114387384), (217753183661, 0)]], 2,
    2⟩, 72057594037927936, 3329638754279827, 100241668870, ⟨[], 0, 0⟩, 0, 0, 0, lc0⟩ 3 1 2102)))) (.sx (.out ⟨831,
    16, 694, 12574, 16, 12468, ⟨[[(0, 26571237801492480)], [(78137453534878098, 0)]], 2, 2⟩, ⟨[[(26490173008248832,
    0), (28075440077027673, 0)]], 2, 2⟩, 72057594037927936, 6660, 55612, ⟨[], 0, 0⟩, 0, 0, 0, lc0⟩ 2 1 12635) (.sy
    (.sy (.out ⟨4096, 16, 19924, 50238, 16, 78228, ⟨[[(34202819274866688, 0), (0, 22479122456334136), (644757813360,
    0)], [(0, 12045048620678864), (0, 35078148948813), (1464007201, 0)], [(146429359695393, 0), (0, 99917631152), (0,
    6290261)]], 2, 2⟩, ⟨[[(25288549913853952, 0), (0, 28067879029481196), (217622632522, 0)]], 2, 2⟩,
    72057594037927936, 3207513741856685, 100120981532, ⟨[], 0, 0⟩, 0, 0, 0, lc0⟩ 3 1 2336) (.out ⟨3954, 16, 19348,
    50269, 16, 78323, ⟨[[(33847554195980288, 0), (0, 21731134014481923), (631848198127, 0)], [(0, 14345142383545797),
    (0, 33841046471094), (1437311437, 0)], [(134590490373347, 0), (0, 97989244806), (0, 6202279)]], 2, 2⟩, ⟨[[(0,
    2934708878442496), (0, 28068005083056735), (217492077542, 0)]], 2, 2⟩, 72057594037927936, 3093087228009643,
    100000163896, ⟨[], 0, 0⟩, 0, 0, 0, lc0⟩ 3 1 2604)) (.out ⟨2140, 16, 10563, 25149, 16, 39220, ⟨[[(0,
    18981082316800000), (0, 23565579477346248), (1398958713370, 0)], [(0, 9982526863186102), (0, 36580613494040),
    (3191052907, 0)], [(67173536809604, 0), (0, 108596970400), (0, 13856950)]], 2, 2⟩, ⟨[[(16247606774857728, 0), (0,
    28059033522747149), (434451242901, 0)]], 2, 2⟩, 72057594037927936, 1683463157419071, 399269098576, ⟨[], 0, 0⟩, 0,
    0, 0, lc0⟩ 3 1 2921)))
theorem c67 : checkR job con1 true ⟨7, 9, 7, 9, 13, 17⟩ 1 9016 t67 390 14 320 16117 39 16000 = true := by decide +kernel

def t68 : CTree :=
  .sy (.sx (.leaf ⟨922, 16, 2677, 396, 16, 1971, ⟨[[(24713920900481024, 0), (0, 26238819476856980), (5427143400194,
    0), (1601257154, 0), (653574, 0)], [(3583740663191699, 0), (0, 45466521643718), (8738954429, 0), (2575630, 0),
    (1315, 0)], [(43682332654911, 0), (0, 106422333855), (0, 50791987), (0, 27519), (0, 9)], [(209719136933, 0), (0,
    68528334), (0, 23374), (0, 18)]], 3, 4⟩, ⟨[[(0, 26913255572107264), (0, 12853526123098580), (0, 1178919726849),
    (0, 998201547), (0, 334891)], [(0, 43099311471107639), (11394139735134, 0), (9806482402, 0), (5038234, 0), (1784,
    0)], [(18715871942676, 0), (0, 13117024540), (0, 8493289), (0, 3579), (0, 1)], [(0, 46993463628), (0, 57141619),
    (0, 45548), (0, 23)]], 3, 4⟩, 72057594037927936, 18876301906169, 4054049692286, ⟨[[(15207997613398, 0),
    (29760282990, 0), (55927826, 0), (0, 54437), (0, 556)], [(0, 14592632156), (0, 113146552), (0, 219616), (1544,
    0), (7, 0)], [(52975691, 0), (502217, 0), (254, 0), (0, 15)], [(0, 222816), (0, 2005), (4, 0)]], 3, 4⟩,
    17592186044416, 98373077,
    11576812546156782704135625508816948033173318628884129799392065165823164513077719185175967431190685652369379228528943877568581305,
    lc0⟩) (.leaf ⟨847, 16, 2452, 388, 16, 2019, ⟨[[(0, 29271750300459008), (0, 25277124223306532), (5158345978927,
    0), (1512683472, 0), (625658, 0)], [(6013384214693073, 0), (0, 47222386131693), (5373048683, 0), (920188, 0),
    (722, 0)], [(58216376258315, 0), (0, 101191908722), (0, 47022132), (0, 25972), (0, 9)], [(241834774157, 0), (0,
    25697034), (9528, 0), (0, 1)]], 3, 4⟩, ⟨[[(21671055983841280, 0), (0, 12851487931305567), (0, 934149782879), (0,
    881374275), (0, 293072)], [(0, 43179492436896997), (10792302151690, 0), (9456527838, 0), (4903562, 0), (1736,
    0)], [(15612652029073, 0), (0, 17772675289), (0, 12179269), (0, 5455), (0, 2)], [(0, 36565822461), (0, 44605554),
    (0, 36081), (0, 19)]], 3, 4⟩, 72057594037927936, 18197057017957, 4216417678015, ⟨[[(14677925992064, 0),
    (26861933849, 0), (54291248, 0), (0, 12102), (0, 485)], [(0, 13623115747), (0, 108487986), (0, 291902), (962, 0),
    (8, 0)], [(51221747, 0), (540629, 0), (1062, 0), (0, 12)], [(0, 234060), (0, 2497), (0, 1)]], 3, 4⟩,
    17592186044416, 119363267,
    5823049553672869975301061410577554232737957141695821536624429030250058067830588959817754220497023754822434761332627079340816515,
    lc0⟩)) (.sx (.sy (.sy (.sy (.leaf ⟨6347, 16, 18743, 652, 16, 3315, ⟨[[(0, 3738683350319104), (0,
    22538786857663774), (617619623255, 0), (23510832, 0), (1182, 0)], [(11243994413762967, 0), (0, 39107155448705),
    (994806837, 0), (38463, 0), (2, 0)], [(272448574899446, 0), (0, 97181967551), (0, 5964653), (0, 399)],
    [(1446970056429, 0), (0, 61864527), (0, 2829)]], 3, 4⟩, ⟨[[(13056803034996736, 0), (0, 2725257814197793), (0,
    34537240896), (0, 3475988), (0, 143)], [(0, 71614904926038437), (2582614952393, 0), (275688429, 0), (17608, 0),
    (1, 0)], [(30482031493718, 0), (0, 2918794922), (0, 235982), (0, 13)], [(0, 83405170178), (0, 12882257), (0,
    1280)]], 3, 4⟩, 72057594037927936, 132509536719279, 6859029596851, ⟨[[(15187741351152, 0), (18214005273, 0),
    (21615741, 0), (0, 12437), (0, 88)], [(0, 2190538845), (0, 10706808), (0, 13779), (53, 0)], [(1216620, 0), (7287,
    0), (4, 0)], [(0, 766), (0, 4)]], 3, 4⟩, 17592186044416, 405244,
    14460976653923890543948576475241029117746265165000329004842410982308574702760204339449706379891314882765770525456277003347663879,
    lc0⟩) (.out ⟨4034, 16, 19272, 50147, 16, 77944, ⟨[[(16950763573837824, 0), (0, 23075407113725584), (640752618949,
    0)], [(8431134501412241, 0), (0, 40050614327574), (1032227768, 0)], [(272306483765713, 0), (0, 100889087408), (0,
    6229628)]], 2, 2⟩, ⟨[[(0, 3832404360298496), (0, 28067735498525030), (218017069143, 0)]], 2, 2⟩,
    72057594037927936, 4214572784650581, 100484492287, ⟨[], 0, 0⟩, 0, 0, 0, lc0⟩ 3 1 1537)) (.sy (.out ⟨4198, 16,
    20178, 50178, 16, 78039, ⟨[[(0, 14866648814190592), (0, 24055081625650261), (676938699942, 0)],
    [(5563279269468667, 0), (0, 41764069155993), (1090725382, 0)], [(276828754074211, 0), (0, 106657491188), (0,
    6624987)]], 2, 2⟩, ⟨[[(0, 24061207508942848), (0, 28067923927585520), (217886522389, 0)]], 2, 2⟩,
    72057594037927936, 4399507770783520, 100364154640, ⟨[], 0, 0⟩, 0, 0, 0, lc0⟩ 3 1 1836) (.out ⟨4377, 16, 21171,
    50208, 16, 78133, ⟨[[(8318636645023744, 0), (0, 25127578549760620), (716714139494, 0)], [(2426133185660514, 0),
    (0, 43640007308722), (1155064239, 0)], [(281680851096119, 0), (0, 112999158873), (0, 7059962)]], 2, 2⟩, ⟨[[(0,
    21215108095541248), (0, 28067732114387384), (217753183661, 0)]], 2, 2⟩, 72057594037927936, 4602079032756585,
    100241668870, ⟨[], 0, 0⟩, 0, 0, 0, lc0⟩ 3 1 2163))) (.sy (.out ⟨2272, 16, 11090, 25119, 16, 39126, ⟨[[(0,
    31494476012224512), (0, 26148236358725517), (1522453155710, 0)], [(0, 1395410110544702), (0, 45434705459314),
    (2454535182, 0)], [(140576292848002, 0), (0, 120135705719), (0, 15140900)]], 2, 2⟩, ⟨[[(20626503328333824, 0),
    (0, 28059518054506329), (434984080092, 0)]], 2, 2⟩, 72057594037927936, 2410516440376982, 400242348622, ⟨[], 0,
    0⟩, 0, 0, 0, lc0⟩ 3 1 2559) (.out ⟨2168, 16, 10717, 25149, 16, 39220, ⟨[[(0, 4772904569438208), (0,
    25037127136887926), (1498662385230, 0)], [(0, 4758665736263128), (0, 43532990099286), (2417645275, 0)],
    [(126702804299309, 0), (0, 118413237725), (0, 15090396)]], 2, 2⟩, ⟨[[(16247606774857728, 0), (0,
    28059033522747149), (434451242901, 0)]], 2, 2⟩, 72057594037927936, 2315309091277251, 399269098576, ⟨[], 0, 0⟩, 0,
    0, 0, lc0⟩ 3 1 3219))) (.sy (.leaf ⟨1669, 16, 4954, 493, 16, 2637, ⟨[[(35566930625413120, 0), (0,
    24908959258730056), (2746216373028, 0), (420431522, 0), (85188, 0)], [(6605579816272066, 0), (0, 47058660633045),
    (2803138552, 0), (276484, 0), (97, 0)], [(105323866674677, 0), (0, 108057921176), (0, 26146407), (0, 7098), (0,
    1)], [(485628956654, 0), (0, 24849746), (4662, 0)]], 3, 4⟩, ⟨[[(33740484307877888, 0), (0, 8470053113244516), (0,
    357526339406), (0, 155372961), (0, 25130)], [(0, 55528216512570907), (7804210678042, 0), (3380694307, 0),
    (869317, 0), (152, 0)], [(18977720905841, 0), (0, 12574556337), (0, 4302763), (0, 968)], [(0, 51332755308), (0,
    32015370), (0, 12899), (0, 3)]], 3, 4⟩, 72057594037927936, 37739099640114, 5759032124257, ⟨[[(14684776391553, 0),
    (21515091236, 0), (36134838, 0), (0, 4724), (0, 219)], [(0, 7292344462), (0, 48197827), (0, 110489), (253, 0),
    (2, 0)], [(15046453, 0), (130758, 0), (236, 0), (0, 2)], [(0, 36437), (0, 319)]], 3, 4⟩, 17592186044416, 9081247,
    13468524893756596990211515329182406657460221374995371390205560411882776084236634867116101262160382206624286782819837893572229323,
    lc0⟩) (.sy (.sy (.out ⟨3409, 16, 16581, 50238, 16, 78228, ⟨[[(22791285796569088, 0), (0, 20615938009187085),
    (587592109619, 0)], [(14452863558228635, 0), (0, 39145868340444), (595131715, 0)], [(334676056038073, 0), (0,
    92593170806), (0, 5690244)]], 2, 2⟩, ⟨[[(25288549913853952, 0), (0, 28067879029481196), (217622632522, 0)]], 2,
    2⟩, 72057594037927936, 4579652243248789, 100120981532, ⟨[], 0, 0⟩, 0, 0, 0, lc0⟩ 3 1 2321) (.out ⟨3541, 16,
    17337, 50269, 16, 78323, ⟨[[(34611619735928832, 0), (0, 21459625921603719), (620022532575, 0)],
    [(11923031623683506, 0), (0, 40833327669968), (626100191, 0)], [(342347444143752, 0), (0, 97750400495), (0,
    6044158)]], 2, 2⟩, ⟨[[(0, 2934708878442496), (0, 28068005083056735), (217492077542, 0)]], 2, 2⟩,
    72057594037927936, 4784925297421442, 100000163896, ⟨[], 0, 0⟩, 0, 0, 0, lc0⟩ 3 1 2721)) (.out ⟨2045, 16, 10112,
    25149, 16, 39220, ⟨[[(25511121059381248, 0), (0, 24862717786815636), (1466665722415, 0)], [(4172726578829530, 0),
    (0, 47461284363481), (1474578235, 0)], [(192958712578168, 0), (0, 115697485265), (0, 14437366)]], 2, 2⟩,
    ⟨[[(16247606774857728, 0), (0, 28059033522747149), (434451242901, 0)]], 2, 2⟩, 72057594037927936,
    2795630100421923, 399269098576, ⟨[], 0, 0⟩, 0, 0, 0, lc0⟩ 3 1 3280))))
theorem c68 : checkR job con1 true ⟨7, 9, 7, 9, 13, 17⟩ 1 9016 t68 418 14 320 8039 39 8000 = true := by decide +kernel

def t69 : CTree :=
  .sx (.out ⟨423, 16, 347, 3163, 16, 3117, ⟨[[(0, 6755399441055744)], [(78137453534878098, 0)]], 2, 2⟩, ⟨[[(0,
    29822836732428288), (28075440077027673, 0)]], 2, 2⟩, 72057594037927936, 107, 19174, ⟨[], 0, 0⟩, 0, 0, 0, lc0⟩ 2 1
    32063) (.sy (.sy (.sy (.out ⟨1814, 16, 9087, 25180, 16, 39315, ⟨[[(20691334677872640, 0), (0, 21561499700881310),
    (1321355933648, 0)], [(0, 7389728268149559), (0, 78980936668362), (3435247450, 0)], [(520902097593317, 0), (0,
    418692348434), (0, 53523449)]], 2, 2⟩, ⟨[[(0, 19243410462081024), (0, 28059183373251525), (433929501775, 0)]], 2,
    2⟩, 72057594037927936, 18348563498916722, 398308160687, ⟨[], 0, 0⟩, 0, 0, 0, lc0⟩ 3 1 4024) (.out ⟨1682, 16,
    8533, 25210, 16, 39410, ⟨[[(0, 9680183154622464), (0, 20051574467433190), (1264479502249, 0)], [(0,
    12704395298728105), (0, 73658170741763), (3282215529, 0)], [(458168745511984, 0), (0, 401129076481), (0,
    51833897)]], 2, 2⟩, ⟨[[(12026153224110080, 0), (0, 28059251044151115), (433407748477, 0)]], 2, 2⟩,
    72057594037927936, 17179099031755788, 397349629041, ⟨[], 0, 0⟩, 0, 0, 0, lc0⟩ 3 1 4632)) (.out ⟨897, 16, 4641,
    12620, 16, 19764, ⟨[[(12350305146281984, 0), (0, 21485117154028262), (2831235086471, 0)], [(0,
    11572353044307216), (0, 79276999630107), (7333968277, 0)], [(223274942352926, 0), (0, 449841061261), (0,
    118072809)]], 2, 2⟩, ⟨[[(1313226264543232, 0), (0, 28041819050384377), (864714269647, 0)]], 2, 2⟩,
    72057594037927936, 9353017850669351, 1583636618229, ⟨[], 0, 0⟩, 0, 0, 0, lc0⟩ 3 1 5707)) (.sy (.out ⟨828, 16,
    4396, 12651, 16, 19860, ⟨[[(691796188053504, 0), (0, 19924296999400776), (2788703197978, 0)], [(0,
    16775831882514997), (0, 73988128254671), (7207898645, 0)], [(177558393704702, 0), (0, 444083081590), (0,
    118853059)]], 2, 2⟩, ⟨[[(0, 7995739573059584), (0, 28042963867297917), (862674619845, 0)]], 2, 2⟩,
    72057594037927936, 8809028908557596, 1576105601397, ⟨[], 0, 0⟩, 0, 0, 0, lc0⟩ 3 1 7021) (.out ⟨453, 16, 347,
    12696, 16, 12468, ⟨[[(19365478397689856, 0)], [(78137453534878098, 0)]], 2, 2⟩, ⟨[[(0, 4998995586318336),
    (28075440077027673, 0)]], 2, 2⟩, 72057594037927936, 3384, 62952, ⟨[], 0, 0⟩, 0, 0, 0, lc0⟩ 2 1 21739)))
theorem c69 : checkR job con1 true ⟨7, 9, 7, 9, 13, 17⟩ 1 9016 t69 202 14 160 8117 39 8000 = true := by decide +kernel

def t70 : CTree :=
  .sy (.sx (.sx (.leaf ⟨769, 16, 2220, 380, 16, 2063, ⟨[[(18102083073105920, 0), (0, 24154767649561334),
    (4773455179744, 0), (1374496257, 0), (578518, 0)], [(8947581040435175, 0), (0, 47913881032266), (2522488053, 0),
    (0, 476102), (208, 0)], [(73061979742683, 0), (0, 92198018420), (0, 40695611), (0, 23053), (0, 8)],
    [(265872422318, 0), (9058143, 0), (35787, 0), (12, 0)]], 3, 4⟩, ⟨[[(0, 15722563509829632), (0,
    12837948318836465), (0, 694459488545), (0, 765051247), (0, 251474)], [(0, 43305708391545033), (9914721204292, 0),
    (8887711745, 0), (4657407, 0), (1649, 0)], [(13312485871706, 0), (0, 21378918554), (0, 15074498), (0, 6960), (0,
    2)], [(0, 25539207220), (0, 31080206), (0, 25742), (0, 14)]], 3, 4⟩, 72057594037927936, 16840878625539,
    4248112981017, ⟨[[(14231397367431, 0), (24351054106, 0), (51128656, 0), (17476, 0), (0, 378)], [(0, 12984402114),
    (0, 103929756), (0, 338060), (466, 0), (7, 0)], [(50606969, 0), (575102, 0), (1749, 0), (0, 8)], [(0, 251671),
    (0, 3029), (0, 6)]], 3, 4⟩, 17592186044416, 149742123,
    9009420386503396831489159146877296011487138349522652548183212574589401553533751697605299886026358551567708176040850875345576578,
    lc0⟩) (.sy (.leaf ⟨1169, 16, 3326, 482, 16, 2714, ⟨[[(30386432683769856, 0), (0, 19292650500479219),
    (1773800381728, 0), (243249251, 0), (52805, 0)], [(22077361452935351, 0), (0, 39737926467133), (167884405, 0),
    (0, 320413), (0, 20)], [(148529076917390, 0), (0, 66508615138), (0, 13256385), (0, 3915), (0, 1)],
    [(468561910596, 0), (26759955, 0), (22077, 0), (5, 0)]], 3, 4⟩, ⟨[[(10385295341756416, 0), (0, 8262088496416701),
    (0, 138441411398), (0, 102665832), (0, 16809)], [(0, 56275687115367195), (5491597352505, 0), (2547922127, 0),
    (678068, 0), (121, 0)], [(15919335685923, 0), (0, 14963621318), (0, 5367436), (0, 1264)], [(0, 18146339911), (0,
    10826022), (0, 4720), (0, 1)]], 3, 4⟩, 72057594037927936, 24545120154897, 5055399215320, ⟨[[(13783334108993, 0),
    (16699612680, 0), (26762808, 0), (16312, 0), (0, 85)], [(0, 7166064173), (0, 42483227), (0, 118612), (6, 0), (1,
    0)], [(16338170, 0), (148209, 0), (446, 0), (0, 1)], [(0, 50892), (0, 516), (0, 1)]], 3, 4⟩, 17592186044416,
    17677800,
    11569909545984678877970466700442247931440958031367032550892860762135317653455832970403429791919667789743647115874277397754263503,
    lc0⟩) (.leaf ⟨1208, 16, 3499, 475, 16, 2727, ⟨[[(31550687709347840, 0), (0, 20000263328592650), (1928006796359,
    0), (273675647, 0), (58404, 0)], [(19965836614284478, 0), (0, 41783513342968), (96946083, 0), (0, 343944), (0,
    23)], [(150710398188919, 0), (0, 72220146227), (0, 14936423), (0, 4349), (0, 1)], [(495273340861, 0), (31863841,
    0), (24373, 0), (5, 0)]], 3, 4⟩, ⟨[[(32776898717683712, 0), (0, 8325279144435586), (0, 163865739471), (0,
    108501141), (0, 17362)], [(0, 56098946396375954), (5929950027129, 0), (2724050896, 0), (720042, 0), (127, 0)],
    [(14789412651384, 0), (0, 15900245472), (0, 5698729), (0, 1342)], [(0, 19111255566), (0, 11643495), (0, 5076),
    (0, 1)]], 3, 4⟩, 72057594037927936, 26417043080106, 5330456624481, ⟨[[(13778373960279, 0), (17026386022, 0),
    (28654575, 0), (19435, 0), (0, 96)], [(0, 7100408374), (0, 44248514), (0, 131181), (0, 9), (1, 0)], [(16525160,
    0), (157028, 0), (502, 0), (0, 1)], [(0, 51639), (0, 544), (0, 2)]], 3, 4⟩, 17592186044416, 18192129,
    9213610656435933509586562846726371887209989258872374520115799716007181322614049093289056490243311667409137789311176640589442720,
    lc0⟩))) (.sx (.sy (.leaf ⟨1009, 16, 2845, 468, 16, 2760, ⟨[[(10752180563599360, 0), (0, 17498346254189906),
    (1512859444571, 0), (197866625, 0), (44240, 0)], [(26989156653237015, 0), (0, 37110840711552), (0, 441705986),
    (0, 451056), (0, 48)], [(163239394216557, 0), (0, 54322666410), (0, 9475749), (0, 2948), (0, 1)], [(460716810637,
    0), (37613650, 0), (25231, 0), (6, 0)]], 3, 4⟩, ⟨[[(17980750728806400, 0), (0, 8257877365154417), (0,
    72602987961), (0, 86132744), (0, 13838)], [(0, 56355173230196571), (4713385625678, 0), (2276799257, 0), (614883,
    0), (110, 0)], [(15232294631415, 0), (0, 15782344127), (0, 5720554), (0, 1370)], [(0, 4527874029), (0, 2593805),
    (0, 1493), (0, 1)]], 3, 4⟩, 72057594037927936, 20657692480193, 4731519401643, ⟨[[(13366585196187, 0),
    (14924674266, 0), (23494760, 0), (20730, 0), (0, 48)], [(0, 7045872600), (0, 39978533), (0, 120689), (0, 87), (1,
    0)], [(16569827, 0), (154122, 0), (557, 0)], [(0, 56520), (0, 623), (0, 2)]], 3, 4⟩, 17592186044416, 22945338,
    12321289812231259064644069734748015358637511170220028444887155013253451548232902753056750824985455704758185421910674412941180961,
    lc0⟩) (.leaf ⟨1038, 16, 2981, 461, 16, 2772, ⟨[[(0, 23193695996280832), (0, 18083661447040620), (1635413709446,
    0), (222155278, 0), (48726, 0)], [(25243262942979890, 0), (0, 38965780375949), (0, 575302955), (0, 488919), (0,
    54)], [(166541143009166, 0), (0, 58525774385), (0, 10671908), (0, 3265), (0, 1)], [(485978305500, 0), (43644699,
    0), (27843, 0), (6, 0)]], 3, 4⟩, ⟨[[(21683487147700224, 0), (0, 8306761959228199), (0, 93672729154), (0,
    90895169), (0, 14227)], [(0, 56216743741354633), (5102086653402, 0), (2435288303, 0), (652703, 0), (115, 0)],
    [(14026529709218, 0), (0, 16772828132), (0, 6076374), (0, 1453)], [(0, 4760176459), (0, 2850444), (0, 1647), (0,
    1)]], 3, 4⟩, 72057594037927936, 22042322650382, 4982745687003, ⟨[[(13362592783427, 0), (15187935656, 0),
    (25062380, 0), (24110, 0), (0, 53)], [(0, 6977953560), (0, 41589861), (0, 133208), (0, 111), (1, 0)], [(16805707,
    0), (164159, 0), (625, 0)], [(0, 58012), (0, 663), (0, 2)]], 3, 4⟩, 17592186044416, 23447080,
    12314383608540676627543745938707500468921256469906630165629720178638075694391665828509189488145546542100837219450966069620741732,
    lc0⟩)) (.sy (.leaf ⟨869, 16, 2421, 453, 16, 2803, ⟨[[(22435309323214848, 0), (0, 15810234442771663),
    (1271042046526, 0), (155775481, 0), (36157, 0)], [(31707347213869920, 0), (0, 34085726773380), (0, 773536927),
    (0, 512126), (0, 65)], [(173945696546431, 0), (0, 43135073295), (0, 6083464), (0, 2058)], [(441838124900, 0),
    (40949121, 0), (25404, 0), (6, 0)]], 3, 4⟩, ⟨[[(34089614432784384, 0), (0, 8265082703299907), (0, 13561543980),
    (0, 71090071), (0, 11127)], [(0, 56367387714541687), (3889143243260, 0), (1985783613, 0), (545670, 0), (98, 0)],
    [(15629795817171, 0), (0, 15926842071), (0, 5808846), (0, 1413)], [(8153307210, 0), (4844864, 0), (1463, 0)]], 3,
    4⟩, 72057594037927936, 17012075038511, 4264804642405, ⟨[[(12976113428988, 0), (13311356779, 0), (20079781, 0),
    (21329, 0), (0, 20)], [(0, 6951949689), (0, 36900141), (0, 114748), (0, 148)], [(16541158, 0), (152660, 0), (625,
    0), (1, 0)], [(0, 60106), (0, 702), (0, 3)]], 3, 4⟩, 17592186044416, 29931610,
    11797540148724345562656523123819831100689464875870138357805279447865699025278394053064559850696893986989379682584981913477212944,
    lc0⟩) (.leaf ⟨889, 16, 2524, 446, 16, 2813, ⟨[[(0, 31238021987991552), (0, 16273116427712315), (1364519197388,
    0), (174461330, 0), (39616, 0)], [(30279356141266272, 0), (0, 35671563778899), (0, 933882871), (0, 555478), (0,
    71)], [(177798815246897, 0), (0, 45999541264), (0, 6858984), (0, 2272)], [(464129871000, 0), (46936977, 0),
    (27959, 0), (6, 0)]], 3, 4⟩, ⟨[[(7975035472248832, 0), (0, 8298015872305419), (0, 30714509458), (0, 74859930),
    (0, 11370)], [(0, 56251660796108773), (4224088636109, 0), (2124637473, 0), (578838, 0), (102, 0)],
    [(14402681962226, 0), (0, 16919427409), (0, 6170521), (0, 1497)], [(8570625114, 0), (5093090, 0), (1492, 0)]], 3,
    4⟩, 72057594037927936, 17956971754135, 4480168988869, ⟨[[(12975740367234, 0), (13532874452, 0), (21347114, 0),
    (24505, 0), (0, 21)], [(0, 6894756713), (0, 38383454), (0, 126747), (0, 179), (1, 0)], [(16849299, 0), (163953,
    0), (705, 0), (1, 0)], [(0, 62635), (0, 761), (0, 3)]], 3, 4⟩, 17592186044416, 31349978,
    11259160045740296816948368197459746461804045744510769044721778488301952427648239365147910931137240236840340185097789488363858289,
    lc0⟩)))) (.sx (.sx (.sy (.leaf ⟨1456, 16, 4310, 482, 16, 2692, ⟨[[(0, 12095490175434752), (0, 22891234777523945),
    (2439839448168, 0), (367681480, 0), (75668, 0)], [(11945997358090802, 0), (0, 46229088265808), (1185869901, 0),
    (0, 103437), (26, 0)], [(131094699800280, 0), (0, 94356498999), (0, 21796314), (0, 6060), (0, 1)],
    [(517447115750, 0), (12981869, 0), (18443, 0), (3, 0)]], 3, 4⟩, ⟨[[(0, 5077188432912384), (0, 8434362471012321),
    (0, 272060708967), (0, 134608848), (0, 21454)], [(0, 55711650148956242), (7179369675023, 0), (3177342361, 0),
    (824889, 0), (144, 0)], [(15670242719650, 0), (0, 15147293077), (0, 5333039), (0, 1233)], [(0, 35817200802), (0,
    22338533), (0, 9223), (0, 2)]], 3, 4⟩, 72057594037927936, 33464199897058, 5800972577204, ⟨[[(14223328977804, 0),
    (19410194258, 0), (33907552, 0), (11960, 0), (0, 164)], [(0, 7156337035), (0, 47580766), (0, 131114), (109, 0),
    (2, 0)], [(15900435, 0), (148893, 0), (393, 0), (0, 1)], [(0, 43675), (0, 430), (0, 1)]], 3, 4⟩, 17592186044416,
    12301450,
    5731140650975832093111880427875011451011730516505170370619946410620218070783796348752158605865483234170381281222404367767390856,
    lc0⟩) (.leaf ⟨1522, 16, 4584, 475, 16, 2707, ⟨[[(18108286135107584, 0), (0, 23934397149727567), (2689441804515,
    0), (416799935, 0), (84576, 0)], [(8877958515795329, 0), (0, 48973211952308), (1236549294, 0), (0, 101151), (29,
    0)], [(131456963146537, 0), (0, 104091166934), (0, 24730891), (0, 6797), (0, 1)], [(551540727899, 0), (16929009,
    0), (20413, 0), (3, 0)]], 3, 4⟩, ⟨[[(29549815685287936, 0), (0, 8526549066030065), (0, 306045765514), (0,
    142187400), (0, 22198)], [(0, 55439130247324553), (7733219258650, 0), (3394525082, 0), (875816, 0), (152, 0)],
    [(14536262519408, 0), (0, 16091338303), (0, 5661068), (0, 1310)], [(0, 37826499072), (0, 23955506), (0, 9866),
    (0, 3)]], 3, 4⟩, 72057594037927936, 36593654068430, 6128393416051, ⟨[[(14216795490875, 0), (19869601667, 0),
    (36674257, 0), (15874, 0), (0, 186)], [(0, 7066471992), (0, 49474944), (0, 145460), (93, 0), (2, 0)], [(15817943,
    0), (154783, 0), (441, 0), (0, 1)], [(0, 42736), (0, 437), (0, 1)]], 3, 4⟩, 17592186044416, 11312088,
    11166886162449691636817177839077897576402662658015830901447390016758467754720066337332091187240346791549861990419056987797539464,
    lc0⟩)) (.sy (.leaf ⟨1253, 16, 3693, 469, 16, 2741, ⟨[[(0, 17096256878051328), (0, 20786330595844441),
    (2104782799658, 0), (308568673, 0), (64785, 0)], [(17633466345860622, 0), (0, 44090885737127), (16478072, 0), (0,
    370780), (0, 26)], [(153022828892519, 0), (0, 78768927428), (0, 16868167), (0, 4845), (0, 1)], [(525515703664,
    0), (37741450, 0), (26990, 0), (6, 0)]], 3, 4⟩, ⟨[[(0, 12751289216434176), (0, 8395738020825707), (0,
    190869322414), (0, 114575473), (0, 17914)], [(0, 55905032667776786), (6400981796166, 0), (2912121286, 0),
    (764481, 0), (134, 0)], [(13583254921320, 0), (0, 16900517406), (0, 6052453), (0, 1425)], [(0, 20153975397), (0,
    12526587), (0, 5456), (0, 2)]], 3, 4⟩, 72057594037927936, 28553026223849, 5625673626573, ⟨[[(13784804948495, 0),
    (17405183204, 0), (30763837, 0), (22915, 0), (0, 108)], [(0, 7049090676), (0, 46159188), (0, 144511), (0, 26),
    (1, 0)], [(16701935, 0), (165499, 0), (556, 0), (0, 1)], [(0, 52016), (0, 565), (0, 2)]], 3, 4⟩, 17592186044416,
    17889139,
    6142550217991453765754742712922902385080434894210964508616249166604738027619959764677718707090769952330665296916624618483350704,
    lc0⟩) (.leaf ⟨1303, 16, 3911, 462, 16, 2755, ⟨[[(5456234869129216, 0), (0, 21659535227819290), (2308043098166,
    0), (348727780, 0), (72082, 0)], [(15032198645449675, 0), (0, 46698094579645), (0, 75455721), (0, 401516), (0,
    29)], [(155438047127987, 0), (0, 86300825898), (0, 19097444), (0, 5415), (0, 1)], [(559831527157, 0), (44536745,
    0), (29984, 0), (6, 0)]], 3, 4⟩, ⟨[[(4764101552095232, 0), (0, 8470684305429750), (0, 219454606073), (0,
    120849022), (0, 18456)], [(0, 55670570416878062), (6904569208456, 0), (3111773192, 0), (811235, 0), (140, 0)],
    [(12289959281277, 0), (0, 17962473495), (0, 6427933), (0, 1513)], [(0, 21273094759), (0, 13475095), (0, 5859),
    (0, 2)]], 3, 4⟩, 72057594037927936, 30997617195731, 5940295606776, ⟨[[(13783181162599, 0), (17815050010, 0),
    (33277001, 0), (27732, 0), (0, 121)], [(0, 6985052303), (0, 48270180), (0, 160500), (0, 53), (1, 0)], [(16821435,
    0), (174334, 0), (620, 0)], [(0, 51998), (0, 585), (0, 2)]], 3, 4⟩, 17592186044416, 17235105,
    9874939925076755075964953457439879102400845652544175359751566817259282593017880459904260794013836501648180323640374331347511015,
    lc0⟩))) (.sx (.sy (.leaf ⟨1069, 16, 3130, 454, 16, 2784, ⟨[[(9927757231980544, 0), (0, 18715308937305400),
    (1773638491328, 0), (249623713, 0), (53756, 0)], [(23309835434360978, 0), (0, 41017127385830), (0, 726283560),
    (0, 531477), (0, 60)], [(170002399678849, 0), (0, 63262851026), (0, 12030080), (0, 3623), (0, 1)],
    [(514024475919, 0), (50506458, 0), (30780, 0), (7, 0)]], 3, 4⟩, ⟨[[(18635225800212480, 0), (0, 8359091647680953),
    (0, 115965244243), (0, 95796018), (0, 14601)], [(0, 56045224891297362), (5517909898542, 0), (2603509291, 0),
    (692422, 0), (121, 0)], [(12735475496765, 0), (0, 17824590676), (0, 6453772), (0, 1542)], [(0, 5014458107), (0,
    3132942), (0, 1811), (0, 1)]], 3, 4⟩, 72057594037927936, 23590166724832, 5250570406785, ⟨[[(13366659898646, 0),
    (15523762365, 0), (27004308, 0), (28344, 0), (0, 59)], [(0, 6949028453), (0, 43744378), (0, 148869), (0, 142),
    (1, 0)], [(17228473, 0), (176889, 0), (708, 0)], [(0, 60148), (0, 712), (0, 3)]], 3, 4⟩, 17592186044416,
    24013113,
    10762424043208479387278122077254056867834635118214182192301378865251509637119360404251542175271246698405666775307628715763963777,
    lc0⟩) (.leaf ⟨1105, 16, 3298, 447, 16, 2798, ⟨[[(24231298114486272, 0), (0, 19423388601099159), (1932486098087,
    0), (281135660, 0), (59491, 0)], [(21184988900110112, 0), (0, 43348409728252), (0, 898652442), (0, 580251), (0,
    67)], [(173848815555410, 0), (0, 68706817312), (0, 13594013), (0, 4033), (0, 1)], [(545965980072, 0), (58408847,
    0), (34138, 0), (7, 0)]], 3, 4⟩, ⟨[[(31599651023753216, 0), (0, 8421094119936814), (0, 139616716229), (0,
    100902571), (0, 14968)], [(0, 55878246002778761), (5966782640352, 0), (2783942929, 0), (734645, 0), (127, 0)],
    [(11362001403897, 0), (0, 18954887139), (0, 6859001), (0, 1637)], [(0, 5296675708), (0, 3445387), (0, 1985), (0,
    1)]], 3, 4⟩, 72057594037927936, 25358973349085, 5539993304848, ⟨[[(13365525724852, 0), (15858514944, 0),
    (29140383, 0), (33496, 0), (0, 64)], [(0, 6895918615), (0, 45880148), (0, 165856), (0, 181), (1, 0)], [(17517187,
    0), (188756, 0), (793, 0)], [(0, 61391), (0, 753), (0, 3)]], 3, 4⟩, 17592186044416, 23925828,
    7297097840710441582270788121238192951902807790015740785315332902586190848357132565300049503849238150480275507612638051100394930,
    lc0⟩)) (.sy (.leaf ⟨910, 16, 2638, 439, 16, 2825, ⟨[[(29597094348652544, 0), (0, 16782227549569979),
    (1470354044063, 0), (195583043, 0), (43493, 0)], [(28732696916615872, 0), (0, 37445725130731), (0, 1114674589),
    (0, 604365), (0, 78)], [(182034570302649, 0), (0, 49239688764), (0, 7740685), (0, 2514)], [(489100411417, 0),
    (53740508, 0), (30836, 0), (7, 0)]], 3, 4⟩, ⟨[[(0, 721452209557504), (0, 8339620286892462), (0, 48856590381), (0,
    78770803), (0, 11600)], [(0, 56147479652281353), (4585772502105, 0), (2273527109, 0), (614017, 0), (107, 0)],
    [(13100352298449, 0), (0, 17986265455), (0, 6558530), (0, 1588)], [(9015311301, 0), (5350572, 0), (1524, 0)]], 3,
    4⟩, 72057594037927936, 19015668964299, 4713152761100, ⟨[[(12983289194998, 0), (13819884390, 0), (22972974, 0),
    (28646, 0), (0, 22)], [(0, 6882397882), (0, 40514716), (0, 142749), (0, 219), (1, 0)], [(17439454, 0), (179599,
    0), (811, 0), (1, 0)], [(0, 66537), (0, 841), (0, 4)]], 3, 4⟩, 17592186044416, 32597557,
    10289451771032406847676120562411583850126885746265662813163982150456874604415487072602613777682976821399043029587051297655989881,
    lc0⟩) (.leaf ⟨935, 16, 2763, 432, 16, 2837, ⟨[[(0, 24904282298556416), (0, 17333372526878103), (1589651212742,
    0), (219415948, 0), (47828, 0)], [(27027606235010249, 0), (0, 39413908185534), (0, 1318669524), (0, 659353), (0,
    87)], [(186586887649318, 0), (0, 52886637211), (0, 8741547), (0, 2787), (0, 1)], [(516866565475, 0), (61462522,
    0), (34070, 0), (8, 0)]], 3, 4⟩, ⟨[[(0, 15539893114793984), (0, 8384165248250757), (0, 68002013969), (0,
    82765041), (0, 11805)], [(0, 56012585044640283), (4972889554213, 0), (2431454673, 0), (650879, 0), (112, 0)],
    [(11706272658351, 0), (0, 19119800078), (0, 6970110), (0, 1685)], [(9482087689, 0), (5614088, 0), (1557, 0)]], 3,
    4⟩, 72057594037927936, 20194811392516, 4961623999919, ⟨[[(12981230032612, 0), (14073349554, 0), (24616297, 0),
    (33294, 0), (0, 22)], [(0, 6821921199), (0, 42347042), (0, 158588), (0, 264), (1, 0)], [(17757327, 0), (192618,
    0), (911, 0), (1, 0)], [(0, 68732), (0, 901), (0, 4)]], 3, 4⟩, 17592186044416, 33476175,
    10118450895069037464075867627644044533696773548563920490039797540458479785585898394302335008406733963754595890510655892025821173,
    lc0⟩))))
theorem c70 : checkR job con1 true ⟨7, 9, 7, 9, 13, 17⟩ 1 9016 t70 230 14 160 8039 39 8000 = true := by decide +kernel

def t71 : CTree :=
  .sx (.sx (.sy (.sy (.out ⟨1717, 16, 8593, 25180, 16, 39315, ⟨[[(33847853654032384, 0), (0, 22134271660758347),
    (1295486836988, 0)], [(11279694960882718, 0), (0, 45767051987680), (571455871, 0)], [(234848377610273, 0), (0,
    100341077810), (0, 12160164)]], 2, 2⟩, ⟨[[(0, 19243410462081024), (0, 28059183373251525), (433929501775, 0)]], 2,
    2⟩, 72057594037927936, 2923518396549878, 398308160687, ⟨[], 0, 0⟩, 0, 0, 0, lc0⟩ 3 1 3836) (.out ⟨1791, 16, 9086,
    25210, 16, 39410, ⟨[[(0, 15347153880121344), (0, 23188477843762609), (1395545700614, 0)], [(8155862674049304, 0),
    (0, 48298970387355), (598901278, 0)], [(239967466207454, 0), (0, 108135960055), (0, 13273319)]], 2, 2⟩,
    ⟨[[(12026153224110080, 0), (0, 28059251044151115), (433407748477, 0)]], 2, 2⟩, 72057594037927936,
    3096984168641662, 397349629041, ⟨[], 0, 0⟩, 0, 0, 0, lc0⟩ 3 1 4632)) (.out ⟨997, 16, 5166, 12620, 16, 19764,
    ⟨[[(0, 5231019582619648), (0, 25991769825433968), (3265117322338, 0)], [(1428835393842535, 0), (0,
    54764055525019), (1344975136, 0)], [(129139168760133, 0), (0, 126582115543), (0, 31652223)]], 2, 2⟩,
    ⟨[[(1313226264543232, 0), (0, 28041819050384377), (864714269647, 0)]], 2, 2⟩, 72057594037927936,
    1798204844048476, 1583636618229, ⟨[], 0, 0⟩, 0, 0, 0, lc0⟩ 3 1 5992)) (.sy (.sy (.leaf ⟨2264, 16, 6887, 539, 16,
    3260, ⟨[[(0, 10371952697638912), (0, 18829504945579471), (1043678662366, 0), (80542696, 0), (8231, 0)],
    [(21659484957425710, 0), (0, 41127477985047), (0, 64510906), (0, 89942), (0, 3)], [(264708382522347, 0), (0,
    78001810514), (0, 8834208), (0, 1241)], [(990595326207, 0), (42357813, 0), (13681, 0), (1, 0)]], 3, 4⟩, ⟨[[(0,
    27811837476364288), (0, 5027627654646612), (0, 71307271585), (0, 18519599), (0, 1389)], [(0, 65384405699022235),
    (4305500850167, 0), (963522842, 0), (124937, 0), (11, 0)], [(13272933721183, 0), (0, 11081808872), (0, 1981772),
    (0, 233)], [(0, 26129429865), (0, 8388296), (0, 1821)]], 3, 4⟩, 72057594037927936, 55218411996863, 7197067195471,
    ⟨[[(13789480302940, 0), (15413801255, 0), (25468061, 0), (19416, 0), (0, 68)], [(0, 4127965723), (0, 25190645),
    (0, 74072), (0, 27)], [(5965088, 0), (54090, 0), (169, 0)], [(0, 10847), (0, 106)]], 3, 4⟩, 17592186044416,
    2948128,
    11205783193757225313864365257793677458867916939956905221279920807639046858027845512717127281552643772314208978616685309339463188,
    lc0⟩) (.out ⟨1405, 16, 7103, 25210, 16, 39410, ⟨[[(0, 18430905963413504), (0, 19250610304854905), (1096162532050,
    0)], [(19029796517644969, 0), (0, 42429456334794), (0, 88371697)], [(266679542318597, 0), (0, 81893143680), (0,
    9414798)]], 2, 2⟩, ⟨[[(12026153224110080, 0), (0, 28059251044151115), (433407748477, 0)]], 2, 2⟩,
    72057594037927936, 2884308061251877, 397349629041, ⟨[], 0, 0⟩, 0, 0, 0, lc0⟩ 3 1 3945)) (.sy (.out ⟨1456, 16,
    7473, 25241, 16, 39505, ⟨[[(6674023900856320, 0), (0, 20071814370401890), (1174709906145, 0)],
    [(16538567081277557, 0), (0, 44655949464822), (0, 116233317)], [(273789730223478, 0), (0, 87729696360), (0,
    10233221)]], 2, 2⟩, ⟨[[(0, 34039767746740224), (0, 28059237127132357), (432885992180, 0)]], 2, 2⟩,
    72057594037927936, 3046401072511558, 396393523745, ⟨[], 0, 0⟩, 0, 0, 0, lc0⟩ 3 1 5099) (.out ⟨1514, 16, 7886,
    25271, 16, 39600, ⟨[[(0, 18593955603628032), (0, 20985901050171077), (1262986346909, 0)], [(13776121513134987,
    0), (0, 47144957376690), (0, 147511913)], [(281633380005783, 0), (0, 94290346554), (0, 11154278)]], 2, 2⟩, ⟨[[(0,
    13306954736205824), (0, 28059142209620480), (432364241947, 0)]], 2, 2⟩, 72057594037927936, 3227853078219994,
    395439623519, ⟨[], 0, 0⟩, 0, 0, 0, lc0⟩ 3 1 6098)))) (.sx (.sy (.leaf ⟨1146, 16, 3486, 441, 16, 2813,
    ⟨[[(21320491560304640, 0), (0, 20206406799533617), (2114515042508, 0), (317266776, 0), (66019, 0)],
    [(18812633086432919, 0), (0, 45978964924079), (0, 1096030347), (0, 636056), (0, 75)], [(178004839597702, 0), (0,
    74944192261), (0, 15394195), (0, 4502), (0, 1)], [(582127276944, 0), (67513745, 0), (37973, 0), (8, 0)]], 3, 4⟩,
    ⟨[[(0, 24479189441376256), (0, 8490016585310398), (0, 164655674127), (0, 106181524), (0, 15320)], [(0,
    55692520061035255), (6449119174485, 0), (2976421174, 0), (779263, 0), (133, 0)], [(9893759606211, 0), (0,
    20162846762), (0, 7291749), (0, 1739)], [(0, 5607747821), (0, 3788834), (0, 2172), (0, 1)]], 3, 4⟩,
    72057594037927936, 27372366957842, 5850624191333, ⟨[[(13378281918546, 0), (16272184718, 0), (31650860, 0),
    (39456, 0), (0, 70)], [(0, 6876986626), (0, 48428049), (0, 185048), (0, 223), (1, 0)], [(17900101, 0), (201610,
    0), (883, 0), (1, 0)], [(0, 62640), (0, 791), (0, 3)]], 3, 4⟩, 17592186044416, 24212806,
    12871594887357746352883991693889912109578824376785272316327876655225553233619294145082920450985903760211420820170426765463915550,
    lc0⟩) (.sy (.out ⟨1130, 16, 5761, 25241, 16, 39505, ⟨[[(2132585081044992, 0), (0, 16489497351995934),
    (897188789367, 0)], [(26638402130373486, 0), (0, 38104066713737), (0, 499594236)], [(286838654559059, 0), (0,
    63453774352), (0, 6693375)]], 2, 2⟩, ⟨[[(0, 34039767746740224), (0, 28059237127132357), (432885992180, 0)]], 2,
    2⟩, 72057594037927936, 2717862071375079, 396393523745, ⟨[], 0, 0⟩, 0, 0, 0, lc0⟩ 3 1 3788) (.out ⟨1163, 16, 6025,
    25271, 16, 39600, ⟨[[(16287333955174400, 0), (0, 17097432348709097), (955409354529, 0)], [(24747555177927941, 0),
    (0, 39934303431778), (0, 555866403)], [(294763869171415, 0), (0, 67472246566), (0, 7240463)]], 2, 2⟩, ⟨[[(0,
    13306954736205824), (0, 28059142209620480), (432364241947, 0)]], 2, 2⟩, 72057594037927936, 2856997982124249,
    395439623519, ⟨[], 0, 0⟩, 0, 0, 0, lc0⟩ 3 1 5055))) (.sy (.leaf ⟨962, 16, 2902, 425, 16, 2851,
    ⟨[[(7957078112796672, 0), (0, 17940609603774418), (1725412796003, 0), (246512418, 0), (52719, 0)],
    [(25149597938957330, 0), (0, 41625605694419), (0, 1550453213), (0, 721812), (0, 97)], [(191583680230569, 0), (0,
    57033973368), (0, 9885999), (0, 3097), (0, 1)], [(548125773523, 0), (70287776, 0), (37735, 0), (9, 0)]], 3, 4⟩,
    ⟨[[(0, 15246668835479552), (0, 8437740676581931), (0, 88234910399), (0, 86895790), (0, 11992)], [(0,
    55884015311622345), (5390762954193, 0), (2600679649, 0), (689970, 0), (117, 0)], [(10221906460281, 0), (0,
    20338342737), (0, 7411931), (0, 1790)], [(9978514279, 0), (5888025, 0), (1593, 0)]], 3, 4⟩, 72057594037927936,
    21523767413978, 5230221470151, ⟨[[(12984716172496, 0), (14387865202, 0), (26668688, 0), (39252, 0), (0, 21)],
    [(0, 6795615215), (0, 44780258), (0, 178707), (0, 322), (1, 0)], [(18280346, 0), (209215, 0), (1036, 0), (2, 0)],
    [(0, 71762), (0, 975), (0, 5)]], 3, 4⟩, 17592186044416, 34861818,
    8545260142638592721566601339706465883964281180909569450839781048989340442081867229313026550741214787406686252338989234849837036,
    lc0⟩) (.sx (.leaf ⟨1257, 16, 3876, 651, 16, 4406, ⟨[[(0, 28203151761260544), (0, 23208688892955428),
    (2399565152976, 0), (358572916, 0), (74779, 0)], [(12925324093376663, 0), (0, 27413078421308), (0, 1047355492),
    (0, 471268), (0, 63)], [(58636822751842, 0), (0, 20102701857), (0, 3824062), (0, 1155)], [(89831775517, 0),
    (12217098, 0), (6409, 0), (1, 0)]], 3, 4⟩, ⟨[[(0, 22826306315280384), (0, 13128111940075517), (0, 198985022906),
    (0, 148109616), (0, 20032)], [(0, 42936701208389550), (4722396319534, 0), (2222676004, 0), (582498, 0), (98, 0)],
    [(3249613474354, 0), (0, 8357450756), (0, 3039320), (0, 731)], [(1263439702, 0), (716946, 0), (130, 0)]], 3, 4⟩,
    72057594037927936, 1850269708891, 545562376435, ⟨[[(13077728299451, 0), (9831090514, 0), (12715234, 0), (12787,
    0), (0, 5)], [(0, 5585907900), (0, 25794242), (0, 70362), (0, 82)], [(12657995, 0), (98512, 0), (321, 0)], [(0,
    40102), (0, 359), (0, 1)]], 3, 4⟩, 17592186044416, 13018438,
    11793765451178899475811039035912963273266699410330181635368890943513721450345269894366548291342139407515821123675702003513313897,
    lc0⟩) (.leaf ⟨1176, 16, 3612, 638, 16, 4437, ⟨[[(23056495935029248, 0), (0, 22357629128244897), (2206138411782,
    0), (321039265, 0), (67903, 0)], [(15305711050317344, 0), (0, 26567461194618), (0, 1161193160), (0, 496220), (0,
    69)], [(61880485559101, 0), (0, 17736830764), (0, 3044085), (0, 960)], [(88579136404, 0), (12300028, 0), (6379,
    0), (1, 0)]], 3, 4⟩, ⟨[[(35726039139196928, 0), (0, 13093899358221481), (0, 140106927327), (0, 133303863), (0,
    17509)], [(0, 43051354805343543), (4286750805994, 0), (2067512773, 0), (545411, 0), (92, 0)], [(3442804067746,
    0), (0, 8316248220), (0, 3034310), (0, 734)], [(2764149176, 0), (1644337, 0), (492, 0)]], 3, 4⟩,
    72057594037927936, 1661025135742, 509458118728, ⟨[[(12884632087231, 0), (9220172976, 0), (11556106, 0), (12331,
    0), (0, 1)], [(0, 5418831616), (0, 24050956), (0, 66585), (0, 90)], [(12139025, 0), (94887, 0), (327, 0)], [(0,
    39738), (0, 369), (0, 1)]], 3, 4⟩, 17592186044416, 14137704,
    6934798275516756631979666829389029390569502297583121518050198871730026877119563556062353072328945128689020745266809179766848552,
    lc0⟩))))
theorem c71 : checkR job con1 true ⟨7, 9, 7, 9, 13, 17⟩ 1 9016 t71 230 14 160 16195 39 16000 = true := by decide +kernel

def t72 : CTree :=
  .sx (.sy (.out ⟨858, 16, 4573, 12651, 16, 19860, ⟨[[(0, 24965839716974592), (0, 23247398133674161), (3014652052341,
    0)], [(1559430370060195, 0), (0, 103073883794340), (704692215, 0)], [(519691571688897, 0), (0, 459836121430), (0,
    114699880)]], 2, 2⟩, ⟨[[(0, 7995739573059584), (0, 28042963867297917), (862674619845, 0)]], 2, 2⟩,
    72057594037927936, 14188949031709532, 1576105601397, ⟨[], 0, 0⟩, 0, 0, 0, lc0⟩ 3 1 7751) (.out ⟨801, 16, 4400,
    12681, 16, 19955, ⟨[[(17539585067302912, 0), (0, 21906504899354768), (3016297467764, 0)], [(0, 6231319996032265),
    (0, 99079079367993), (545388057, 0)], [(464835166137911, 0), (0, 460209570663), (0, 117515193)]], 2, 2⟩, ⟨[[(0,
    1687808441712640), (0, 28042371096716971), (860591410057, 0)]], 2, 2⟩, 72057594037927936, 13763111144583017,
    1568531376260, ⟨[], 0, 0⟩, 0, 0, 0, lc0⟩ 3 1 9771)) (.sy (.sx (.out ⟨730, 16, 3871, 12651, 16, 19860, ⟨[[(0,
    25788448105324544), (0, 21678585901881866), (2523982781700, 0)], [(12893096420221138, 0), (0, 51489563895519),
    (0, 1560326200)], [(184245990076555, 0), (0, 88933234843), (0, 19566297)]], 2, 2⟩, ⟨[[(0, 7995739573059584), (0,
    28042963867297917), (862674619845, 0)]], 2, 2⟩, 72057594037927936, 1879330822029860, 1576105601397, ⟨[], 0, 0⟩,
    0, 0, 0, lc0⟩ 3 1 6792) (.sy (.out ⟨923, 16, 4808, 25302, 16, 39696, ⟨[[(2674143920488448, 0), (0,
    14459823845911752), (758983555163, 0)], [(32202904306248078, 0), (0, 34867306517678), (0, 769250296)],
    [(304196743831513, 0), (0, 49630555187), (0, 4646627)]], 2, 2⟩, ⟨[[(0, 23943167593152512), (0,
    28059673738823542), (431853385746, 0)]], 2, 2⟩, 72057594037927936, 2589157862621632, 394498024903, ⟨[], 0, 0⟩, 0,
    0, 0, lc0⟩ 3 1 4308) (.out ⟨945, 16, 5006, 25332, 16, 39791, ⟨[[(0, 13021863185719296), (0, 14930921620861791),
    (804419866786, 0)], [(30692462217543182, 0), (0, 36431216039057), (0, 840575773)], [(312663590691934, 0), (0,
    52442700343), (0, 5012714)]], 2, 2⟩, ⟨[[(0, 13726417272963072), (0, 28059416871651079), (431331635307, 0)]], 2,
    2⟩, 72057594037927936, 2711804121833464, 393548656501, ⟨[], 0, 0⟩, 0, 0, 0, lc0⟩ 3 1 5705))) (.out ⟨522, 16,
    2854, 12681, 16, 19955, ⟨[[(32490397612130304, 0), (0, 16234561780741488), (1911247786663, 0)],
    [(20981679011546322, 0), (0, 80018665578530), (0, 3387819488)], [(607929964783671, 0), (0, 258843926147), (0,
    55233279)]], 2, 2⟩, ⟨[[(0, 1687808441712640), (0, 28042371096716971), (860591410057, 0)]], 2, 2⟩,
    72057594037927936, 12018212846544997, 1568531376260, ⟨[], 0, 0⟩, 0, 0, 0, lc0⟩ 3 1 8915))
theorem c72 : checkR job con1 true ⟨7, 9, 7, 9, 13, 17⟩ 1 9016 t72 230 14 160 16273 39 16000 = true := by decide +kernel

def t73 : CTree :=
  .sx (.sy (.sx (.sx (.leaf ⟨612, 16, 1702, 469, 16, 3037, ⟨[[(10670741957328896, 0), (0, 23124024814802754),
    (3570029087698, 0), (841602388, 0), (399459, 0)], [(13432632221797456, 0), (0, 25253350533467), (0, 1496481806),
    (0, 1695619), (0, 458)], [(35386942996357, 0), (0, 14330698729), (0, 3246676), (0, 2413), (0, 1)], [(42164274227,
    0), (8276780, 0), (9839, 0), (5, 0)]], 3, 4⟩, ⟨[[(0, 11974317698527232), (0, 17744528181637583), (80016945621,
    0), (0, 534718747), (0, 160337)], [(0, 30103299454443397), (3648221586236, 0), (3905673990, 0), (2168881, 0),
    (772, 0)], [(4280742764119, 0), (0, 8622091631), (0, 6305489), (0, 3098), (0, 1)], [(2303192622, 0), (2668766,
    0), (1869, 0), (1, 0)]], 3, 4⟩, 72057594037927936, 737705946472, 268283668698, ⟨[[(12706463296658, 0),
    (11518052202, 0), (15839390, 0), (17382, 0), (0, 4)], [(0, 8836742533), (0, 42119706), (0, 124887), (0, 195)],
    [(27316147, 0), (234706, 0), (976, 0), (1, 0)], [(0, 132469), (0, 1512), (0, 7)]], 3, 4⟩, 17592186044416,
    103680435,
    8845457123686933775985777962437143483876839715415037985750781823324394250314745506080401498626530537686038118231974305730411501,
    lc0⟩) (.leaf ⟨587, 16, 1618, 460, 16, 3057, ⟨[[(19938853487116288, 0), (0, 22665471214630794), (3351788475488,
    0), (753232393, 0), (366885, 0)], [(14749375066253771, 0), (0, 24751197351812), (0, 1573261644), (0, 1729767),
    (0, 482)], [(37090384776900, 0), (0, 12951781823), (0, 2290365), (0, 1912), (0, 1)], [(42049797674, 0), (8091036,
    0), (9573, 0), (5, 0)]], 3, 4⟩, ⟨[[(14010280814776320, 0), (0, 17765301826183470), (185691737940, 0), (0,
    479541092), (0, 140486)], [(0, 30054222675524631), (3193164943870, 0), (3580891431, 0), (2010241, 0), (716, 0)],
    [(4533842130702, 0), (0, 8420553455), (0, 6162231), (0, 3053), (0, 1)], [(3025663634, 0), (3446205, 0), (2505,
    0), (1, 0)]], 3, 4⟩, 72057594037927936, 682292463038, 245559347617, ⟨[[(12525406109275, 0), (10865094464, 0),
    (14402853, 0), (16080, 0), (1, 0)], [(0, 8508732568), (0, 38668229), (0, 112288), (0, 194)], [(25285722, 0),
    (210122, 0), (896, 0), (2, 0)], [(0, 119082), (0, 1367), (0, 7)]], 3, 4⟩, 17592186044416, 97817001,
    5746295047224583800616967649751111800839242438842927430509552557243186993041917757300847128498087198894355754239526917394794597,
    lc0⟩)) (.leaf ⟨444, 16, 1204, 324, 16, 2237, ⟨[[(8284450629746688, 0), (0, 17656136962572016), (2442514887569,
    0), (504189884, 0), (257012, 0)], [(26926425620844169, 0), (0, 38391360571673), (0, 2552053992), (0, 2776280),
    (0, 803)], [(126710450667601, 0), (0, 35508509957), (0, 3211924), (0, 3917), (0, 2)], [(267364375307, 0),
    (47994962, 0), (57091, 0), (28, 0)]], 3, 4⟩, ⟨[[(1316287794106368, 0), (0, 12912523611414433), (238130443534, 0),
    (0, 293011989), (0, 82151)], [(0, 43401825424338752), (3667353390515, 0), (4504706970, 0), (2575035, 0), (919,
    0)], [(14563911741963, 0), (0, 23196514688), (0, 16963395), (0, 8517), (0, 3)], [(23190530204, 0), (25639855, 0),
    (19243, 0), (8, 0)]], 3, 4⟩, 72057594037927936, 7739702105020, 2460420448798, ⟨[[(12268164752066, 0),
    (13748500416, 0), (23640927, 0), (35913, 0), (21, 0)], [(0, 10046902378), (0, 58352012), (0, 221025), (0, 571)],
    [(34981723, 0), (372994, 0), (2204, 0), (7, 0)], [(0, 192437), (0, 2991), (0, 21)]], 3, 4⟩, 17592186044416,
    254465635,
    8270324589877208525986101613486922075790061121626662676287688987368589150792632165962814038700783873378183805835183814456385409,
    lc0⟩)) (.sx (.sy (.leaf ⟨776, 16, 2217, 423, 16, 2865, ⟨[[(21185015868874752, 0), (0, 15016510985913597),
    (1204954076451, 0), (148626671, 0), (34425, 0)], [(33716596618014848, 0), (0, 33676029059160), (0, 1237925169),
    (0, 611614), (0, 85)], [(189405112547283, 0), (0, 37343821121), (0, 4216871), (0, 1580)], [(455721119347, 0),
    (50211713, 0), (28259, 0), (7, 0)]], 3, 4⟩, ⟨[[(16393107762597888, 0), (0, 8341623709383207), (9847640382, 0),
    (0, 63706760), (0, 8945)], [(0, 56166880925814290), (3647877052232, 0), (1939230949, 0), (533327, 0), (93, 0)],
    [(14587515218576, 0), (0, 17474626368), (0, 6397481), (0, 1572)], [(21503602250, 0), (12542515, 0), (4399, 0),
    (1, 0)]], 3, 4⟩, 72057594037927936, 15076621210464, 4052448711964, ⟨[[(12612666014919, 0), (12244252684, 0),
    (18933443, 0), (25371, 0), (2, 0)], [(0, 6800243702), (0, 36418682), (0, 126439), (0, 250)], [(17100847, 0),
    (169479, 0), (830, 0), (2, 0)], [(0, 68270), (0, 898), (0, 5)]], 3, 4⟩, 17592186044416, 40847798,
    8932963424623416292021309553351984736486071059947797851536155755418358752090602305430787480632866581722556878703440395144650649,
    lc0⟩) (.leaf ⟨792, 16, 2310, 416, 16, 2876, ⟨[[(2069589516214272, 0), (0, 15447678806207376), (1293068526856, 0),
    (166327904, 0), (37645, 0)], [(32385888854796823, 0), (0, 35301710322257), (0, 1442278291), (0, 665758), (0,
    94)], [(194287856604704, 0), (0, 39626423030), (0, 4790737), (0, 1748)], [(479101271130, 0), (57040769, 0),
    (31116, 0), (7, 0)]], 3, 4⟩, ⟨[[(0, 15228531679395840), (0, 8373293065403277), (0, 5407562660), (0, 66760314),
    (0, 9021)], [(0, 56084802398283438), (3975514702317, 0), (2075400909, 0), (565027, 0), (97, 0)],
    [(13235438192557, 0), (0, 18572890262), (0, 6801580), (0, 1667)], [(22595489466, 0), (13294476, 0), (4609, 0),
    (1, 0)]], 3, 4⟩, 72057594037927936, 15806904507036, 4252915125152, ⟨[[(12616284124520, 0), (12464422809, 0),
    (20248530, 0), (29401, 0), (5, 0)], [(0, 6762744097), (0, 38181741), (0, 141656), (0, 300)], [(17571049, 0),
    (184917, 0), (951, 0), (2, 0)], [(0, 72314), (0, 993), (0, 5)]], 3, 4⟩, 17592186044416, 42714237,
    8487332701434730566631085160028285689919885465334141319822101920025170082553398331684613609523760331051252122289535472389237002,
    lc0⟩)) (.leaf ⟨449, 16, 1270, 312, 16, 2248, ⟨[[(0, 34483335780839424), (0, 18211844429558512), (2711081609129,
    0), (620674960, 0), (298742, 0)], [(25225981488127803, 0), (0, 40970915028521), (0, 3409224763), (0, 3206980),
    (0, 941)], [(130712239289580, 0), (0, 38062565207), (0, 4425248), (0, 4743), (0, 2)], [(286350357145, 0),
    (60585917, 0), (67585, 0), (33, 0)]], 3, 4⟩, ⟨[[(0, 29999890495725568), (0, 12944218397813893), (167386903175,
    0), (0, 320177183), (0, 82092)], [(0, 43298980937935305), (4440593606161, 0), (5166940246, 0), (2886698, 0),
    (993, 0)], [(12709412885273, 0), (0, 26131996433), (0, 19164077), (0, 9556), (0, 3)], [(25435733218, 0),
    (28929117, 0), (21250, 0), (9, 0)]], 3, 4⟩, 72057594037927936, 8125009644538, 2675418560125, ⟨[[(12268159673066,
    0), (14149051765, 0), (26368032, 0), (46713, 0), (39, 0)], [(0, 10045207358), (0, 63565209), (0, 274678), (0,
    825)], [(37323276, 0), (450875, 0), (3009, 0), (10, 0)], [(0, 225087), (0, 3911), (0, 30)]], 3, 4⟩,
    17592186044416, 319922231,
    6266371119719789982498413729155655278356335409126984478713280242425250523536322139543327053908979739320497758559435528508930239,
    lc0⟩))) (.sy (.sx (.sx (.leaf ⟨521, 16, 1385, 433, 16, 3113, ⟨[[(0, 11606639170822144), (0, 21255349811897649),
    (2747028557403, 0), (511235880, 0), (275451, 0)], [(18755768035139568, 0), (0, 22903196404844), (0, 1502404633),
    (0, 1669756), (0, 498)], [(41433741214596, 0), (0, 9362896660), (94606, 0), (0, 610)], [(40811612005, 0),
    (6511656, 0), (7901, 0), (4, 0)]], 3, 4⟩, ⟨[[(30908664457723904, 0), (0, 17875732665069105), (452874634188, 0),
    (0, 337624301), (0, 89260)], [(0, 29750468892098642), (1898790686635, 0), (2657500086, 0), (1550465, 0), (555,
    0)], [(5626932701510, 0), (0, 7461773329), (0, 5439725), (0, 2774), (0, 1)], [(4831663625, 0), (5151597, 0),
    (3951, 0), (2, 0)]], 3, 4⟩, 72057594037927936, 545963931149, 173865917521, ⟨[[(12014514283839, 0), (9133744229,
    0), (10661885, 0), (11173, 0), (7, 0)], [(0, 7669922081), (0, 29854845), (0, 75726), (0, 145)], [(20237317, 0),
    (142439, 0), (588, 0), (1, 0)], [(0, 82460), (0, 877), (0, 5)]], 3, 4⟩, 17592186044416, 70051274,
    8183609589826715711872711522941636369402546905886289994231054755237247362418966999651168572729666273478596970970055801316083160,
    lc0⟩) (.leaf ⟨501, 16, 1314, 424, 16, 3131, ⟨[[(35520864899960832, 0), (0, 20780970824169800), (2566528497085,
    0), (440302179, 0), (247858, 0)], [(20087842149775015, 0), (0, 22212318900151), (0, 1402986890), (0, 1607550),
    (0, 489)], [(42623634139893, 0), (0, 8380974520), (705160, 0), (0, 258)], [(40179380727, 0), (5750193, 0), (7135,
    0), (4, 0)]], 3, 4⟩, ⟨[[(26732407405547520, 0), (0, 17931388411385738), (526133093893, 0), (0, 298063059), (0,
    74920)], [(0, 29593766755448544), (1501953444998, 0), (2376075054, 0), (1407172, 0), (504, 0)], [(6087011637025,
    0), (0, 7055493136), (0, 5124368), (0, 2645), (0, 1)], [(5308728740, 0), (5500050, 0), (4269, 0), (2, 0)]], 3,
    4⟩, 72057594037927936, 510451135913, 150112785972, ⟨[[(11860447456446, 0), (8651140523, 0), (9696531, 0), (9730,
    0), (7, 0)], [(0, 7467191886), (0, 27724642), (0, 66525), (0, 125)], [(19150980, 0), (126614, 0), (499, 0), (1,
    0)], [(0, 74394), (0, 747), (0, 4)]], 3, 4⟩, 17592186044416, 61970830,
    8199244063874511537665560797746227150076490011043226317556153866428491546849809941127159151842805630716911640807008134840142536,
    lc0⟩)) (.leaf ⟨362, 16, 926, 299, 16, 2302, ⟨[[(30796184826372096, 0), (0, 15312305759563822), (1768394125711,
    0), (262583126, 0), (159947, 0)], [(33663928964657015, 0), (0, 32258246004258), (0, 1842475932), (0, 2268543),
    (0, 710)], [(134804444785966, 0), (0, 21731583895), (4392312, 0), (579, 0)], [(238643841509, 0), (27431051, 0),
    (35856, 0), (20, 0)]], 3, 4⟩, ⟨[[(31787757370986496, 0), (0, 13146131941091943), (453791382186, 0), (0,
    179022048), (0, 40707)], [(0, 42721663868325349), (1380726626625, 0), (2895043074, 0), (1756870, 0), (630, 0)],
    [(19974945469083, 0), (0, 18654494824), (0, 13429914), (0, 7083), (0, 3)], [(34461023640, 0), (33916637, 0),
    (26779, 0), (11, 0)]], 3, 4⟩, 72057594037927936, 5632930173187, 1367010094040, ⟨[[(11627226065745, 0),
    (10903649193, 0), (15730126, 0), (19931, 0), (21, 0)], [(0, 9366208379), (0, 44380121), (0, 133309), (0, 317),
    (0, 1)], [(30148947, 0), (247831, 0), (1201, 0), (5, 0)], [(0, 142770), (0, 1738), (0, 13)]], 3, 4⟩,
    17592186044416, 210443221,
    9298283011307658909745147865805956905325274600143470179143842971818666454017211236495340648479452257042143984082043852627400653,
    lc0⟩)) (.sx (.sx (.leaf ⟨517, 16, 1439, 416, 16, 3127, ⟨[[(34972176575864832, 0), (0, 21628581874883144),
    (2989220812063, 0), (624936533, 0), (315186, 0)], [(17620598509358149, 0), (0, 24072359073077), (0, 1986498607),
    (0, 1904999), (0, 575)], [(42290711485944, 0), (0, 9724910870), (0, 64084), (0, 755)], [(42982534038, 0),
    (8125814, 0), (9246, 0), (5, 0)]], 3, 4⟩, ⟨[[(0, 1628493190541312), (0, 17891517856317263), (372302196231, 0),
    (0, 366791232), (0, 87213)], [(0, 29718492097786821), (2353266130012, 0), (3054685329, 0), (1737128, 0), (595,
    0)], [(5032998782245, 0), (0, 8400534488), (0, 6153683), (0, 3113), (0, 1)], [(5281971781, 0), (5825001, 0),
    (4375, 0), (2, 0)]], 3, 4⟩, 72057594037927936, 557820776205, 187126545777, ⟨[[(12023563693920, 0), (9413732824,
    0), (11864680, 0), (14503, 0), (13, 0)], [(0, 7791283147), (0, 32881938), (0, 95373), (0, 215)], [(22140300, 0),
    (177322, 0), (845, 0), (2, 0)], [(0, 100901), (0, 1229), (0, 7)]], 3, 4⟩, 17592186044416, 96462977,
    7767182143538388245245657274793734049089891429976932306726874875331737498041308052799351505576014911121114672959585635474166843,
    lc0⟩) (.leaf ⟨497, 16, 1363, 407, 16, 3145, ⟨[[(6365190246014976, 0), (0, 21131763046316564), (2778805161332, 0),
    (540942997, 0), (283030, 0)], [(19030098289093200, 0), (0, 23299082894804), (0, 1864665211), (0, 1834193), (0,
    563)], [(43539320168416, 0), (0, 8584771886), (659341, 0), (0, 350)], [(42189870339, 0), (7192944, 0), (8361, 0),
    (4, 0)]], 3, 4⟩, ⟨[[(0, 13388187836616704), (0, 17934729425533716), (455715144076, 0), (0, 322395924), (0,
    71819)], [(0, 29593206149826939), (1907768647080, 0), (2736309053, 0), (1576289, 0), (538, 0)], [(5528827290883,
    0), (0, 7940355614), (0, 5804792), (0, 2969), (0, 1)], [(5790359381, 0), (6227788, 0), (4734, 0), (2, 0)]], 3,
    4⟩, 72057594037927936, 516593713699, 159805803820, ⟨[[(11862270316089, 0), (8870775049, 0), (10621421, 0),
    (12235, 0), (12, 0)], [(0, 7531113380), (0, 29944678), (0, 80902), (0, 180)], [(20472663, 0), (151674, 0), (692,
    0), (2, 0)], [(0, 87333), (0, 1007), (0, 6)]], 3, 4⟩, 17592186044416, 82360851,
    8579490966097583360949099304963459463577736933606761581181615296509181550541461448198907219571141866917101741230746874409035846,
    lc0⟩)) (.sx (.leaf ⟨478, 16, 1291, 398, 16, 3163, ⟨[[(21245804932116480, 0), (0, 20639626476686825),
    (2583223996753, 0), (463551703, 0), (252975, 0)], [(20429310485195767, 0), (0, 22508108410314), (0, 1712942012),
    (0, 1746438), (0, 545)], [(44653704128648, 0), (0, 7584338054), (1269120, 0), (3, 0)], [(41327658404, 0),
    (6185758, 0), (7406, 0), (4, 0)]], 3, 4⟩, ⟨[[(0, 25957284048470016), (0, 17989775108799491), (530907510918, 0),
    (0, 282148086), (0, 57909)], [(0, 29437164186621321), (1486429180692, 0), (2436445361, 0), (1422966, 0), (483,
    0)], [(6067145616976, 0), (0, 7448604556), (0, 5427376), (0, 2811), (0, 1)], [(6227679196, 0), (6505783, 0),
    (5000, 0), (2, 0)]], 3, 4⟩, 72057594037927936, 480669025728, 133134208283, ⟨[[(11709574893475, 0), (8379875676,
    0), (9567075, 0), (10324, 0), (10, 0)], [(0, 7314276762), (0, 27541638), (0, 69257), (0, 147)], [(19193978, 0),
    (131666, 0), (563, 0), (2, 0)], [(0, 77095), (0, 825), (0, 5)]], 3, 4⟩, 17592186044416, 71344708,
    8506759157179384841274637762302544689917345231596647689711099723872571233746480656509115346013530760230816266181942226631115528,
    lc0⟩) (.leaf ⟨461, 16, 1223, 388, 16, 3181, ⟨[[(6806269502296064, 0), (0, 20155028455686840), (2402816899767, 0),
    (392893427, 0), (225095, 0)], [(21815228778029609, 0), (0, 21711664785736), (0, 1539341420), (0, 1645720), (0,
    523)], [(45643901463260, 0), (0, 6722077931), (1766934, 0), (306, 0)], [(40422690399, 0), (5138830, 0), (6409,
    0), (3, 0)]], 3, 4⟩, ⟨[[(33668905743749120, 0), (0, 18056022908715149), (598369560328, 0), (0, 245852425), (0,
    45420)], [(0, 29247985616339717), (1090898192936, 0), (2156607621, 0), (1277892, 0), (431, 0)], [(6642258303467,
    0), (0, 6935560940), (0, 5029091), (0, 2643), (0, 1)], [(6596059880, 0), (6661402, 0), (5174, 0), (2, 0)]], 3,
    4⟩, 72057594037927936, 450209805705, 107574683018, ⟨[[(11549732505387, 0), (7890851033, 0), (8582429, 0), (8599,
    0), (9, 0)], [(0, 7070121661), (0, 25205754), (0, 58772), (0, 116)], [(17888060, 0), (113407, 0), (442, 0), (1,
    0)], [(0, 67583), (0, 655), (0, 4)]], 3, 4⟩, 17592186044416, 59932497,
    8466957609239242024047790375740624258424200597310073187946959114367417211129713054000994053475234550703622832882669951205352053,
    lc0⟩))))
theorem c73 : checkR job con1 true ⟨7, 9, 7, 9, 13, 17⟩ 1 9016 t73 258 14 160 8039 39 8000 = true := by decide +kernel

def t74 : CTree :=
  .sx (.sy (.sx (.sy (.leaf ⟨809, 16, 2411, 408, 16, 2887, ⟨[[(23125820665880576, 0), (0, 15909314335476073),
    (1391685207666, 0), (186157135, 0), (41213, 0)], [(30918477361401143, 0), (0, 37092909095314), (0, 1671579553),
    (0, 726284), (0, 104)], [(199525391179032, 0), (0, 42173002517), (0, 5439987), (0, 1936)], [(504893952680, 0),
    (64742615, 0), (34305, 0), (8, 0)]], 3, 4⟩, ⟨[[(20144687541813248, 0), (0, 8407406048413322), (0, 21440698491),
    (0, 69843414), (0, 9065)], [(0, 55975089128634816), (4326259687762, 0), (2219657794, 0), (598130, 0), (101, 0)],
    [(11789489957764, 0), (0, 19740143319), (0, 7230160), (0, 1768)], [(23751401809, 0), (14082797, 0), (4830, 0),
    (1, 0)]], 3, 4⟩, 72057594037927936, 16608358218846, 4466785248424, ⟨[[(12612153746054, 0), (12689962839, 0),
    (21770442, 0), (34482, 0), (10, 0)], [(0, 6714060560), (0, 40149396), (0, 159797), (0, 364)], [(18043292, 0),
    (202113, 0), (1095, 0), (2, 0)], [(0, 76337), (0, 1096), (0, 6)]], 3, 4⟩, 17592186044416, 45356050,
    7214144906110578487427770702720892160301618959781415848687514417497808210009349830016455298677334043986048980370639767148504817,
    lc0⟩) (.leaf ⟨829, 16, 2523, 401, 16, 2900, ⟨[[(1433090090262528, 0), (0, 16417535144529533), (1503518036058, 0),
    (208584201, 0), (45214, 0)], [(29316100557834066, 0), (0, 39102974419615), (0, 1931105420), (0, 794789), (0,
    115)], [(205316181081396, 0), (0, 45057864133), (0, 6180898), (0, 2148)], [(533855111954, 0), (73505596, 0),
    (37905, 0), (9, 0)]], 3, 4⟩, ⟨[[(0, 1872407376936960), (0, 8449921739748698), (0, 38286405557), (0, 72995979),
    (0, 9081)], [(0, 55874319949643675), (4704727279097, 0), (2374000078, 0), (633118, 0), (105, 0)],
    [(10250871837214, 0), (0, 20995040174), (0, 7690039), (0, 1877)], [(24991708588, 0), (14919797, 0), (5068, 0),
    (1, 0)]], 3, 4⟩, 72057594037927936, 17504778370209, 4698145747802, ⟨[[(12614203349115, 0), (12942207205, 0),
    (23497095, 0), (40408, 0), (16, 0)], [(0, 6675437056), (0, 42356560), (0, 180213), (0, 438)], [(18556922, 0),
    (220464, 0), (1249, 0), (3, 0)], [(0, 80264), (0, 1198), (0, 7)]], 3, 4⟩, 17592186044416, 46719465,
    6803161454322115347818024284322002519566278590916691892630150165297271147586403647670885227391518243945283274090387165453576727,
    lc0⟩)) (.leaf ⟨454, 16, 1344, 299, 16, 2260, ⟨[[(2889343232413696, 0), (0, 18812831880099784), (3034665813006,
    0), (760304819, 0), (347430, 0)], [(23290303965885970, 0), (0, 43984911533228), (0, 4439727871), (0, 3721996),
    (0, 1110)], [(135155717320189, 0), (0, 41106777619), (0, 5939406), (0, 5730), (0, 2)], [(308488486940, 0),
    (75930579, 0), (80078, 0), (38, 0)]], 3, 4⟩, ⟨[[(12428604879040512, 0), (0, 12993094877991664), (89966708370, 0),
    (0, 347351906), (0, 80414)], [(0, 43148880896897179), (5329541774033, 0), (5910934661, 0), (3224824, 0), (1071,
    0)], [(10606175978289, 0), (0, 29459035108), (0, 21643379), (0, 10731), (0, 4)], [(27974217569, 0), (32579819,
    0), (23498, 0), (10, 0)]], 3, 4⟩, 72057594037927936, 8553821662525, 2921653871433, ⟨[[(12264838177051, 0),
    (14629673122, 0), (30119904, 0), (63595, 0), (74, 0)], [(0, 10096591852), (0, 71054530), (0, 357042), (0, 1245),
    (0, 1)], [(40780573, 0), (567030, 0), (4273, 0), (16, 0)], [(0, 271761), (0, 5280), (0, 44)]], 3, 4⟩,
    17592186044416, 412500162,
    6285176237261220258973587061312896697150718507630294832336457356122039371490781050632936135922401041658305942468399982932765037,
    lc0⟩)) (.sx (.sy (.leaf ⟨852, 16, 2648, 394, 16, 2913, ⟨[[(0, 30567415852892160), (0, 16980672495546440),
    (1630995139009, 0), (234075853, 0), (49723, 0)], [(27554668442856219, 0), (0, 41371934309507), (0, 2226450674),
    (0, 872784), (0, 127)], [(211759215139605, 0), (0, 48344174546), (0, 7030392), (0, 2390)], [(566568491719, 0),
    (83524369, 0), (41991, 0), (10, 0)]], 3, 4⟩, ⟨[[(0, 30265471654854656), (0, 8495155737118178), (0, 55947970589),
    (0, 76160122), (0, 9058)], [(0, 55741363370185125), (5109632120688, 0), (2537372717, 0), (669643, 0), (110, 0)],
    [(8603966668609, 0), (0, 22329236750), (0, 8178144), (0, 1993)], [(26304128757, 0), (15798450, 0), (5319, 0), (1,
    0)]], 3, 4⟩, 72057594037927936, 18513752005918, 4944879328510, ⟨[[(12616762973733, 0), (13222390609, 0),
    (25503463, 0), (47592, 0), (24, 0)], [(0, 6634780605), (0, 44807247), (0, 203600), (0, 525)], [(19060642, 0),
    (239840, 0), (1418, 0), (4, 0)], [(0, 83799), (0, 1298), (0, 8)]], 3, 4⟩, 17592186044416, 48974848,
    8246342494830506888327480027136685649999816419273020423905704432341152530245889632990582204832739741132823996290842822365058538,
    lc0⟩) (.sy (.leaf ⟨1275, 16, 4030, 457, 16, 3442, ⟨[[(11119269363499008, 0), (0, 12774401978061689),
    (636577300331, 0), (46782466, 0), (4897, 0)], [(38240278228187470, 0), (0, 31687163128083), (0, 906398909), (0,
    171830), (0, 13)], [(317935553629953, 0), (0, 37432449387), (0, 2837990), (0, 475)], [(869920431769, 0),
    (67372937, 0), (16634, 0), (2, 0)]], 3, 4⟩, ⟨[[(0, 7108208450842624), (0, 5023270400924771), (0, 20530172757),
    (0, 11560673), (0, 663)], [(0, 65500363175357504), (3198276445606, 0), (784929311, 0), (102762, 0), (8, 0)],
    [(8589421247212, 0), (0, 13769668799), (0, 2521307), (0, 307)], [(32194744460, 0), (9707544, 0), (1624, 0)]], 3,
    4⟩, 72057594037927936, 28255281099655, 5975125153765, ⟨[[(12616124102742, 0), (11430203486, 0), (19703318, 0),
    (33346, 0), (17, 0)], [(0, 4511415164), (0, 27244210), (0, 110769), (0, 254)], [(9086710, 0), (101595, 0), (528,
    0), (1, 0)], [(0, 27568), (0, 374), (0, 2)]], 3, 4⟩, 17592186044416, 9438408,
    11243511567808712253422920519312597227215128676202205137974549285144490056965226974381204584429407858145174337878079794911462957,
    lc0⟩) (.out ⟨759, 16, 4103, 25393, 16, 39982, ⟨[[(3265850113908736, 0), (0, 12903815572272023), (659437135161,
    0)], [(36410900591882921, 0), (0, 32408326171340), (0, 964228749)], [(320704254360094, 0), (0, 38570160897), (0,
    3004162)]], 2, 2⟩, ⟨[[(0, 35174714133446656), (0, 28059367735910236), (430299003756, 0)]], 2, 2⟩,
    72057594037927936, 2487880581919399, 391666680939, ⟨[], 0, 0⟩, 0, 0, 0, lc0⟩ 3 1 5980))) (.leaf ⟨462, 16, 1431,
    287, 16, 2274, ⟨[[(1939776101838848, 0), (0, 19511080117813770), (3434463408094, 0), (930423443, 0), (405478,
    0)], [(21114342443367086, 0), (0, 47644219521690), (0, 5699254643), (0, 4353195), (0, 1323)], [(140449289642262,
    0), (0, 44870536045), (0, 7847488), (0, 6935), (0, 3)], [(335302123339, 0), (94914848, 0), (95270, 0), (45, 0)]],
    3, 4⟩, ⟨[[(0, 8694866338598912), (0, 13065992425205005), (5829629623, 0), (0, 374169484), (0, 76858)], [(0,
    42960130286506862), (6351678453245, 0), (6747055421, 0), (3592439, 0), (1152, 0)], [(8222076026495, 0), (0,
    33243365107), (0, 24449393), (0, 12064), (0, 4)], [(30853039726, 0), (36652975, 0), (26030, 0), (11, 0)]], 3, 4⟩,
    72057594037927936, 9056490635144, 3204899685659, ⟨[[(12269037960634, 0), (15210886235, 0), (35146105, 0), (88596,
    0), (131, 0)], [(0, 10191735148), (0, 81027212), (0, 474297), (0, 1878), (0, 2)], [(45178190, 0), (722758, 0),
    (6055, 0), (25, 0)], [(0, 329502), (0, 7062), (0, 64)]], 3, 4⟩, 17592186044416, 523770357,
    6030642258692800978314520671044093778039182145162339643571804296928825874739927427571833194276609741210497698640070100487376747,
    lc0⟩))) (.sy (.sx (.sx (.leaf ⟨515, 16, 1499, 398, 16, 3140, ⟨[[(0, 4240179048079360), (0, 22032117031351926),
    (3278560831939, 0), (758390309, 0), (360433, 0)], [(16385812647275582, 0), (0, 25436272909643), (0, 2556331495),
    (0, 2181553), (0, 667)], [(43263082473005, 0), (0, 10155996947), (0, 266841), (0, 925)], [(45495904935, 0),
    (10058157, 0), (10816, 0), (5, 0)]], 3, 4⟩, ⟨[[(20778048788324352, 0), (0, 17914465189989123), (284517911677, 0),
    (0, 394956906), (0, 82782)], [(0, 29638211947280613), (2874551443921, 0), (3497835071, 0), (1936708, 0), (636,
    0)], [(4356837035079, 0), (0, 9458637717), (0, 6952721), (0, 3492), (0, 1)], [(5787792676, 0), (6569282, 0),
    (4846, 0), (2, 0)]], 3, 4⟩, 72057594037927936, 569818081206, 202309805165, ⟨[[(12016203132684, 0), (9676378108,
    0), (13258577, 0), (19081, 0), (21, 0)], [(0, 7856869942), (0, 36223634), (0, 121179), (0, 320)], [(24039384, 0),
    (220462, 0), (1201, 0), (4, 0)], [(0, 121770), (0, 1684), (0, 11)]], 3, 4⟩, 17592186044416, 128854720,
    6991244095210608318263742527363244526415152755151716835258652293696872282715494450095697387948766140098571787773990257821620910,
    lc0⟩) (.leaf ⟨493, 16, 1417, 389, 16, 3159, ⟨[[(17964035198849024, 0), (0, 21507467294221676), (3031576061398,
    0), (658585671, 0), (322758, 0)], [(17881992642158935, 0), (0, 24560514295589), (0, 2406879933), (0, 2099491),
    (0, 651)], [(44572127637548, 0), (0, 8825163265), (589385, 0), (0, 458)], [(44499697071, 0), (8917878, 0), (9785,
    0), (5, 0)]], 3, 4⟩, ⟨[[(11632765207871488, 0), (0, 17949203134040218), (379396886406, 0), (0, 345499160), (0,
    66341)], [(0, 29557978854416379), (2374963889909, 0), (3139076162, 0), (1756659, 0), (571, 0)], [(4894405346679,
    0), (0, 8941779253), (0, 6568660), (0, 3333), (0, 1)], [(6333976618, 0), (7035393, 0), (5252, 0), (2, 0)]], 3,
    4⟩, 72057594037927936, 521718349690, 171089474526, ⟨[[(11860333951970, 0), (9116307701, 0), (11804131, 0),
    (15963, 0), (20, 0)], [(0, 7606747598), (0, 32836505), (0, 102153), (0, 269)], [(22162432, 0), (187904, 0), (995,
    0), (3, 0)], [(0, 105234), (0, 1401), (0, 9)]], 3, 4⟩, 17592186044416, 113100498,
    8969343243743836798705858440256248099403452375652292116530887019354243825309261213216686958587075965024197306491627858171156980,
    lc0⟩)) (.sx (.leaf ⟨473, 16, 1340, 380, 16, 3177, ⟨[[(35203564491419648, 0), (0, 20995434750105623),
    (2803746445248, 0), (566967463, 0), (287768, 0)], [(19370740143035072, 0), (0, 23673955195541), (0, 2223532733),
    (0, 1998935), (0, 629)], [(45742516537223, 0), (0, 7666975412), (1311644, 0), (0, 52)], [(43445792433, 0),
    (7696028, 0), (8680, 0), (4, 0)]], 3, 4⟩, ⟨[[(0, 8403017212190720), (0, 17991493083557593), (464892082314, 0),
    (0, 300578722), (0, 51558)], [(0, 29435418315565513), (1901795279695, 0), (2799677720, 0), (1584373, 0), (509,
    0)], [(5475892875728, 0), (0, 8385491941), (0, 6150309), (0, 3157), (0, 1)], [(6796542557, 0), (7358642, 0),
    (5552, 0), (2, 0)]], 3, 4⟩, 72057594037927936, 480448630480, 140490887949, ⟨[[(11709040367664, 0), (8597940341,
    0), (10536133, 0), (13200, 0), (17, 0)], [(0, 7377153543), (0, 29895166), (0, 85667), (0, 218)], [(20559756, 0),
    (159774, 0), (802, 0), (3, 0)], [(0, 90959), (0, 1136), (0, 8)]], 3, 4⟩, 17592186044416, 96946660,
    9252905433546513183678243318617325569565184933218774631326575501623787476334380530978105194550628192214863277700075456924867127,
    lc0⟩) (.leaf ⟨455, 16, 1267, 371, 16, 3195, ⟨[[(21199091511169024, 0), (0, 20483940867199629), (2593286786226,
    0), (483211389, 0), (255314, 0)], [(20835108289688032, 0), (0, 22773738105241), (0, 2014154375), (0, 1883121),
    (0, 602)], [(46754135597724, 0), (0, 6672720355), (1901895, 0), (293, 0)], [(42334383044, 0), (6427562, 0),
    (7526, 0), (4, 0)]], 3, 4⟩, ⟨[[(0, 29185978296094720), (0, 18046323925627284), (541635634980, 0), (0, 260103708),
    (0, 38389)], [(0, 29277441512076901), (1457867370034, 0), (2482453609, 0), (1421283, 0), (450, 0)],
    [(6096109793505, 0), (0, 7804383013), (0, 5708468), (0, 2969), (0, 1)], [(7179675666, 0), (7543770, 0), (5749,
    0), (2, 0)]], 3, 4⟩, 72057594037927936, 445417126924, 111045187366, ⟨[[(11558231345269, 0), (8101630998, 0),
    (9400569, 0), (10776, 0), (14, 0)], [(0, 7150258235), (0, 27243420), (0, 71402), (0, 169)], [(19119625, 0),
    (135452, 0), (624, 0), (2, 0)], [(0, 78660), (0, 894), (0, 6)]], 3, 4⟩, 17592186044416, 80089530,
    9444863083534619326447135783639565119484631000620165159874629614773115834271300484439569301214274772831860889190669171929346028,
    lc0⟩))) (.sx (.sy (.leaf ⟨599, 16, 1796, 359, 16, 2984, ⟨[[(23990688521011200, 0), (0, 13181267814064651),
    (1011772020799, 0), (121710745, 0), (28123, 0)], [(38605184327162967, 0), (0, 31195995167599), (0, 1772441888),
    (0, 709875), (0, 110)], [(213849433669363, 0), (0, 23304836777), (61501, 0), (0, 479)], [(449555231455, 0),
    (53045315, 0), (27702, 0), (7, 0)]], 3, 4⟩, ⟨[[(18899989678452736, 0), (0, 8477334368523938), (63190751414, 0),
    (0, 45761224), (0, 4063)], [(0, 55780231113184210), (2869777385342, 0), (1730300666, 0), (471324, 0), (74, 0)],
    [(15375734332574, 0), (0, 19011811798), (0, 7001971), (0, 1759)], [(49175688741, 0), (28176726, 0), (10335, 0),
    (2, 0)]], 3, 4⟩, 72057594037927936, 10337586105945, 2948816614849, ⟨[[(11938552167025, 0), (10191042906, 0),
    (15456300, 0), (26196, 0), (38, 0)], [(0, 6548112402), (0, 33402321), (0, 128918), (0, 405), (0, 1)], [(17474237,
    0), (183202, 0), (1159, 0), (4, 0)], [(0, 78537), (0, 1250), (0, 9)]], 3, 4⟩, 17592186044416, 70533553,
    8548995933946411465845932958203524210722538746650412499020547114592918290740901306478150696632205515253038761204345767694905474,
    lc0⟩) (.leaf ⟨607, 16, 1864, 351, 16, 2995, ⟨[[(22036669730586624, 0), (0, 13514161838934692), (1080719640598,
    0), (135629756, 0), (30503, 0)], [(37529888256270235, 0), (0, 32677772935256), (0, 2016213211), (0, 773535), (0,
    121)], [(220059728272986, 0), (0, 24186582423), (0, 57537), (0, 540)], [(471048721996, 0), (59668543, 0), (30427,
    0), (7, 0)]], 3, 4⟩, ⟨[[(27485141465657344, 0), (0, 8499536425801406), (52530525178, 0), (0, 47159434), (0,
    3796)], [(0, 55750394266344549), (3160055437623, 0), (1850128807, 0), (496699, 0), (77, 0)], [(13900419928651,
    0), (0, 20211056296), (0, 7452591), (0, 1867)], [(51627022112, 0), (29939747, 0), (10903, 0), (2, 0)]], 3, 4⟩,
    72057594037927936, 10562225001339, 3069530340772, ⟨[[(11936960673074, 0), (10348358617, 0), (16527724, 0),
    (30711, 0), (49, 0)], [(0, 6496859348), (0, 34997363), (0, 146580), (0, 494), (0, 1)], [(17876664, 0), (202402,
    0), (1365, 0), (5, 0)], [(0, 83845), (0, 1420), (0, 11)]], 3, 4⟩, 17592186044416, 76576759,
    7753111461685558330178595128179172479059714359895222154751631289319874364416392065318687163520059913726867466599256949551830456,
    lc0⟩)) (.sx (.leaf ⟨469, 16, 1394, 362, 16, 3191, ⟨[[(12754441616560128, 0), (0, 21375162620106476),
    (3066008594923, 0), (687471316, 0), (326845, 0)], [(18215284864454249, 0), (0, 25028062364373), (0, 2824539574),
    (0, 2295430), (0, 731)], [(46972016578872, 0), (0, 7764451667), (1344468, 0), (0, 118)], [(45878252745, 0),
    (9501689, 0), (10161, 0), (5, 0)]], 3, 4⟩, ⟨[[(2434899894452224, 0), (0, 18003537578999096), (394509688791, 0),
    (0, 316681209), (0, 42470)], [(0, 29398254279769842), (2378877285052, 0), (3203339482, 0), (1754471, 0), (534,
    0)], [(4803941559827, 0), (0, 9446215564), (0, 6962532), (0, 3547), (0, 1)], [(7438090263, 0), (8306281, 0),
    (6167, 0), (3, 0)]], 3, 4⟩, 72057594037927936, 477807440445, 148947074580, ⟨[[(11705409031014, 0), (8830496587,
    0), (11730320, 0), (17367, 0), (28, 0)], [(0, 7434424936), (0, 32770928), (0, 108984), (0, 329), (0, 1)],
    [(22123225, 0), (198056, 0), (1162, 0), (5, 0)], [(0, 108570), (0, 1580), (0, 12)]], 3, 4⟩, 17592186044416,
    131850955,
    10327302996991277068511014452994767522358146819123700343990364551195987032561851434248581140911354087286478653641285097134699040,
    lc0⟩) (.leaf ⟨450, 16, 1315, 353, 16, 3209, ⟨[[(0, 17266472218271744), (0, 20830423160575285), (2818849089692,
    0), (587898033, 0), (288885, 0)], [(19767123775106894, 0), (0, 23999520019377), (0, 2571474111), (0, 2160538),
    (0, 698)], [(47997365932604, 0), (0, 6612177301), (2042199, 0), (279, 0)], [(44508068410, 0), (7966793, 0),
    (8816, 0), (4, 0)]], 3, 4⟩, ⟨[[(0, 25732453431218176), (0, 18045371849966825), (481582472986, 0), (0, 271802412),
    (0, 28663)], [(0, 29275655130011831), (1880135919582, 0), (2844065175, 0), (1570996, 0), (467, 0)],
    [(5475074232261, 0), (0, 8789537690), (0, 6472138), (0, 3338), (0, 1)], [(7838473932, 0), (8524764, 0), (6390,
    0), (3, 0)]], 3, 4⟩, 72057594037927936, 437625029036, 115151387890, ⟨[[(11554150856818, 0), (8297829278, 0),
    (10329592, 0), (13765, 0), (22, 0)], [(0, 7188832820), (0, 29444007), (0, 88170), (0, 251), (0, 1)], [(20288483,
    0), (162996, 0), (887, 0), (4, 0)], [(0, 91107), (0, 1217), (0, 9)]], 3, 4⟩, 17592186044416, 108026693,
    9720553130089206626722046136907299762693326440247979801521784952621709412175741334476391515199533539598051266393813983041546499,
    lc0⟩))))
theorem c74 : checkR job con1 true ⟨7, 9, 7, 9, 13, 17⟩ 1 9016 t74 258 14 160 8117 39 8000 = true := by decide +kernel

def t75 : CTree :=
  .sy (.sx (.sy (.leaf ⟨331, 16, 814, 288, 16, 2339, ⟨[[(32055464460857344, 0), (0, 14268748844969103),
    (1512840443675, 0), (175760225, 0), (122992, 0)], [(36732688534176485, 0), (0, 29375319063200), (0, 1334390798),
    (0, 1926017), (0, 630)], [(136712148222024, 0), (0, 17387085423), (6227516, 0), (1892, 0)], [(223847932113, 0),
    (16454196, 0), (24496, 0), (15, 0)]], 3, 4⟩, ⟨[[(0, 27504996865654784), (0, 13332247902424309), (533354490461,
    0), (0, 137300486), (0, 25363)], [(0, 42186685355009298), (422936183459, 0), (2242221724, 0), (1409859, 0), (506,
    0)], [(23377679193471, 0), (0, 16046314360), (0, 11323147), (0, 6199), (0, 2)], [(38131368268, 0), (34378056, 0),
    (27784, 0), (12, 0)]], 3, 4⟩, 72057594037927936, 4977426969288, 908493620052, ⟨[[(11339999727646, 0),
    (9725122744, 0), (12863654, 0), (14518, 0), (13, 0)], [(0, 9103325358), (0, 39190416), (0, 105176), (0, 208)],
    [(28606559, 0), (209661, 0), (844, 0), (3, 0)], [(0, 129956), (0, 1314), (0, 8)]], 3, 4⟩, 17592186044416,
    196692437,
    6254636561110777965437136685349222097317325741501305212177590737769869677445942643627584806668379826632705090102096972967103039,
    lc0⟩) (.leaf ⟨328, 16, 845, 274, 16, 2348, ⟨[[(12080014823284736, 0), (0, 14563583903111073), (1617962136060, 0),
    (224249618, 0), (140319, 0)], [(35743663428243323, 0), (0, 30747892909218), (0, 1877745316), (0, 2213977), (0,
    724)], [(140551055865152, 0), (0, 17004727447), (6927883, 0), (1997, 0)], [(233867511316, 0), (21343814, 0),
    (29278, 0), (17, 0)]], 3, 4⟩, ⟨[[(20321624368594944, 0), (0, 13302586503514775), (502270610498, 0), (0,
    145173253), (0, 21367)], [(0, 42301510531732626), (802499941635, 0), (2600771656, 0), (1576359, 0), (524, 0)],
    [(22139010150176, 0), (0, 17999227380), (0, 12907952), (0, 6964), (0, 3)], [(41145451890, 0), (39088957, 0),
    (30861, 0), (13, 0)]], 3, 4⟩, 72057594037927936, 4930405115056, 885997690595, ⟨[[(11331036112025, 0),
    (9899352369, 0), (13758023, 0), (16973, 0), (20, 0)], [(0, 9047247571), (0, 40902776), (0, 118164), (0, 271), (0,
    1)], [(29301927, 0), (229971, 0), (1044, 0), (4, 0)], [(0, 138751), (0, 1565), (0, 11)]], 3, 4⟩, 17592186044416,
    229341673,
    7808124485437056492347615615158289394018707712720613578225332554612596363933111137867045446503923960160400614121440082079011271,
    lc0⟩)) (.sy (.leaf ⟨305, 16, 716, 276, 16, 2380, ⟨[[(33547789460201472, 0), (0, 13286088695744745),
    (1302567750098, 0), (108748050, 0), (92806, 0)], [(39517376388865499, 0), (0, 26667163958324), (0, 822067155),
    (0, 1571539), (0, 542)], [(137317653647334, 0), (0, 14403197003), (6974742, 0), (2676, 0)], [(209471410222, 0),
    (6620268, 0), (13899, 0), (11, 0)]], 3, 4⟩, ⟨[[(18053896435306496, 0), (0, 13565939471172578), (598170296205, 0),
    (0, 104217958), (0, 13086)], [(0, 41501091113874670), (0, 403136764408), (1702222529, 0), (1109826, 0), (397,
    0)], [(27134992180599, 0), (0, 13472240610), (0, 9183829), (0, 5296), (0, 2)], [(40718411370, 0), (32671093, 0),
    (27129, 0), (12, 0)]], 3, 4⟩, 72057594037927936, 4539348633605, 560770892115, ⟨[[(11053031304806, 0),
    (8632244643, 0), (10440245, 0), (10709, 0), (7, 0)], [(0, 8813089183), (0, 34357859), (0, 84277), (0, 136)],
    [(26930089, 0), (180159, 0), (617, 0), (2, 0)], [(0, 120015), (0, 1052), (0, 5)]], 3, 4⟩, 17592186044416,
    209675767,
    3609229868160315396305332202604258753987282313614644657562343315491506682382207125921193927260888278414826633920081630471586759,
    lc0⟩) (.leaf ⟨301, 16, 741, 262, 16, 2388, ⟨[[(26082109264248832, 0), (0, 13537451949191898), (1378004063729, 0),
    (143974450, 0), (105446, 0)], [(38738538120680146, 0), (0, 27761777269819), (0, 1252523247), (0, 1810438), (0,
    620)], [(140994831934006, 0), (0, 13728823174), (7879531, 0), (2885, 0)], [(217412606697, 0), (9301476, 0),
    (17060, 0), (12, 0)]], 3, 4⟩, ⟨[[(35672326967078912, 0), (0, 13519842645797537), (575282157665, 0), (0,
    108012423), (0, 8714)], [(0, 41661206593697143), (0, 116969863688), (1983101568, 0), (1238311, 0), (400, 0)],
    [(26113177720462, 0), (0, 15055802660), (0, 10531842), (0, 5956), (0, 2)], [(43583547972, 0), (37250317, 0),
    (30130, 0), (13, 0)]], 3, 4⟩, 72057594037927936, 4474790460472, 481216172133, ⟨[[(11049859125975, 0),
    (8786624605, 0), (11131837, 0), (12235, 0), (10, 0)], [(0, 8773885180), (0, 35795901), (0, 93169), (0, 166)],
    [(27607399, 0), (195219, 0), (723, 0), (2, 0)], [(0, 127440), (0, 1198), (0, 6)]], 3, 4⟩, 17592186044416,
    233816108,
    4709663073664846160185828636686166395597764411125238180206352779430761976594817442379399152116696157411913837457730538016502947,
    lc0⟩))) (.sx (.sy (.sx (.leaf ⟨439, 16, 1198, 361, 16, 3214, ⟨[[(0, 25392884056870912), (0, 19976154563769167),
    (2400295132924, 0), (407338214, 0), (225431, 0)], [(22271151164600923, 0), (0, 21873227314404), (0, 1787599324),
    (0, 1756446), (0, 571)], [(47619433461171, 0), (0, 5836941705), (2364758, 0), (580, 0)], [(41194778727, 0),
    (5151105, 0), (6352, 0), (3, 0)]], 3, 4⟩, ⟨[[(30518726386413568, 0), (0, 18118566791002023), (610404102811, 0),
    (0, 223904572), (0, 26763)], [(0, 29090924631026693), (1044774065332, 0), (2189313347, 0), (1268380, 0), (395,
    0)], [(6750794180013, 0), (0, 7212037340), (0, 5253210), (0, 2775), (0, 1)], [(7489425685, 0), (7598125, 0),
    (5848, 0), (3, 0)]], 3, 4⟩, 72057594037927936, 416784883957, 84393890548, ⟨[[(11399338894408, 0), (7605290308,
    0), (8355383, 0), (8702, 0), (10, 0)], [(0, 6896018462), (0, 24717209), (0, 59159), (0, 125)], [(17690444, 0),
    (114323, 0), (467, 0), (2, 0)], [(0, 67861), (0, 680), (0, 4)]], 3, 4⟩, 17592186044416, 65564349,
    8562800685043687066647442817501225725969699914454007183091488942838898502391850872175791319878581896790595787557146090380465547,
    lc0⟩) (.leaf ⟨424, 16, 1134, 352, 16, 3232, ⟨[[(0, 6617778606833664), (0, 19492942694021839), (2226569401649, 0),
    (339525107, 0), (198281, 0)], [(23698174491998629, 0), (0, 21003391173493), (0, 1553232937), (0, 1624371), (0,
    538)], [(48397029297253, 0), (0, 5155748539), (2709672, 0), (812, 0)], [(40090033001, 0), (3905033, 0), (5192,
    0), (3, 0)]], 3, 4⟩, ⟨[[(11273600657760256, 0), (0, 18196140891045576), (671454258831, 0), (0, 191576905), (0,
    16577)], [(0, 28855806224850551), (662392617568, 0), (1919573422, 0), (1125207, 0), (342, 0)], [(7429912541062,
    0), (0, 6614658379), (0, 4789266), (0, 2576), (0, 1)], [(7726241795, 0), (7524224, 0), (5851, 0), (3, 0)]], 3,
    4⟩, 72057594037927936, 394811557218, 62241355525, ⟨[[(11259026981597, 0), (7183413389, 0), (7529388, 0), (7233,
    0), (8, 0)], [(0, 6709809280), (0, 22823608), (0, 50807), (0, 94)], [(16722144, 0), (100581, 0), (363, 0), (1,
    0)], [(0, 61377), (0, 544), (0, 3)]], 3, 4⟩, 17592186044416, 55783769,
    6225474170639429205798234024494083543968743358058012268857977888878926285572804324811319888290477697122364585670575179395943507,
    lc0⟩)) (.sx (.leaf ⟨433, 16, 1242, 343, 16, 3228, ⟨[[(0, 32174786496704512), (0, 20313476571696269),
    (2596051677234, 0), (498422953, 0), (254363, 0)], [(21308187995288165, 0), (0, 23000083322001), (0, 2301775055),
    (0, 2016117), (0, 661)], [(48911592943766, 0), (0, 5657860318), (2592943, 0), (607, 0)], [(43166127522, 0),
    (6435153, 0), (7464, 0), (4, 0)]], 3, 4⟩, ⟨[[(25216581700018176, 0), (0, 18106003443968647), (559576662338, 0),
    (0, 231734256), (0, 16606)], [(0, 29121798607860864), (1416353408249, 0), (2511516392, 0), (1398869, 0), (404,
    0)], [(6181750249646, 0), (0, 8119369656), (0, 5966642), (0, 3121), (0, 1)], [(8154260904, 0), (8595674, 0),
    (6502, 0), (3, 0)]], 3, 4⟩, 72057594037927936, 405436982575, 84298574996, ⟨[[(11399301608009, 0), (7787110561,
    0), (9121016, 0), (10859, 0), (16, 0)], [(0, 6936143092), (0, 26532006), (0, 71406), (0, 183)], [(18667012, 0),
    (134580, 0), (654, 0), (3, 0)], [(0, 76935), (0, 911), (0, 7)]], 3, 4⟩, 17592186044416, 86001009,
    9912659487303082043695991403598363432337450587548392744011511242488097947093025993520114903423182649538078696903978518219084231,
    lc0⟩) (.leaf ⟨417, 16, 1172, 334, 16, 3246, ⟨[[(0, 35858665977933824), (0, 19780359101047949), (2390987088407,
    0), (417589997, 0), (222610, 0)], [(22788546711604882, 0), (0, 21989358180260), (0, 2019164761), (0, 1861996),
    (0, 620)], [(49620614723886, 0), (0, 4876149626), (3000242, 0), (869, 0)], [(41782374970, 0), (4930722, 0),
    (6117, 0), (3, 0)]], 3, 4⟩, ⟨[[(0, 3206850235645952), (0, 18173299032559281), (628851162467, 0), (0, 196038053),
    (0, 6193)], [(0, 28916631712434185), (987292216717, 0), (2204899325, 0), (1237591, 0), (345, 0)],
    [(6913390525211, 0), (0, 7442744916), (0, 5451317), (0, 2900), (0, 1)], [(8386135279, 0), (8521771, 0), (6506,
    0), (3, 0)]], 3, 4⟩, 72057594037927936, 380208107733, 58706636760, ⟨[[(11257897408939, 0), (7338039558, 0),
    (8143714, 0), (8734, 0), (12, 0)], [(0, 6743916384), (0, 24293972), (0, 59536), (0, 133)], [(17539054, 0),
    (115254, 0), (488, 0), (2, 0)], [(0, 67982), (0, 700), (0, 5)]], 3, 4⟩, 17592186044416, 70485850,
    8154148132158153726985949703765876406207820792894232796441150267701307516987846832663298516038986168542237446101996853731772690,
    lc0⟩))) (.sy (.leaf ⟨297, 16, 768, 249, 16, 2395, ⟨[[(19930604748660736, 0), (0, 13804982245946933),
    (1467241320995, 0), (184851743, 0), (119127, 0)], [(37896930526405947, 0), (0, 29011353412025), (0, 1761530470),
    (0, 2087697), (0, 714)], [(145073548892733, 0), (0, 12899685220), (8882044, 0), (3128, 0)], [(226199995260, 0),
    (12628917, 0), (20671, 0), (13, 0)]], 3, 4⟩, ⟨[[(0, 26314030010880000), (0, 13471457813139625), (551367772017,
    0), (0, 110172657), (0, 2815)], [(0, 41779774686779557), (216386718888, 0), (2294149129, 0), (1366664, 0), (397,
    0)], [(24944747402728, 0), (0, 16861037833), (0, 12043822), (0, 6700), (0, 2)], [(46815594098, 0), (42321828, 0),
    (33457, 0), (15, 0)]], 3, 4⟩, 72057594037927936, 4368297301772, 393556625600, ⟨[[(11056753709660, 0),
    (8983056423, 0), (11973131, 0), (14190, 0), (15, 0)], [(0, 8781149802), (0, 37683644), (0, 104809), (0, 212), (0,
    1)], [(28608890, 0), (215246, 0), (883, 0), (3, 0)], [(0, 137086), (0, 1409), (0, 9)]], 3, 4⟩, 17592186044416,
    270953120,
    5535541791663273854669424600576762658691492925565578943567218110890761775021716244795390477408982517581788673883098518795224829,
    lc0⟩) (.leaf ⟨293, 16, 797, 235, 16, 2404, ⟨[[(8939082857848832, 0), (0, 14084990679571454), (1572170843055, 0),
    (231997556, 0), (133840, 0)], [(36967423370647863, 0), (0, 30432997185520), (0, 2363042982), (0, 2410513), (0,
    826)], [(149565055241874, 0), (0, 11888661733), (9995590, 0), (3408, 0), (1, 0)], [(235900835691, 0), (16710509,
    0), (24807, 0), (15, 0)]], 3, 4⟩, ⟨[[(0, 1590092983267328), (0, 13437765072230367), (527546727316, 0), (0,
    110324478), (4802, 0)], [(0, 41905158620188507), (602221589554, 0), (2638188168, 0), (1494379, 0), (386, 0)],
    [(23641547102513, 0), (0, 18937888202), (0, 13756919), (0, 7546), (0, 3)], [(50516473109, 0), (47996371, 0),
    (37191, 0), (16, 0)]], 3, 4⟩, 72057594037927936, 4209871793143, 296910310359, ⟨[[(11052447882298, 0),
    (9155481943, 0), (12857808, 0), (16554, 0), (22, 0)], [(0, 8747668383), (0, 39532515), (0, 118415), (0, 278), (0,
    1)], [(29426154, 0), (236935, 0), (1100, 0), (5, 0)], [(0, 145679), (0, 1667), (0, 13)]], 3, 4⟩, 17592186044416,
    312376154,
    5665449393273015872958020545325368138896194672306987759153126389114028159322166022748641951814563289223475473254232960685592506,
    lc0⟩)))
theorem c75 : checkR job con1 true ⟨7, 9, 7, 9, 13, 17⟩ 1 9016 t75 558 14 320 4039 39 4000 = true := by decide +kernel

def t76 : CTree :=
  .sy (.sx (.sy (.leaf ⟨285, 16, 632, 265, 16, 2425, ⟨[[(0, 31786069203075072), (0, 12396345045652363),
    (1134490716942, 0), (59192968, 0), (68789, 0)], [(42112756857651977, 0), (0, 24242421924056), (0, 357792010), (0,
    1234869), (0, 458)], [(137222889036879, 0), (0, 12521709682), (6875298, 0), (3039, 0)], [(196537809509, 0), (0,
    1221857), (4775, 0), (7, 0)]], 3, 4⟩, ⟨[[(25652316564758528, 0), (0, 13843990847953905), (651302119645, 0), (0,
    78498791), (0, 3461)], [(0, 40638969004323835), (0, 1104103788549), (1273629598, 0), (856023, 0), (304, 0)],
    [(31180299071100, 0), (0, 11092982701), (0, 7134877), (0, 4433), (0, 2)], [(42482023444, 0), (29182181, 0),
    (25078, 0), (11, 0)]], 3, 4⟩, 72057594037927936, 4266696743961, 309227237617, ⟨[[(10777251936903, 0),
    (7642244101, 0), (8378633, 0), (7959, 0), (4, 0)], [(0, 8509005380), (0, 29755633), (0, 67273), (0, 94)],
    [(24989456, 0), (152880, 0), (479, 0), (1, 0)], [(0, 108382), (0, 879), (0, 3)]], 3, 4⟩, 17592186044416,
    236475052,
    3986371089216976813291444487911682861495918369828786830215793016313644925860224321474200579031494543678695595187813814077914704,
    lc0⟩) (.leaf ⟨280, 16, 652, 251, 16, 2431, ⟨[[(0, 12978621754175488), (0, 12604800685875282), (1187356137717, 0),
    (84280604, 0), (77828, 0)], [(41491823163526446, 0), (0, 25091339794904), (0, 685030324), (0, 1428713), (0,
    521)], [(140602441875612, 0), (0, 11753381247), (7843539, 0), (3285, 0), (1, 0)], [(202692324830, 0), (0,
    363934), (6585, 0), (7, 0)]], 3, 4⟩, ⟨[[(3199962390444032, 0), (0, 13777830497561782), (634422087380, 0), (0,
    79127351), (892, 0)], [(0, 40817665839206706), (0, 891421547651), (1488581913, 0), (951544, 0), (293, 0)],
    [(30344365158312, 0), (0, 12320568965), (0, 8255244), (0, 4992), (0, 2)], [(45027232854, 0), (33382048, 0),
    (27825, 0), (12, 0)]], 3, 4⟩, 72057594037927936, 4217724345574, 186150004276, ⟨[[(10781680145933, 0),
    (7789362494, 0), (8939310, 0), (9055, 0), (5, 0)], [(0, 8498856792), (0, 31062139), (0, 74387), (0, 111)],
    [(25725902, 0), (166207, 0), (549, 0), (1, 0)], [(0, 116301), (0, 991), (0, 4)]], 3, 4⟩, 17592186044416,
    267219544,
    6400095950358279932155071233509578631217169101194585239207546503725892421735861980978175197636375107726553457825643871873469832,
    lc0⟩)) (.sy (.leaf ⟨268, 16, 560, 255, 16, 2476, ⟨[[(1254394370719744, 0), (0, 11594315278066760),
    (1001199914258, 0), (24039715, 0), (49910, 0)], [(44542262003927616, 0), (0, 22109051289536), (28766059, 0), (0,
    931397), (0, 383)], [(136678570431948, 0), (0, 11425796072), (6163667, 0), (3087, 0)], [(185264641823, 0), (0,
    6585314), (0, 2486), (4, 0)]], 3, 4⟩, ⟨[[(12451381372270592, 0), (0, 14174961556507461), (696243463928, 0), (0,
    58990356), (3905, 0)], [(0, 39608404595720571), (0, 1695543108218), (950011742, 0), (645446, 0), (224, 0)],
    [(35499527477036, 0), (0, 9042238678), (0, 5279925), (0, 3660), (0, 1)], [(43781360576, 0), (24452033, 0),
    (22011, 0), (9, 0)]], 3, 4⟩, 72057594037927936, 4099029371623, 170763019195, ⟨[[(10528192855166, 0), (6802833489,
    0), (6752855, 0), (5986, 0), (2, 0)], [(0, 8299378894), (0, 26037073), (0, 53989), (0, 73)], [(23588635, 0),
    (130505, 0), (393, 0), (1, 0)], [(0, 98328), (0, 758), (0, 3)]], 3, 4⟩, 17592186044416, 289571684,
    3517493248047955165532004416978770318512002914471325573779950870055382226366501142960231817290097410377278848612048781162012726,
    lc0⟩) (.leaf ⟨262, 16, 575, 240, 16, 2482, ⟨[[(28591822876012544, 0), (0, 11743956355742595), (1035724909493, 0),
    (41444291, 0), (56148, 0)], [(43964371232769737, 0), (0, 22714868855261), (0, 209045056), (0, 1084856), (0,
    432)], [(139464545250796, 0), (0, 10685821308), (7087587, 0), (3319, 0), (1, 0)], [(189685855186, 0), (0,
    7094008), (0, 1705), (4, 0)]], 3, 4⟩, ⟨[[(33764213558632448, 0), (0, 14101504173530079), (684281515400, 0), (0,
    57319578), (7884, 0)], [(0, 39830849951791534), (0, 1538864936626), (1111661795, 0), (713755, 0), (202, 0)],
    [(34844553399511, 0), (0, 9959518579), (0, 6204495), (0, 4134), (0, 2)], [(45938200835, 0), (28132826, 0),
    (24406, 0), (11, 0)]], 3, 4⟩, 72057594037927936, 4082983947865, 183803027520, ⟨[[(10529062382106, 0),
    (6914344501, 0), (7157701, 0), (6793, 0), (3, 0)], [(0, 8287428360), (0, 27035373), (0, 59483), (0, 84)],
    [(24183663, 0), (141322, 0), (449, 0), (1, 0)], [(0, 105607), (0, 856), (0, 3)]], 3, 4⟩, 17592186044416,
    332717308,
    5892537766500641036038036369690172898099010916187450462902708754883094802092100607297101868032331565525867632284396613400017125,
    lc0⟩))) (.sx (.sy (.sx (.leaf ⟨388, 16, 963, 325, 16, 3291, ⟨[[(0, 17597230245842944), (0, 18081093444457803),
    (1798526885779, 0), (178688348, 0), (130881, 0)], [(27769852425383648, 0), (0, 18520391821460), (0, 855573003),
    (0, 1216359), (0, 432)], [(50035780136279, 0), (0, 3881275717), (3113446, 0), (1212, 0)], [(36917482050, 0),
    (600218, 0), (1973, 0), (2, 0)]], 3, 4⟩, ⟨[[(10023545395027968, 0), (0, 18514746719295846), (816963533488, 0),
    (0, 115829870), (6149, 0)], [(0, 27942551852145883), (0, 300395332730), (1258480334, 0), (758630, 0), (206, 0)],
    [(9586825729440, 0), (0, 4912547221), (0, 3435542), (0, 1996), (0, 1)], [(8093617910, 0), (6662662, 0), (5369,
    0), (2, 0)]], 3, 4⟩, 72057594037927936, 361204072541, 10828617299, ⟨[[(10846734008520, 0), (6026740914, 0),
    (5482299, 0), (4446, 0), (2, 0)], [(0, 6165034380), (0, 17890082), (0, 34190), (0, 42)], [(14037307, 0), (72314,
    0), (191, 0)], [(0, 47786), (0, 324), (0, 1)]], 3, 4⟩, 17592186044416, 43732068,
    6186201621968330359629978646407722781651523841734548041528435711044267664349074986232098468636372276636162040438149246705489646,
    lc0⟩) (.leaf ⟨378, 16, 912, 316, 16, 3312, ⟨[[(0, 2449239057149952), (0, 17617509462420375), (1682938651215, 0),
    (137902384, 0), (112638, 0)], [(29035770604289445, 0), (0, 17744736809951), (0, 641390329), (0, 1084333), (0,
    398)], [(50363263368098, 0), (0, 3663859944), (3071083, 0), (1262, 0)], [(35934836592, 0), (0, 279756), (1048,
    0), (1, 0)]], 3, 4⟩, ⟨[[(28400492500852736, 0), (0, 18645086244298007), (855045156247, 0), (0, 96715683), (11414,
    0)], [(0, 27561414704046597), (0, 563779197181), (1085354194, 0), (656411, 0), (167, 0)], [(10331758610502, 0),
    (0, 4401216642), (0, 3017005), (0, 1817), (0, 1)], [(8129023922, 0), (6205275, 0), (5075, 0), (2, 0)]], 3, 4⟩,
    72057594037927936, 357823450709, 21862207351, ⟨[[(10716142647322, 0), (5688417965, 0), (4929106, 0), (3875, 0),
    (2, 0)], [(0, 6010737039), (0, 16512058), (0, 30426), (0, 34)], [(13266813, 0), (65492, 0), (166, 0)], [(0,
    44273), (0, 290), (0, 1)]], 3, 4⟩, 17592186044416, 43356252,
    7072345254529302721312496753406659609238911056299625862108558776701645868591800154055166073783338490419400057531461853555979420,
    lc0⟩)) (.sx (.leaf ⟨379, 16, 990, 307, 16, 3306, ⟨[[(0, 24219247160926208), (0, 18295990035959309),
    (1896978905437, 0), (227327187, 0), (145059, 0)], [(27057391842895854, 0), (0, 19200557157771), (0, 1188995702),
    (0, 1396923), (0, 495)], [(51147497618464, 0), (0, 3467624563), (3500313, 0), (1315, 0)], [(38013815398, 0),
    (964151, 0), (2426, 0), (2, 0)]], 3, 4⟩, ⟨[[(0, 31948623895638016), (0, 18473215235811433), (793799372332, 0),
    (0, 112935264), (16124, 0)], [(0, 28085387741830555), (0, 90251935456), (1449902394, 0), (824082, 0), (190, 0)],
    [(9223619211061, 0), (0, 5511387256), (0, 3948871), (0, 2254), (0, 1)], [(8686521240, 0), (7578779, 0), (5972,
    0), (3, 0)]], 3, 4⟩, 72057594037927936, 346319406615, 24293772550, ⟨[[(10849707907552, 0), (6138898508, 0),
    (5863646, 0), (5079, 0), (3, 0)], [(0, 6200110177), (0, 18876286), (0, 38376), (0, 51)], [(14698002, 0), (80184,
    0), (229, 0), (1, 0)], [(0, 52066), (0, 377), (0, 2)]], 3, 4⟩, 17592186044416, 52710817,
    6687723087473534782926238032132429688221483127740631574595882819869399428418427254039402823256313523805660425449320811420832372,
    lc0⟩) (.leaf ⟨369, 16, 937, 298, 16, 3326, ⟨[[(0, 8592117479567360), (0, 17827900540433526), (1766556559439, 0),
    (179147929, 0), (124344, 0)], [(28405123442248037, 0), (0, 18355091636191), (0, 935141191), (0, 1248786), (0,
    456)], [(51470040595705, 0), (0, 3247976557), (3467044, 0), (1370, 0)], [(36904614522, 0), (0, 96616), (1373, 0),
    (1, 0)]], 3, 4⟩, ⟨[[(0, 33477638335094784), (0, 18591695890203960), (836459755300, 0), (0, 92125475), (20913,
    0)], [(0, 27715128851637239), (0, 383791520010), (1250055904, 0), (708139, 0), (145, 0)], [(10011360325732, 0),
    (0, 4927118968), (0, 3482999), (0, 2054), (0, 1)], [(8681531023, 0), (7068466, 0), (5643, 0), (2, 0)]], 3, 4⟩,
    72057594037927936, 345061493857, 38485458975, ⟨[[(10720472179565, 0), (5791147931, 0), (5261191, 0), (4406, 0),
    (2, 0)], [(0, 6038932812), (0, 17371071), (0, 33994), (0, 41)], [(13854296, 0), (72329, 0), (195, 0)], [(0,
    48217), (0, 333), (0, 1)]], 3, 4⟩, 17592186044416, 49768881,
    7983693342806357493957298954595093326425710102071016404027550143813028169981936178519032708419779909710844647755126797496256358,
    lc0⟩))) (.sy (.sx (.leaf ⟨370, 16, 865, 308, 16, 3334, ⟨[[(0, 20256309408440320), (0, 17183571358978074),
    (1581476039454, 0), (102960623, 0), (96422, 0)], [(30295320370899973, 0), (0, 17026091164536), (0, 443490543),
    (0, 958984), (0, 366)], [(50671206665391, 0), (0, 3529502264), (2963697, 0), (1280, 0)], [(35055307621, 0), (0,
    1020822), (220, 0), (1, 0)]], 3, 4⟩, ⟨[[(0, 12211217917849600), (0, 18788166463393116), (889045704047, 0), (0,
    80242715), (15666, 0)], [(0, 27142854395439529), (0, 801365577269), (934219271, 0), (563433, 0), (131, 0)],
    [(11086023957255, 0), (0, 3928833536), (0, 2623366), (0, 1650), (0, 1)], [(8137746131, 0), (5689362, 0), (4734,
    0), (2, 0)]], 3, 4⟩, 72057594037927936, 357648195850, 30191584442, ⟨[[(10590560199734, 0), (5371062356, 0),
    (4420484, 0), (3376, 0), (1, 0)], [(0, 5861695937), (0, 15205384), (0, 26923), (0, 30)], [(12505537, 0), (58823,
    0), (147, 0)], [(0, 40567), (0, 259), (0, 1)]], 3, 4⟩, 17592186044416, 42960066,
    7098008427990839916946060309001571300223780055867795767105429898298822159268084906706132666490408321608277809255126102090265734,
    lc0⟩) (.leaf ⟨363, 16, 821, 299, 16, 3357, ⟨[[(0, 27443837785583616), (0, 16764625732382684), (1491450914591, 0),
    (73206088, 0), (81956, 0)], [(31526547071955689, 0), (0, 16350422671580), (0, 263478901), (0, 840507), (0, 336)],
    [(50929306063719, 0), (0, 3459002306), (2800402, 0), (1271, 0)], [(34252289696, 0), (0, 1612748), (0, 502), (1,
    0)]], 3, 4⟩, ⟨[[(33017137642254336, 0), (0, 18943350847203440), (919549012742, 0), (0, 66169192), (18980, 0)],
    [(0, 26685777893971264), (0, 1015415019061), (803637237, 0), (479019, 0), (98, 0)], [(11848201643454, 0), (0,
    3499598754), (0, 2258090), (0, 1495), (0, 1)], [(8130194432, 0), (5132307, 0), (4357, 0), (2, 0)]], 3, 4⟩,
    72057594037927936, 359596988801, 34558622935, ⟨[[(10462573170778, 0), (5065753732, 0), (3952004, 0), (2932, 0),
    (1, 0)], [(0, 5708083753), (0, 13959616), (0, 23631), (0, 26)], [(11750731, 0), (52296, 0), (129, 0)], [(0,
    36703), (0, 230), (0, 1)]], 3, 4⟩, 17592186044416, 42420246,
    6631259312193532611385143251685354311719827482332310048790083110050968222409167164785166435112325769730447837674231351495344402,
    lc0⟩)) (.sx (.leaf ⟨361, 16, 888, 289, 16, 3348, ⟨[[(0, 29388811024936960), (0, 17385084879937047),
    (1651960370744, 0), (137684863, 0), (105937, 0)], [(29734262322850405, 0), (0, 17568533220735), (0, 699861946),
    (0, 1108156), (0, 418)], [(51755054750884, 0), (0, 3124303920), (3358396, 0), (1387, 0)], [(35907461807, 0), (0,
    996740), (432, 0), (1, 0)]], 3, 4⟩, ⟨[[(0, 16209829080072192), (0, 18729224416661681), (874599380707, 0), (0,
    74343375), (24540, 0)], [(0, 27313619738780599), (0, 647815913481), (1075026595, 0), (602719, 0), (104, 0)],
    [(10808002316594, 0), (0, 4387773519), (0, 3046179), (0, 1868), (0, 1)], [(8647477278, 0), (6493777, 0), (5262,
    0), (2, 0)]], 3, 4⟩, 72057594037927936, 347520040309, 48226548496, ⟨[[(10589985766703, 0), (5452747621, 0),
    (4691104, 0), (3826, 0), (1, 0)], [(0, 5866284276), (0, 15872313), (0, 29866), (0, 34)], [(12944976, 0), (64373,
    0), (169, 0)], [(0, 43854), (0, 294), (0, 1)]], 3, 4⟩, 17592186044416, 48797290,
    8286630158517641552861086050071337869512924861989473415823549007771062938995621235497757348444056241873643314715594730371307609,
    lc0⟩) (.leaf ⟨353, 16, 841, 280, 16, 3371, ⟨[[(0, 502046980833280), (0, 16933155997026265), (1548464754243, 0),
    (102058527, 0), (89425, 0)], [(30986086255246034, 0), (0, 16807216622616), (0, 484373028), (0, 974164), (0,
    383)], [(51911674976996, 0), (0, 3071587297), (3181297, 0), (1372, 0)], [(34954962757, 0), (0, 1722379), (0,
    387), (1, 0)]], 3, 4⟩, ⟨[[(13944736309669888, 0), (0, 18879477114398159), (908624432544, 0), (0, 59286837),
    (27085, 0)], [(0, 26871459277198176), (0, 884807808233), (922761190, 0), (506810, 0), (66, 0)], [(11608975950804,
    0), (0, 3896474492), (0, 2641107), (0, 1696), (0, 1)], [(8593628120, 0), (5871909, 0), (4840, 0), (2, 0)]], 3,
    4⟩, 72057594037927936, 352165597252, 53391385529, ⟨[[(10465862923886, 0), (5145683401, 0), (4192660, 0), (3340,
    0), (1, 0)], [(0, 5728014879), (0, 14591421), (0, 26320), (0, 30)], [(12208965, 0), (57544, 0), (150, 0)], [(0,
    40098), (0, 264), (0, 1)]], 3, 4⟩, 17592186044416, 49340045,
    8235984622018300218150989664356982663234670642341319816039603667469624414374591233836301579997127279900256679073857584262443538,
    lc0⟩))))
theorem c76 : checkR job con1 true ⟨7, 9, 7, 9, 13, 17⟩ 1 9016 t76 586 14 320 4039 39 4000 = true := by decide +kernel

def t77 : CTree :=
  .sy (.sx (.sy (.leaf ⟨255, 16, 497, 246, 16, 2536, ⟨[[(0, 29031272621596672), (0, 10847464734045755),
    (893488748214, 0), (395572, 0), (35088, 0)], [(46719175929209655, 0), (0, 20206411831496), (322236181, 0), (0,
    667411), (0, 318)], [(135560378540751, 0), (0, 10786707092), (5049651, 0), (2919, 0)], [(175226860822, 0), (0,
    9223703), (0, 7680), (1, 0)]], 3, 4⟩, ⟨[[(119899002820608, 0), (0, 14573827299291266), (736592874312, 0), (0,
    44645330), (9369, 0)], [(0, 38426445268653170), (0, 2200986207408), (719997628, 0), (472545, 0), (156, 0)],
    [(40134813089340, 0), (0, 7405879862), (0, 3687523), (0, 3011), (0, 1)], [(45035376626, 0), (19120936, 0),
    (18381, 0), (8, 0)]], 3, 4⟩, 72057594037927936, 3963947996240, 164556560977, ⟨[[(10283234058962, 0), (6027500937,
    0), (5366453, 0), (4339, 0), (2, 0)], [(0, 8080888714), (0, 22594122), (0, 41839), (0, 55)], [(22225042, 0),
    (108230, 0), (307, 0)], [(0, 86735), (0, 613), (0, 2)]], 3, 4⟩, 17592186044416, 341207236,
    1983896955633142581569424696799727488853243167954008333131528538338270435412740427727184576584626167702377076345727090465133666,
    lc0⟩) (.leaf ⟨249, 16, 509, 231, 16, 2541, ⟨[[(0, 14694754822762496), (0, 10966548410287536), (916511215843, 0),
    (12159551, 0), (39347, 0)], [(46234720633652489, 0), (0, 20655919088916), (157805405, 0), (0, 789998), (0, 357)],
    [(138004685170861, 0), (0, 10185085332), (5885427, 0), (3115, 0)], [(178673587358, 0), (0, 10651819), (0, 7597),
    (1, 0)]], 3, 4⟩, ⟨[[(0, 18597248706816000), (0, 14488223355087595), (727957651217, 0), (0, 41314628), (12657,
    0)], [(0, 38669603220729911), (0, 2083859585510), (837557654, 0), (517449, 0), (123, 0)], [(39611189376598, 0),
    (0, 8054279950), (0, 4446301), (0, 3414), (0, 1)], [(46734406509, 0), (22179689, 0), (20347, 0), (9, 0)]], 3, 4⟩,
    72057594037927936, 4003290041669, 198107393978, ⟨[[(10286285921890, 0), (6120908119, 0), (5656048, 0), (4908, 0),
    (2, 0)], [(0, 8071871953), (0, 23338537), (0, 45742), (0, 64)], [(22646795, 0), (115965, 0), (351, 0), (1, 0)],
    [(0, 92364), (0, 691), (0, 3)]], 3, 4⟩, 17592186044416, 401078757,
    3784470673614544923932622528753375326340792137401416374593972504109593001907795776118969943109702927648659239260499949897085336,
    lc0⟩)) (.sy (.leaf ⟨244, 16, 442, 238, 16, 2604, ⟨[[(0, 5232530486501376), (0, 10157919257037163), (805983230020,
    0), (0, 14216369), (23517, 0)], [(48674935044298542, 0), (0, 18527999361239), (518681800, 0), (0, 446716), (0,
    267)], [(134084730699727, 0), (0, 10338604504), (3743247, 0), (2631, 0)], [(166363367530, 0), (0, 9150679), (0,
    10780)]], 3, 4⟩, ⟨[[(0, 19573415544881152), (0, 15033451912556807), (774466402341, 0), (0, 34515125), (13212,
    0)], [(0, 37040012025879639), (0, 2644333893570), (568284858, 0), (329411, 0), (98, 0)], [(45108067896071, 0),
    (0, 6202731242), (0, 2380682), (0, 2499), (0, 1)], [(46600521306, 0), (13853092, 0), (14648, 0), (6, 0)]], 3, 4⟩,
    72057594037927936, 3826824399472, 285293578494, ⟨[[(10055477966432, 0), (5352748689, 0), (4280724, 0), (3085, 0),
    (1, 0)], [(0, 7919371825), (0, 19832162), (0, 32346), (0, 41)], [(21395338, 0), (91154, 0), (233, 0)], [(0,
    78536), (0, 487), (0, 2)]], 3, 4⟩, 17592186044416, 415591512,
    1561310956478706114147567880847850510036089342244216571018139683759648848457669218594604710646298032542093803313938346814278122,
    lc0⟩) (.leaf ⟨238, 16, 452, 222, 16, 2609, ⟨[[(19543764536281088, 0), (0, 10259376946602480), (821723469719, 0),
    (0, 6664909), (26337, 0)], [(48301297500050039, 0), (0, 18873306653410), (413274969, 0), (0, 545693), (0, 298)],
    [(136318241958543, 0), (0, 9925731195), (4467582, 0), (2779, 0)], [(169330152562, 0), (0, 11082609), (0, 11103),
    (0, 1)]], 3, 4⟩, ⟨[[(0, 3915755761610752), (0, 14941874286344990), (768370877291, 0), (0, 30108831), (15512, 0)],
    [(0, 37314163441410011), (0, 2554397465906), (649695869, 0), (354220, 0), (55, 0)], [(44694199485320, 0), (0,
    6634471210), (0, 3010620), (0, 2849), (0, 1)], [(47864886448, 0), (16284751, 0), (16183, 0), (7, 0)]], 3, 4⟩,
    72057594037927936, 3915349467573, 145629198647, ⟨[[(10056980188289, 0), (5427291910, 0), (4485555, 0), (3465, 0),
    (2, 0)], [(0, 7902107985), (0, 20371454), (0, 34931), (0, 48)], [(21640970, 0), (96169, 0), (263, 0)], [(0,
    82343), (0, 540), (0, 2)]], 3, 4⟩, 17592186044416, 485458623,
    1615447231715769270236653820006544561383414584046756158837315357370075780748892141697246299816762808696258551517920515718387784,
    lc0⟩))) (.sx (.sy (.sx (.leaf ⟨356, 16, 779, 291, 16, 3381, ⟨[[(16440544923820032, 0), (0, 16343996893580698),
    (1410221740686, 0), (48085717, 0), (69001, 0)], [(32697083645314738, 0), (0, 15701801463085), (0, 102828915), (0,
    729001), (0, 307)], [(51095127124462, 0), (0, 3433017611), (2590063, 0), (1238, 0)], [(33492282737, 0), (0,
    2046334), (0, 1113)]], 3, 4⟩, ⟨[[(20736954428596224, 0), (0, 19110069504045223), (947096790432, 0), (0,
    54274020), (21425, 0)], [(0, 26189114709706117), (0, 1208377679538), (692011251, 0), (402410, 0), (67, 0)],
    [(12617742565975, 0), (0, 3116276730), (0, 1923635), (0, 1355), (0, 1)], [(8116993866, 0), (4552376, 0), (3957,
    0), (2, 0)]], 3, 4⟩, 72057594037927936, 362235810773, 35207634676, ⟨[[(10345672669722, 0), (4795304551, 0),
    (3551952, 0), (2548, 0), (1, 0)], [(0, 5596669076), (0, 12943548), (0, 20835), (0, 23)], [(11201957, 0), (46956,
    0), (115, 0)], [(0, 33662), (0, 204), (0, 1)]], 3, 4⟩, 17592186044416, 42415645,
    5497276121683625868781151801251459771443378258717320445130641480715556715453782357899560667888181835975044492434109565643552002,
    lc0⟩) (.leaf ⟨351, 16, 740, 283, 16, 3407, ⟨[[(74331655385088, 0), (0, 15945989393784228), (1338787696035, 0),
    (27214627, 0), (57509, 0)], [(33853814718536329, 0), (0, 15103219456906), (37171091, 0), (0, 626213), (0, 282)],
    [(51251437240908, 0), (0, 3441128292), (2348023, 0), (1189, 0)], [(32822932777, 0), (0, 2320572), (0, 1609)]], 3,
    4⟩, ⟨[[(29820892671426560, 0), (0, 19293485981838001), (972470720633, 0), (0, 44371438), (23070, 0)], [(0,
    25659299776091607), (0, 1383220984583), (597816240, 0), (332897, 0), (39, 0)], [(13398913350127, 0), (0,
    2780943560), (0, 1621878), (0, 1230)], [(8111092170, 0), (3969526, 0), (3549, 0), (2, 0)]], 3, 4⟩,
    72057594037927936, 365256036080, 32508880985, ⟨[[(10225399125419, 0), (4527686252, 0), (3173049, 0), (2175, 0),
    (1, 0)], [(0, 5467352618), (0, 11929257), (0, 18052), (0, 20)], [(10610277, 0), (41477, 0), (99, 0)], [(0,
    30331), (0, 176), (0, 1)]], 3, 4⟩, 17592186044416, 41469118,
    4091016285041897112307389163572668956821407363070720122694655932880091696187188349126189033313485616594811087531395531110758341,
    lc0⟩)) (.sx (.leaf ⟨347, 16, 798, 272, 16, 3395, ⟨[[(0, 6079440908226560), (0, 16516235292171855),
    (1458777909805, 0), (71989062, 0), (74863, 0)], [(32238954092041431, 0), (0, 16115448973323), (0, 291996080), (0,
    850438), (0, 350)], [(52083794831539, 0), (0, 3079311817), (2957512, 0), (1334, 0)], [(34138853434, 0), (0,
    2269201), (0, 1079)]], 3, 4⟩, ⟨[[(0, 14252366274097152), (0, 19041792021893977), (939133717466, 0), (0,
    46711111), (28623, 0)], [(0, 26387780365275771), (0, 1097493773484), (791466943, 0), (419564, 0), (30, 0)],
    [(12413495806163, 0), (0, 3456402340), (0, 2270539), (0, 1540), (0, 1)], [(8532166955, 0), (5223339, 0), (4394,
    0), (2, 0)]], 3, 4⟩, 72057594037927936, 358682966063, 54276571586, ⟨[[(10346090059342, 0), (4858430577, 0),
    (3739545, 0), (2885, 0), (1, 0)], [(0, 5592848742), (0, 13397671), (0, 22919), (0, 27)], [(11499452, 0), (50841,
    0), (132, 0)], [(0, 36190), (0, 232), (0, 1)]], 3, 4⟩, 17592186044416, 48837943,
    7219951531863408610009706996252219389994459890763936865045745307481858608206236655696846851690541815037624948060682987427148839,
    lc0⟩) (.leaf ⟨342, 16, 757, 264, 16, 3421, ⟨[[(0, 34381175296942080), (0, 16098045971650859), (1378245951922, 0),
    (46697442, 0), (61873, 0)], [(33426339475382935, 0), (0, 15456507890658), (0, 122784496), (0, 735518), (0, 321)],
    [(52169458407277, 0), (0, 3122929595), (2693308, 0), (1275, 0)], [(33381821123, 0), (0, 2629816), (0, 1638)]], 3,
    4⟩, ⟨[[(0, 22321719380672512), (0, 19221204197628265), (966957460148, 0), (0, 36407139), (29230, 0)], [(0,
    25869261379996928), (0, 1289105979713), (679433131, 0), (340177, 0), (0, 2)], [(13225653825092, 0), (0,
    3069948657), (0, 1936616), (0, 1401), (0, 1)], [(8477739271, 0), (4570467, 0), (3938, 0), (2, 0)]], 3, 4⟩,
    72057594037927936, 365338959731, 51344213106, ⟨[[(10225928163890, 0), (4582588478, 0), (3325141, 0), (2456, 0),
    (1, 0)], [(0, 5461439752), (0, 12295317), (0, 19716), (0, 24)], [(10845418, 0), (44538, 0), (114, 0)], [(0,
    32423), (0, 199), (0, 1)]], 3, 4⟩, 17592186044416, 47840493,
    5708642835131329037762669168270940606094761680491235871689657711569070022055833998095163086278075878587918638275907695913412866,
    lc0⟩))) (.sy (.leaf ⟨233, 16, 463, 206, 16, 2614, ⟨[[(0, 16919762109366272), (0, 10377816013857726),
    (841131951786, 0), (1883462, 0), (28752, 0)], [(47971126543841801, 0), (0, 19277368209678), (281037956, 0), (0,
    658831), (0, 336)], [(138871878439352, 0), (0, 9400789799), (5254750, 0), (2954, 0)], [(172496052376, 0), (0,
    13138286), (0, 11538), (0, 1)]], 3, 4⟩, ⟨[[(16625436450359296, 0), (0, 14850933822449241), (763383881699, 0), (0,
    24899843), (18298, 0)], [(0, 37581168349800517), (0, 2451188422981), (735359305, 0), (363708, 0), (0, 1)],
    [(44241621799671, 0), (0, 7172156190), (0, 3729378), (0, 3249), (0, 1)], [(49331201509, 0), (18973143, 0),
    (17881, 0), (7, 0)]], 3, 4⟩, 72057594037927936, 4001049334608, 260718836998, ⟨[[(10051353210105, 0), (5485785906,
    0), (4672775, 0), (3868, 0), (2, 0)], [(0, 7837244813), (0, 20745496), (0, 37317), (0, 56)], [(21665372, 0),
    (100152, 0), (294, 0), (1, 0)], [(0, 85014), (0, 587), (0, 2)]], 3, 4⟩, 17592186044416, 554308701,
    2968682190932234815447381950266102077987418721791057700188893866791034319077160315107733213401661680718624631568157472334285552,
    lc0⟩) (.sx (.leaf ⟨337, 16, 718, 256, 16, 3449, ⟨[[(0, 14731357987880960), (0, 15681552847246293),
    (1305944779384, 0), (25705466, 0), (50311, 0)], [(34550474998965056, 0), (0, 14832215664496), (22527126, 0), (0,
    630028), (0, 294)], [(52183733542296, 0), (0, 3185665198), (2402090, 0), (1202, 0)], [(32684400555, 0), (0,
    2804486), (0, 2063)]], 3, 4⟩, ⟨[[(0, 9970707587450880), (0, 19417244318776599), (992605322805, 0), (0, 28173898),
    (28962, 0)], [(0, 25314279693519648), (0, 1462678637855), (584610618, 0), (267652, 0), (0, 33)],
    [(14047298973904, 0), (0, 2736567433), (0, 1639430), (0, 1280), (0, 1)], [(8442049232, 0), (3933883, 0), (3486,
    0), (1, 0)]], 3, 4⟩, 72057594037927936, 371128363019, 44063242378, ⟨[[(10110810717152, 0), (4329547373, 0),
    (2967991, 0), (2076, 0), (1, 0)], [(0, 5353523684), (0, 11368724), (0, 16980), (0, 21)], [(10341871, 0), (39354,
    0), (97, 0)], [(0, 29403), (0, 169), (0, 1)]], 3, 4⟩, 17592186044416, 47409181,
    4121879567169300881253444621745836238050674854388112769848169391246767777913333372411823528042963893362515836977816057797399100,
    lc0⟩) (.leaf ⟨333, 16, 682, 248, 16, 3478, ⟨[[(15140862127198208, 0), (0, 15292202084982131), (1242808234984, 0),
    (8551049, 0), (40093, 0)], [(35667731383990309, 0), (0, 14264398201742), (144228899, 0), (0, 535002), (0, 271)],
    [(52218510031622, 0), (0, 3256692207), (2099560, 0), (1122, 0)], [(32091286612, 0), (0, 2802778), (0, 2361)]], 3,
    4⟩, ⟨[[(18043242276677632, 0), (0, 19623888414256463), (1016236581565, 0), (0, 21833943), (27857, 0)], [(0,
    24713910722198464), (0, 1620691090564), (504846461, 0), (200953, 0), (0, 62)], [(14876951709744, 0), (0,
    2453372876), (0, 1377536), (0, 1175)], [(8433637232, 0), (3332860, 0), (3053, 0), (1, 0)]], 3, 4⟩,
    72057594037927936, 375783731941, 32810999208, ⟨[[(9998131700748, 0), (4092724746, 0), (2654874, 0), (1738, 0),
    (1, 0)], [(0, 5247951901), (0, 10541427), (0, 14591), (0, 18)], [(9894747, 0), (34888, 0), (81, 0)], [(0, 26767),
    (0, 142)]], 3, 4⟩, 17592186044416, 46416642,
    2779552607276154674998951923980051232038847943846590159629365936759968611830731431238931823579571337766574738306544259675180916,
    lc0⟩))))
theorem c77 : checkR job con1 true ⟨7, 9, 7, 9, 13, 17⟩ 1 9016 t77 614 14 320 4039 39 4000 = true := by decide +kernel

def t78 : CTree :=
  .sx (.sy (.sx (.leaf ⟨232, 16, 405, 171, 16, 2037, ⟨[[(4386802377764864, 0), (0, 19219927946449539),
    (2990633369785, 0), (0, 143335782), (278026, 0)], [(24644188642808640, 0), (0, 17339980988109), (1134066545, 0),
    (0, 1384343), (0, 1965)], [(33080193955442, 0), (0, 4877523682), (3023121, 0), (4822, 0), (1, 0)], [(19982858536,
    0), (0, 2095264), (0, 5950), (0, 1)]], 3, 4⟩, ⟨[[(26282484577579008, 0), (0, 23515395328043806), (2447732140722,
    0), (0, 164492664), (193430, 0)], [(0, 13765979475584683), (0, 2228828758078), (804117540, 0), (748053, 0), (213,
    0)], [(9356776167724, 0), (0, 2183035743), (0, 1415881), (0, 3606), (0, 3)], [(4652390389, 0), (2168749, 0),
    (4848, 0), (4, 0)]], 3, 4⟩, 72057594037927936, 248703162063, 30910717877, ⟨[[(9885436998299, 0), (6424370383, 0),
    (6283487, 0), (5514, 0), (4, 0)], [(0, 7858578749), (0, 24002133), (0, 47284), (0, 75)], [(21362446, 0), (109712,
    0), (337, 0), (1, 0)], [(0, 77295), (0, 567), (0, 3)]], 3, 4⟩, 17592186044416, 565636128,
    2258006848589598314977669507876823564527017200140540369042077808548160134943210476475868015337958757566093574436596364585643456,
    lc0⟩) (.leaf ⟨232, 16, 389, 167, 16, 2046, ⟨[[(31886199851352064, 0), (0, 18930676130374377), (2905132705842, 0),
    (0, 171290742), (214713, 0)], [(25495543569774313, 0), (0, 16921799160142), (1238063204, 0), (0, 1072298), (0,
    1852)], [(33412600847580, 0), (0, 4840972847), (2404697, 0), (4558, 0), (1, 0)], [(19839553428, 0), (0, 1675795),
    (0, 6135), (0, 1)]], 3, 4⟩, ⟨[[(0, 10609354843944960), (0, 23683649150514061), (2480149720751, 0), (0,
    146937224), (197894, 0)], [(0, 13289481858423959), (0, 2356691533550), (738937067, 0), (557384, 0), (46, 0)],
    [(9792527890890, 0), (0, 2028090257), (0, 1042054), (0, 3314), (0, 3)], [(4720746714, 0), (1754121, 0), (4196,
    0), (3, 0)]], 3, 4⟩, 72057594037927936, 244192614501, 31921723204, ⟨[[(9783081301228, 0), (6122632935, 0),
    (5741378, 0), (4738, 0), (3, 0)], [(0, 7670398827), (0, 22455084), (0, 41922), (0, 63)], [(20465699, 0), (99984,
    0), (284, 0), (1, 0)], [(0, 71580), (0, 489), (0, 2)]], 3, 4⟩, 17592186044416, 550264734,
    3725590701926851747588428852161093570270568557551474138097326310378343321806950264674767506935542539158770281362782764720228031,
    lc0⟩)) (.sy (.leaf ⟨225, 16, 411, 198, 16, 2692, ⟨[[(0, 31793086333564928), (0, 9698216931402261), (757063106517,
    0), (0, 12670414), (17401, 0)], [(49855184075154011, 0), (0, 17607060525155), (484103548, 0), (0, 440598), (0,
    283)], [(136580329716439, 0), (0, 9313848947), (3676297, 0), (2518, 0)], [(163849400975, 0), (0, 10874693), (0,
    13004), (0, 2)]], 3, 4⟩, ⟨[[(0, 10324401188513792), (0, 15370155731086825), (804732969303, 0), (0, 17621201),
    (17775, 0)], [(0, 36031790557529687), (0, 2897220399023), (581659377, 0), (203584, 0), (0, 74)],
    [(49822798332750, 0), (0, 6019060758), (0, 2498210), (0, 2791), (0, 1)], [(50790509108, 0), (13285583, 0),
    (13714, 0), (6, 0)]], 3, 4⟩, 72057594037927936, 3950068213245, 262801295934, ⟨[[(9830071079992, 0), (4845476360,
    0), (3673373, 0), (2592, 0), (2, 0)], [(0, 7674079864), (0, 18077824), (0, 27847), (0, 37)], [(20807104, 0),
    (82954, 0), (204, 0)], [(0, 76374), (0, 437), (0, 2)]], 3, 4⟩, 17592186044416, 664382443,
    2862601188862638125247234633945576764742997658154481486878465807576057863266059532007336797277657137118528848285104908658034856,
    lc0⟩) (.sx (.leaf ⟨330, 16, 648, 241, 16, 3509, ⟨[[(22799742977658880, 0), (0, 14911810316547236),
    (1186200127661, 0), (0, 5279550), (30997, 0)], [(36740563766107566, 0), (0, 13732824300856), (243229084, 0), (0,
    449381), (0, 250)], [(52220669519268, 0), (0, 3317875616), (1793540, 0), (1038, 0)], [(31553617681, 0), (0,
    2630818), (0, 2535)]], 3, 4⟩, ⟨[[(0, 4315282675320832), (0, 19846453309424702), (1038531756125, 0), (0,
    17253880), (25961, 0)], [(0, 24073684668877490), (0, 1766306166523), (438418318, 0), (139234, 0), (0, 90)],
    [(15722161028902, 0), (0, 2217436157), (0, 1149314), (0, 1086)], [(8464729830, 0), (2787960, 0), (2653, 0), (1,
    0)]], 3, 4⟩, 72057594037927936, 381827967318, 18148501296, ⟨[[(9889118037395, 0), (3869529364, 0), (2377893, 0),
    (1439, 0), (1, 0)], [(0, 5150019573), (0, 9803285), (0, 12546), (0, 15)], [(9511797, 0), (31167, 0), (66, 0)],
    [(0, 24576), (0, 119)]], 3, 4⟩, 17592186044416, 45289799,
    1944797078139580135502767225140943550165997935633106142625876576562506036989614195902265847084687753254122153332751850367954160,
    lc0⟩) (.leaf ⟨328, 16, 616, 234, 16, 3542, ⟨[[(9034593953538048, 0), (0, 14543481959237299), (1135379061539, 0),
    (0, 16214434), (22890, 0)], [(37777536054693970, 0), (0, 13237046129244), (320864040, 0), (0, 372792), (0, 232)],
    [(52205989660840, 0), (0, 3356980988), (1494087, 0), (955, 0)], [(31064056668, 0), (0, 2302611), (0, 2595)]], 3,
    4⟩, ⟨[[(0, 4409963907635200), (0, 20084714671625246), (1059836744320, 0), (0, 14316869), (23300, 0)], [(0,
    23391275465611557), (0, 1902050014952), (383564100, 0), (81626, 0), (0, 116)], [(16587377229999, 0), (0,
    2023420988), (0, 951538), (0, 1011)], [(8543349949, 0), (2316745, 0), (2298, 0), (1, 0)]], 3, 4⟩,
    72057594037927936, 383650158302, 16414792583, ⟨[[(9779692900792, 0), (3654265511, 0), (2129039, 0), (1179, 0),
    (1, 0)], [(0, 5047658223), (0, 9113279), (0, 10797), (0, 12)], [(9146785, 0), (27998, 0), (54, 0)], [(0, 22670),
    (0, 99)]], 3, 4⟩, 17592186044416, 44083550,
    2248382551802653080816236579228900287786960372225840670687838049332663319513061133824819601192472349866086751305364843909386761,
    lc0⟩)))) (.sy (.sx (.sy (.leaf ⟨354, 16, 555, 291, 16, 3535, ⟨[[(0, 13571574001160192), (0, 13927266171140165),
    (1053459341976, 0), (0, 37478321), (13731, 0)], [(39591444118452023, 0), (0, 12305814072594), (500030690, 0), (0,
    121170), (0, 157)], [(50226919630329, 0), (0, 3587889531), (576725, 0), (795, 0)], [(29271565518, 0), (0,
    651375), (0, 2255)]], 3, 4⟩, ⟨[[(0, 23479610295844864), (0, 20602564792721096), (1083475960586, 0), (0,
    32233464), (21344, 0)], [(0, 21910770155331003), (0, 2153564724249), (288393262, 0), (82404, 0), (6, 0)],
    [(17672276920275, 0), (0, 1616405722), (0, 233953), (0, 615)], [(8224766112, 0), (1104602, 0), (1498, 0), (1,
    0)]], 3, 4⟩, 72057594037927936, 324869697877, 52421853754, ⟨[[(9672739049163, 0), (3356622711, 0), (1724644, 0),
    (755, 0)], [(0, 4969234549), (0, 7979061), (0, 8064), (0, 6)], [(8614405, 0), (22933, 0), (34, 0)], [(0, 19255),
    (0, 70)]], 3, 4⟩, 17592186044416, 27408313,
    5017106632457811358815139774191454631104753653913250944971160171537480624222623395308125825223356453100715149752706188990797471,
    lc0⟩) (.leaf ⟨345, 16, 565, 270, 16, 3549, ⟨[[(0, 5080224183402496), (0, 14011576202175219), (1064043285441, 0),
    (0, 33542711), (15428, 0)], [(39330687777877307, 0), (0, 12450690630333), (474193577, 0), (0, 175171), (0, 173)],
    [(50850968244043, 0), (0, 3546129407), (777435, 0), (818, 0)], [(29733223155, 0), (0, 1023991), (0, 2334)]], 3,
    4⟩, ⟨[[(0, 34079531763773440), (0, 20515017514350329), (1080974736781, 0), (0, 25703002), (21215, 0)], [(0,
    22164388050540238), (0, 2115422353654), (308662805, 0), (78776, 0), (0, 32)], [(17613954670583, 0), (0,
    1671261203), (0, 389967), (0, 711)], [(8353272990, 0), (1354615, 0), (1648, 0), (1, 0)]], 3, 4⟩,
    72057594037927936, 342221056141, 46675765838, ⟨[[(9673889222942, 0), (3388611428, 0), (1784772, 0), (818, 0)],
    [(0, 4965857841), (0, 8148480), (0, 8489), (0, 7)], [(8681866, 0), (23735, 0), (37, 0)], [(0, 19784), (0, 74)]],
    3, 4⟩, 17592186044416, 31483035,
    4399310929123563173439316168008600956957299647447771748377770730780189417278856660442035240965169569211621473482644433176988788,
    lc0⟩)) (.sy (.leaf ⟨352, 16, 529, 285, 16, 3572, ⟨[[(30970172831129600, 0), (0, 13605931129714645),
    (1017836638692, 0), (0, 38365170), (8916, 0)], [(40483959994494793, 0), (0, 11921946368258), (502306876, 0), (0,
    73348), (0, 149)], [(50254367377783, 0), (0, 3452875857), (367896, 0), (748, 0)], [(28773934596, 0), (0, 147130),
    (0, 2170)]], 3, 4⟩, ⟨[[(22355580913807360, 0), (0, 20880395104409954), (1102822751100, 0), (0, 30713806), (21507,
    0)], [(0, 21120436381079168), (0, 2265116275904), (281576810, 0), (49810, 0), (0, 10)], [(18561643746692, 0), (0,
    1548376295), (0, 117449), (0, 575)], [(8464905635, 0), (920017, 0), (1327, 0), (1, 0)]], 3, 4⟩,
    72057594037927936, 306713886552, 61076645080, ⟨[[(9569783796291, 0), (3177766403, 0), (1558043, 0), (640, 0)],
    [(0, 4882194733), (0, 7472330), (0, 7182), (0, 5)], [(8385885, 0), (21286, 0), (29, 0)], [(0, 18501), (0, 63)]],
    3, 4⟩, 17592186044416, 27470926,
    6368927661202078727489461489999951541409735665414132166729676002514560567167834317588626229347458249369024993305681140929619319,
    lc0⟩) (.leaf ⟨344, 16, 538, 264, 16, 3586, ⟨[[(0, 33552329866543104), (0, 13676622400840645), (1026369537243, 0),
    (0, 36003391), (10100, 0)], [(40230057344901518, 0), (0, 12046738094112), (487738406, 0), (0, 123595), (0, 163)],
    [(50838088028779, 0), (0, 3439345494), (552581, 0), (764, 0)], [(29238322779, 0), (0, 495973), (0, 2236)]], 3,
    4⟩, ⟨[[(0, 12189616053288960), (0, 20790040879790805), (1100703471571, 0), (0, 24291349), (20267, 0)], [(0,
    21378843870833815), (0, 2229019835134), (293557804, 0), (40849, 0), (0, 51)], [(18512145528218, 0), (0,
    1583902771), (0, 263263), (0, 667)], [(8578480861, 0), (1141120, 0), (1458, 0), (1, 0)]], 3, 4⟩,
    72057594037927936, 326028589635, 57583969794, ⟨[[(9567007302974, 0), (3199974374, 0), (1603545, 0), (683, 0)],
    [(0, 4866584175), (0, 7590187), (0, 7480), (0, 6)], [(8402015, 0), (21826, 0), (31, 0)], [(0, 18765), (0, 65)]],
    3, 4⟩, 17592186044416, 31017159,
    5752769011730939294170581734720716125904470953740138769801617074606639524030101273176969798638567414534552930210295214428339516,
    lc0⟩))) (.sx (.sy (.leaf ⟨336, 16, 576, 248, 16, 3563, ⟨[[(19740018286964736, 0), (0, 14115739431487739),
    (1077340439414, 0), (0, 29188511), (16180, 0)], [(39109206466005111, 0), (0, 12621280684424), (435007787, 0), (0,
    236115), (0, 193)], [(51564223126520, 0), (0, 3476231708), (989168, 0), (847, 0)], [(30216092409, 0), (0,
    1419271), (0, 2436)]], 3, 4⟩, ⟨[[(27908288816058368, 0), (0, 20427078073319723), (1079973117437, 0), (0,
    19228941), (20789, 0)], [(0, 22415554072287575), (0, 2074065712682), (326640154, 0), (61640, 0), (0, 81)],
    [(17549832419933, 0), (0, 1752581804), (0, 570743), (0, 821)], [(8502683024, 0), (1630293, 0), (1814, 0), (1,
    0)]], 3, 4⟩, 72057594037927936, 360866853048, 40029579960, ⟨[[(9672716330423, 0), (3419685482, 0), (1847062, 0),
    (889, 0)], [(0, 4951804258), (0, 8307603), (0, 8919), (0, 8)], [(8727313, 0), (24510, 0), (40, 0)], [(0, 20336),
    (0, 79)]], 3, 4⟩, 17592186044416, 36513983,
    3791779692016766644345776417246777904033565901079383112898303027328542649445153125303985306947547796010919389708991726265046841,
    lc0⟩) (.leaf ⟨327, 16, 586, 227, 16, 3577, ⟨[[(0, 24550852906340352), (0, 14190332387480960), (1089690780174, 0),
    (0, 24650314), (15644, 0)], [(38789205661237861, 0), (0, 12776127262394), (378940080, 0), (0, 304625), (0, 217)],
    [(52190115000404, 0), (0, 3363779179), (1209716, 0), (877, 0)], [(30612831762, 0), (0, 1836161), (0, 2554)]], 3,
    4⟩, ⟨[[(18459977768654848, 0), (0, 20338516961330698), (1080451036870, 0), (0, 12930821), (19891, 0)], [(0,
    22664022675338560), (0, 2030111236375), (338732890, 0), (27350, 0), (0, 142)], [(17477660649786, 0), (0,
    1864628337), (0, 780064), (0, 948)], [(8675182240, 0), (1934284, 0), (1997, 0), (1, 0)]], 3, 4⟩,
    72057594037927936, 379708855019, 32399865873, ⟨[[(9670154129378, 0), (3447229469, 0), (1905742, 0), (961, 0), (1,
    0)], [(0, 4940379389), (0, 8462721), (0, 9332), (0, 9)], [(8791245, 0), (25314, 0), (43, 0)], [(0, 21013), (0,
    84)]], 3, 4⟩, 17592186044416, 42628662,
    3240262898204137981340419254217275440701065815075502697849696717956050349217487882958780151283489983660214734391106650935989868,
    lc0⟩)) (.sy (.leaf ⟨335, 16, 548, 242, 16, 3600, ⟨[[(0, 5179253598093312), (0, 13768394633920038),
    (1037244638210, 0), (0, 33433605), (10280, 0)], [(40023673374006277, 0), (0, 12195774202092), (461093540, 0), (0,
    180128), (0, 182)], [(51513573061958, 0), (0, 3401224569), (745705, 0), (785, 0)], [(29728442947, 0), (0,
    863746), (0, 2322)]], 3, 4⟩, ⟨[[(26055684328796160, 0), (0, 20699233864797850), (1100015754634, 0), (0,
    18319981), (18423, 0)], [(0, 21635040518575355), (0, 2191118935002), (301855275, 0), (17431, 0), (0, 102)],
    [(18458453909777, 0), (0, 1644150966), (0, 432891), (0, 774)], [(8710502821, 0), (1384438, 0), (1601, 0), (1,
    0)]], 3, 4⟩, 72057594037927936, 346753746612, 53427489503, ⟨[[(9567278880588, 0), (3229405049, 0), (1658767, 0),
    (735, 0)], [(0, 4857853698), (0, 7743461), (0, 7839), (0, 6)], [(8450876, 0), (22528, 0), (33, 0)], [(0, 19231),
    (0, 69)]], 3, 4⟩, 17592186044416, 35771234,
    5068318325605357610340412233462313249884858007644165038252715328308290308116419401603046114281711892966746221621124880116937491,
    lc0⟩) (.leaf ⟨326, 16, 558, 221, 16, 3614, ⟨[[(0, 3379506004201472), (0, 13855481728841736), (1048576585740, 0),
    (0, 30946934), (9143, 0)], [(39788165499396343, 0), (0, 12348789343319), (419607691, 0), (0, 244081), (0, 204)],
    [(52188464816090, 0), (0, 3330207305), (947221, 0), (808, 0)], [(30187826281, 0), (0, 1253065), (0, 2428)]], 3,
    4⟩, ⟨[[(0, 6927858749734912), (0, 20607762826993355), (1100634564596, 0), (0, 13025340), (15744, 0)], [(0,
    21888901017124640), (0, 2152271707152), (302630424, 0), (0, 24254), (0, 167)], [(18398468160787, 0), (0,
    1733217143), (0, 629998), (0, 896)], [(8862862301, 0), (1652208, 0), (1759, 0), (1, 0)]], 3, 4⟩,
    72057594037927936, 368812235253, 48527216971, ⟨[[(9568942923706, 0), (3260109454, 0), (1715682, 0), (791, 0)],
    [(0, 4852846490), (0, 7906401), (0, 8205), (0, 7)], [(8519690, 0), (23294, 0), (35, 0)], [(0, 19841), (0, 73)]],
    3, 4⟩, 17592186044416, 41842035,
    4364075278604109998361487862923709999816955873360060934260476891097818057830245396767680228511627405617344933052220445788164542,
    lc0⟩))))
theorem c78 : checkR job con1 true ⟨7, 9, 7, 9, 13, 17⟩ 1 9016 t78 642 14 320 4039 39 4000 = true := by decide +kernel

def t79 : CTree :=
  .sx (.sy (.sx (.sy (.leaf ⟨352, 16, 505, 280, 16, 3612, ⟨[[(0, 834315689897984), (0, 13309903026461369),
    (985315264524, 0), (0, 38026802), (4539, 0)], [(41399072098992283, 0), (0, 11565564362006), (494329141, 0), (0,
    30186), (0, 142)], [(50315993975541, 0), (0, 3285227226), (178233, 0), (709, 0)], [(28277830613, 0), (419658, 0),
    (0, 2038)]], 3, 4⟩, ⟨[[(29774554699612160, 0), (0, 21179559467402450), (1123080347501, 0), (0, 30092336), (21261,
    0)], [(0, 20285585921618039), (0, 2376079965402), (281118835, 0), (18968, 0), (0, 25)], [(19495935112231, 0), (0,
    1492980336), (0, 12119), (0, 541)], [(8739942388, 0), (815420, 0), (1205, 0)]], 3, 4⟩, 72057594037927936,
    282559889813, 67964565324, ⟨[[(9465693400888, 0), (3001520090, 0), (1400316, 0), (540, 0)], [(0, 4778380532), (0,
    6949288), (0, 6357), (0, 4)], [(8099426, 0), (19583, 0), (25, 0)], [(0, 17645), (0, 57)]], 3, 4⟩, 17592186044416,
    26949178,
    7375217196114108818998476179896017777529825950781371713703626553626014340535924354782588540420623916436648958318674794021607497,
    lc0⟩) (.leaf ⟨343, 16, 513, 259, 16, 3626, ⟨[[(933817969799168, 0), (0, 13365304653358351), (992064314897, 0),
    (0, 37061704), (5276, 0)], [(41141529224416430, 0), (0, 11671282607041), (489592141, 0), (0, 77338), (0, 155)],
    [(50854215076179, 0), (0, 3295889971), (349403, 0), (719, 0)], [(28746427189, 0), (102324, 0), (0, 2085)]], 3,
    4⟩, ⟨[[(0, 30261544118566912), (0, 21086283123196560), (1121115285319, 0), (0, 23922707), (18822, 0)], [(0,
    20548540033643280), (0, 2340983787784), (285261004, 0), (4795, 0), (0, 68)], [(19454255300237, 0), (0,
    1511088151), (0, 149198), (0, 630)], [(8845250344, 0), (1015904, 0), (1321, 0)]], 3, 4⟩, 72057594037927936,
    303555410854, 66777939291, ⟨[[(9468378049278, 0), (3028704770, 0), (1446524, 0), (577, 0)], [(0, 4783793118), (0,
    7101088), (0, 6664), (0, 4)], [(8178137, 0), (20274, 0), (26, 0)], [(0, 18038), (0, 59)]], 3, 4⟩, 17592186044416,
    30841075,
    6901786039812565503521611256693886212872940683251276984370487584374395149942472020267127872165533994716999654590369623023366867,
    lc0⟩)) (.sy (.leaf ⟨352, 16, 482, 276, 16, 3653, ⟨[[(0, 11373209801191424), (0, 13015242483679590),
    (953741350086, 0), (0, 36571310), (530, 0)], [(42266995436760539, 0), (0, 11212991974321), (476816579, 0), (9068,
    0), (0, 136)], [(50322416128496, 0), (0, 3076165925), (9560, 0), (677, 0)], [(27715215969, 0), (1029274, 0), (0,
    1871)]], 3, 4⟩, ⟨[[(0, 11427175930335232), (0, 21488421171306798), (1143805755574, 0), (0, 30315860), (20598,
    0)], [(0, 19390739818334322), (0, 2485709062757), (286412244, 0), (0, 10409), (0, 39)], [(20468022495329, 0), (0,
    1442608198), (86110, 0), (0, 510)], [(9038834331, 0), (791657, 0), (1131, 0)]], 3, 4⟩, 72057594037927936,
    250867263924, 72283518478, ⟨[[(9367189585909, 0), (2839449213, 0), (1261152, 0), (459, 0)], [(0, 4689352135), (0,
    6482587), (0, 5665), (0, 3)], [(7856396, 0), (18115, 0), (22, 0)], [(0, 17002), (0, 52)]], 3, 4⟩, 17592186044416,
    26720649,
    7840243454034296987287664982421841729442119847417258366658543938833891994561877178721293701301155836849517623606459139573384130,
    lc0⟩) (.leaf ⟨343, 16, 489, 254, 16, 3667, ⟨[[(0, 18722293350510592), (0, 13053991992669877), (958937121155, 0),
    (0, 36856236), (876, 0)], [(41996458501962917, 0), (0, 11300471694890), (480728670, 0), (0, 35489), (0, 149)],
    [(50810198253839, 0), (0, 3106828135), (169732, 0), (681, 0)], [(28187634837, 0), (748586, 0), (0, 1894)]], 3,
    4⟩, ⟨[[(0, 25532761115367424), (0, 21392175135179143), (1141780021405, 0), (0, 24546381), (16869, 0)], [(0,
    19657940072617648), (0, 2450670108083), (283092060, 0), (0, 29702), (0, 86)], [(20433783939602, 0), (0,
    1444502124), (0, 43150), (0, 597)], [(9142572097, 0), (979685, 0), (1238, 0)]], 3, 4⟩, 72057594037927936,
    272907531019, 73015524877, ⟨[[(9367312656258, 0), (2861345512, 0), (1299882, 0), (486, 0)], [(0, 4692159091), (0,
    6612737), (0, 5923), (0, 4)], [(7925455, 0), (18735, 0), (23, 0)], [(0, 17297), (0, 54)]], 3, 4⟩, 17592186044416,
    30535363,
    7647975011302111800369170091049807730323466607638332044123827392749553000848237015962303857244755927215546863049346197321664439,
    lc0⟩))) (.sx (.sy (.leaf ⟨334, 16, 522, 237, 16, 3640, ⟨[[(28419063833665536, 0), (0, 13442984679606480),
    (1000838946710, 0), (0, 36070113), (4955, 0)], [(40939966805459090, 0), (0, 11800068544788), (473828855, 0), (0,
    130190), (0, 172)], [(51487314853260, 0), (0, 3284899770), (526697, 0), (732, 0)], [(29245914738, 0), (0,
    228838), (0, 2149)]], 3, 4⟩, ⟨[[(0, 17297633220452352), (0, 20992532038581760), (1120475349250, 0), (0,
    18630097), (15452, 0)], [(0, 20809438165553422), (0, 2305416202293), (284359380, 0), (0, 24781), (0, 123)],
    [(19409825399240, 0), (0, 1552425808), (0, 309323), (0, 733)], [(8967259934, 0), (1236115, 0), (1448, 0), (1,
    0)]], 3, 4⟩, 72057594037927936, 326449274460, 65159057177, ⟨[[(9469728995548, 0), (3056261150, 0), (1495666, 0),
    (616, 0)], [(0, 4780249621), (0, 7249087), (0, 6976), (0, 5)], [(8234020, 0), (20943, 0), (28, 0)], [(0, 18444),
    (0, 62)]], 3, 4⟩, 17592186044416, 35593098,
    6242066670288744202976045017987202976292753922286369480221962939105175014592385894865877896189380662311637524234684268665489581,
    lc0⟩) (.leaf ⟨325, 16, 531, 215, 16, 3654, ⟨[[(31925297793273856, 0), (0, 13516598255221734), (1009675820960, 0),
    (0, 35356699), (3273, 0)], [(40712416910712105, 0), (0, 11931084479725), (444397175, 0), (0, 189875), (0, 193)],
    [(52118000518671, 0), (0, 3244356283), (710205, 0), (747, 0)], [(29718614380, 0), (0, 577069), (0, 2230)]], 3,
    4⟩, ⟨[[(0, 3294224742105088), (0, 20898120023903416), (1120922397425, 0), (0, 14552170), (10864, 0)], [(0,
    21068268712794139), (0, 2270471734301), (274329515, 0), (0, 73737), (0, 192)], [(19360671903767, 0), (0,
    1620956050), (0, 496066), (0, 852)], [(9107648995, 0), (1477995, 0), (1588, 0), (1, 0)]], 3, 4⟩,
    72057594037927936, 350502529313, 63080432019, ⟨[[(9469440872007, 0), (3082078842, 0), (1544697, 0), (655, 0)],
    [(0, 4772900387), (0, 7392452), (0, 7276), (0, 6)], [(8284899, 0), (21607, 0), (30, 0)], [(0, 18918), (0, 65)]],
    3, 4⟩, 17592186044416, 41698313,
    5459756758923426548158063719828069489565777635655752031796573046089436830135858393957024255265722182361591417140829295519914857,
    lc0⟩)) (.sy (.leaf ⟨335, 16, 498, 232, 16, 3682, ⟨[[(0, 18742624363712512), (0, 13142585636992619),
    (967830059878, 0), (0, 37344787), (120, 0)], [(41874695637183707, 0), (0, 11433034861048), (475439481, 0), (0,
    85380), (0, 165)], [(51499942925131, 0), (0, 3124407838), (334690, 0), (690, 0)], [(28754145048, 0), (461020, 0),
    (0, 1936)]], 3, 4⟩, ⟨[[(0, 33953737338615808), (0, 21301254254643174), (1141243995658, 0), (0, 20116710), (11868,
    0)], [(0, 19928574147784914), (0, 2417084890932), (273466456, 0), (0, 65355), (0, 144)], [(20403677710972, 0),
    (0, 1468691169), (0, 194859), (0, 698)], [(9264482842, 0), (1186220, 0), (1355, 0), (1, 0)]], 3, 4⟩,
    72057594037927936, 297629899651, 73631104557, ⟨[[(9367721701459, 0), (2883498795, 0), (1340356, 0), (514, 0)],
    [(0, 4678398729), (0, 6724523), (0, 6167), (0, 4)], [(7939173, 0), (19242, 0), (24, 0)], [(0, 17480), (0, 56)]],
    3, 4⟩, 17592186044416, 34387742,
    7131442941631279867833265009146008136549630613779672478737097351685218996876185554274507375653761885269750309436439385544874609,
    lc0⟩) (.leaf ⟨326, 16, 506, 209, 16, 3696, ⟨[[(0, 18370184512438272), (0, 13200997764330232), (974481185657, 0),
    (0, 38204495), (0, 2038)], [(41644170622260919, 0), (0, 11543246657719), (456472942, 0), (0, 141508), (0, 184)],
    [(52082033623660, 0), (0, 3108778366), (503680, 0), (698, 0)], [(29240592835, 0), (160134, 0), (0, 1987)]], 3,
    4⟩, ⟨[[(25951165263169536, 0), (0, 21203885487153520), (1141217174570, 0), (0, 17470836), (5243, 0)], [(0,
    20191964548205733), (0, 2384955940399), (253052808, 0), (0, 121492), (0, 216)], [(20364729452492, 0), (0,
    1518238295), (0, 372445), (0, 814)], [(9401107177, 0), (1412432, 0), (1484, 0), (1, 0)]], 3, 4⟩,
    72057594037927936, 323109667986, 74280720124, ⟨[[(9365422301081, 0), (2904444119, 0), (1382140, 0), (540, 0)],
    [(0, 4669207847), (0, 6847983), (0, 6420), (0, 4)], [(7975126, 0), (19832, 0), (25, 0)], [(0, 17823), (0, 58)]],
    3, 4⟩, 17592186044416, 40001030,
    6378985966785785102215599765725270837455210457763370254051969593767765225445084409902328153799979712643510662830101754553710909,
    lc0⟩)))) (.sy (.sx (.sy (.leaf ⟨352, 16, 460, 272, 16, 3698, ⟨[[(0, 865009779916800), (0, 12723095726956661),
    (922919557720, 0), (0, 34152070), (0, 3153)], [(43089940270138286, 0), (0, 10862771282832), (451440324, 0),
    (44976, 0), (0, 131)], [(50273980983816, 0), (0, 2825332895), (0, 136723), (652, 0)], [(27069167725, 0),
    (1658025, 0), (0, 1683)]], 3, 4⟩, ⟨[[(0, 11528086065942528), (0, 21824713795320428), (1166107388341, 0), (0,
    31380259), (19536, 0)], [(0, 18447593840979358), (0, 2596205550218), (297472391, 0), (0, 38494), (0, 54)],
    [(21497527604882, 0), (0, 1391710029), (181216, 0), (0, 482)], [(9358354532, 0), (845662, 0), (1101, 0)]], 3, 4⟩,
    72057594037927936, 210657466315, 74069757151, ⟨[[(9270462167787, 0), (2685073944, 0), (1134443, 0), (392, 0)],
    [(0, 4605832467), (0, 6046622), (0, 5057), (0, 3)], [(7626362, 0), (16753, 0), (19, 0)], [(0, 16464), (0, 48)]],
    3, 4⟩, 17592186044416, 26654679,
    7724346455346389796171428743764670056268296522313750687410825978196243627853181138247058060940090687784470399087258666883634801,
    lc0⟩) (.leaf ⟨343, 16, 467, 249, 16, 3712, ⟨[[(31798933800927232, 0), (0, 12771180411720871), (928737582028, 0),
    (0, 35636682), (0, 3153)], [(42888271978859474, 0), (0, 10956002012432), (464014751, 0), (2592, 0), (0, 143)],
    [(50814759018984, 0), (0, 2877947894), (15127, 0), (654, 0)], [(27602036993, 0), (1418549, 0), (0, 1686)]], 3,
    4⟩, ⟨[[(18288738582351872, 0), (0, 21725276972632481), (1163808268356, 0), (0, 26153451), (14420, 0)], [(0,
    18718907979601513), (0, 2560282634043), (287019664, 0), (0, 62856), (0, 103)], [(21470816875431, 0), (0,
    1377921066), (59197, 0), (0, 567)], [(9466915668, 0), (1028884, 0), (1204, 0)]], 3, 4⟩, 72057594037927936,
    233530586606, 76611986457, ⟨[[(9271446575301, 0), (2706633671, 0), (1170471, 0), (414, 0)], [(0, 4608080530), (0,
    6168992), (0, 5295), (0, 3)], [(7694385, 0), (17354, 0), (20, 0)], [(0, 16689), (0, 50)]], 3, 4⟩, 17592186044416,
    30235974,
    7840588526954768008776454495649681773014310586467411727198493196267682430054633761358226230385357810314738880820425550594597547,
    lc0⟩)) (.sy (.leaf ⟨352, 16, 439, 268, 16, 3745, ⟨[[(30863814113800192, 0), (0, 12434606333835922),
    (892712580429, 0), (0, 30900277), (0, 6544)], [(43870773387691474, 0), (0, 10513597518617), (419831637, 0),
    (78098, 0), (0, 127)], [(50170208480043, 0), (0, 2534429763), (0, 260797), (635, 0)], [(26321200678, 0),
    (2279631, 0), (0, 1495)]], 3, 4⟩, ⟨[[(19839058391552000, 0), (0, 22176799901898237), (1189531464273, 0), (0,
    33244452), (18059, 0)], [(0, 17440441200633001), (0, 2706038835517), (314140421, 0), (0, 65368), (0, 68)],
    [(22575404538682, 0), (0, 1333213413), (276625, 0), (0, 454)], [(9677713652, 0), (967049, 0), (1107, 0)]], 3, 4⟩,
    72057594037927936, 160972083276, 69782498433, ⟨[[(9175996517505, 0), (2540035281, 0), (1020488, 0), (336, 0)],
    [(0, 4528666169), (0, 5644959), (0, 4524), (0, 2)], [(7408349, 0), (15485, 0), (17, 0)], [(0, 16019), (0, 45)]],
    3, 4⟩, 17592186044416, 26695591,
    7831815665247453382908584635528052331556042684918862834736507823470610037311772828638282817661427054096063712228894107224006691,
    lc0⟩) (.leaf ⟨344, 16, 446, 245, 16, 3759, ⟨[[(32396477697847296, 0), (0, 12491982038320617), (899359088300, 0),
    (0, 33473272), (0, 6859)], [(43739798409681061, 0), (0, 10613503259091), (440273384, 0), (37683, 0), (0, 138)],
    [(50768044135317, 0), (0, 2604469056), (0, 115291), (634, 0)], [(26912390563, 0), (2082262, 0), (0, 1478)]], 3,
    4⟩, ⟨[[(20422223349303296, 0), (0, 22074020763029363), (1186755949815, 0), (0, 28707091), (11462, 0)], [(0,
    17715614847059038), (0, 2668316428402), (296864523, 0), (0, 94752), (0, 120)], [(22556882910690, 0), (0,
    1303678752), (161732, 0), (0, 537)], [(9796557562, 0), (1151534, 0), (1210, 0)]], 3, 4⟩, 72057594037927936,
    183637727398, 74120563569, ⟨[[(9176044959558, 0), (2557774358, 0), (1050385, 0), (353, 0)], [(0, 4521391943), (0,
    5737127), (0, 4718), (0, 2)], [(7446873, 0), (15969, 0), (17, 0)], [(0, 16086), (0, 47)]], 3, 4⟩, 17592186044416,
    29727212,
    7649613256829851414932213572628843060292643953152592017161953870240579893224074226381679883346724734794680691992271882539904375,
    lc0⟩))) (.sx (.sy (.leaf ⟨335, 16, 474, 227, 16, 3726, ⟨[[(0, 26157812293726208), (0, 12816223229161096),
    (934068444124, 0), (0, 37306513), (0, 4288)], [(42666620508089838, 0), (0, 11046986620170), (466140416, 0), (0,
    44559), (0, 158)], [(51348998937319, 0), (0, 2906629392), (169697, 0), (656, 0)], [(28117700025, 0), (1174109,
    0), (0, 1697)]], 3, 4⟩, ⟨[[(0, 22572171051616256), (0, 21625430804837412), (1162505580370, 0), (0, 22751513),
    (7668, 0)], [(0, 18988243911864103), (0, 2526369699837), (268864482, 0), (0, 104507), (0, 164)],
    [(21443992620558, 0), (0, 1384794329), (0, 84644), (0, 665)], [(9590743823, 0), (1229614, 0), (1317, 0)]], 3, 4⟩,
    72057594037927936, 257921838283, 79251029249, ⟨[[(9269330429416, 0), (2723169595, 0), (1202849, 0), (433, 0)],
    [(0, 4598301337), (0, 6264890), (0, 5501), (0, 3)], [(7718029, 0), (17834, 0), (21, 0)], [(0, 16836), (0, 52)]],
    3, 4⟩, 17592186044416, 34154760,
    7597773141873375556905462781483459211347893923849152565674447055572629490906199782951633799286334797266968416804637005377879255,
    lc0⟩) (.leaf ⟨326, 16, 482, 204, 16, 3741, ⟨[[(18556501803065344, 0), (0, 12885058457257971), (940771250795, 0),
    (0, 39647263), (0, 6863)], [(42513380736709605, 0), (0, 11160626949938), (457367670, 0), (0, 97734), (0, 176)],
    [(51986470724511, 0), (0, 2916634963), (327841, 0), (660, 0)], [(28674906345, 0), (925348, 0), (0, 1720)]], 3,
    4⟩, ⟨[[(14027699969003520, 0), (0, 21530814953655588), (1162020597175, 0), (0, 21760423), (0, 1128)], [(0,
    19260950326524416), (0, 2496690672451), (238496131, 0), (0, 167809), (0, 241)], [(21421025980479, 0), (0,
    1416456966), (0, 253791), (0, 778)], [(9733928093, 0), (1449911, 0), (1441, 0), (1, 0)]], 3, 4⟩,
    72057594037927936, 284296186795, 82183322503, ⟨[[(9270871321091, 0), (2745778924, 0), (1243005, 0), (454, 0)],
    [(0, 4595353153), (0, 6392248), (0, 5750), (0, 3)], [(7766202, 0), (18449, 0), (22, 0)], [(0, 17138), (0, 54)]],
    3, 4⟩, 17592186044416, 39686642,
    6961699598854746957717637814143706215850893755016343494844706281432403312600641109269401102385838716341685881156240939056152941,
    lc0⟩)) (.sy (.leaf ⟨335, 16, 452, 222, 16, 3774, ⟨[[(32865149373444096, 0), (0, 12518480985576015),
    (903253399450, 0), (0, 36272916), (0, 8320)], [(43491963412152338, 0), (0, 10686253315874), (449883008, 0), (0,
    7290), (0, 152)], [(51244733804975, 0), (0, 2646061075), (32429, 0), (633, 0)], [(27430004259, 0), (1879464, 0),
    (0, 1462)]], 3, 4⟩, ⟨[[(26867248191578112, 0), (0, 21976740763798495), (1185068622872, 0), (0, 26525626), (2847,
    0)], [(0, 17993503563877493), (0, 2634462164633), (270647791, 0), (0, 142411), (0, 185)], [(22545523200694, 0),
    (0, 1293936524), (25571, 0), (0, 633)], [(9933430632, 0), (1353878, 0), (1322, 0)]], 3, 4⟩, 72057594037927936,
    207275586396, 78658847752, ⟨[[(9175862629072, 0), (2574945248, 0), (1081266, 0), (369, 0)], [(0, 4524923208), (0,
    5845941), (0, 4930), (0, 2)], [(7515525, 0), (16544, 0), (18, 0)], [(0, 16307), (0, 49)]], 3, 4⟩, 17592186044416,
    34129922,
    7531499931170978235323011612822506293019571631993627854300887843457867440225173489187824601270973985653528825932408363218787419,
    lc0⟩) (.leaf ⟨328, 16, 460, 199, 16, 3789, ⟨[[(0, 23054725466533888), (0, 12597336509544212), (910263521542, 0),
    (0, 39954532), (0, 11276)], [(43416228401437477, 0), (0, 10804402076504), (450295357, 0), (0, 57889), (0, 170)],
    [(51942179913465, 0), (0, 2676043777), (182667, 0), (635, 0)], [(28055693885, 0), (1682988, 0), (0, 1458)]], 3,
    4⟩, ⟨[[(34106014160961536, 0), (0, 21878968759736409), (1183524187097, 0), (0, 27404673), (0, 8264)], [(0,
    18269746749503739), (0, 2605541407307), (230575581, 0), (0, 212838), (0, 265)], [(22533646147322, 0), (0,
    1307300336), (0, 135291), (0, 743)], [(10087247019, 0), (1575502, 0), (1446, 0), (1, 0)]], 3, 4⟩,
    72057594037927936, 233278187065, 83348211334, ⟨[[(9172155007715, 0), (2587807366, 0), (1110006, 0), (381, 0)],
    [(0, 4497882659), (0, 5908929), (0, 5100), (0, 3)], [(7479876, 0), (16889, 0), (19, 0)], [(0, 16257), (0, 50)]],
    3, 4⟩, 17592186044416, 38058352,
    7163752121931038876860283829001964146392888696473629167678558708301364617707111823159826822253139048782711941695256536935315276,
    lc0⟩))))
theorem c79 : checkR job con1 true ⟨7, 9, 7, 9, 13, 17⟩ 1 9016 t79 670 14 320 4039 39 4000 = true := by decide +kernel

end PyX.Kron.V3a
