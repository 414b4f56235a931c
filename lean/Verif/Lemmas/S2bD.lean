import Verif.Lemmas.S2bJob

/-!
# Temperature from pressure and entropy in subregion 2b, part D of the certificate
-/

namespace PyX.Kron.S2b

set_option Elab.async false

def t44 : CTree :=
  .sy (.sy (.sx (.out ⟨475, 16, 10, 384, 16, 118, ⟨[[], [(343597383680, 0)]], 1, 1⟩, ⟨[[(67274615183, 0),
    (3114275354128, 0)], [(145140169393, 0), (1861671024, 0)]], 1, 1⟩, 1099511627776, 0, 414877229561, ⟨[], 0, 0⟩, 0,
    0, 0, ⟨0, 6, 294382375978522, [50164769427]⟩⟩ 0 1 5526) (.out ⟨505, 16, 10, 396, 16, 118, ⟨[[], [(343597383680,
    0)]], 1, 1⟩, ⟨[[(478848583806, 0), (3269943997159, 0)], [(137927895970, 0), (1324505084, 0)]], 1, 1⟩,
    1099511627776, 0, 459241842386, ⟨[], 0, 0⟩, 0, 0, 0, ⟨0, 6, 299052229933940, [47184684115]⟩⟩ 0 1 6324)) (.sx
    (.out ⟨475, 16, 10, 371, 16, 109, ⟨[[], [(343597383680, 0)]], 1, 1⟩, ⟨[[(317861267121, 0), (3181788218694, 0)],
    [(143989844123, 0), (1447289422, 0)]], 1, 1⟩, 1099511627776, 0, 523756036596, ⟨[], 0, 0⟩, 0, 0, 0, ⟨0, 6,
    271929482895415, [46338642946]⟩⟩ 0 1 6699) (.sy (.out ⟨505, 16, 10, 563, 16, 162, ⟨[[], [(343597383680, 0)]], 1,
    1⟩, ⟨[[(255239594185, 0), (2388247342112, 0)], [(195853856678, 0), (517873879, 0)]], 1, 1⟩, 1099511627776, 0,
    405889755021, ⟨[], 0, 0⟩, 0, 0, 0, ⟨0, 6, 410563230926256, [64778973107]⟩⟩ 0 1 7262) (.sx (.out ⟨995, 16, 20,
    770, 16, 218, ⟨[[], [(343597383680, 0)]], 1, 1⟩, ⟨[[(0, 102274568619), (3329959594164, 0)], [(137033097363, 0),
    (486401069, 0)]], 1, 1⟩, 1099511627776, 0, 300415646693, ⟨[], 0, 0⟩, 0, 0, 0, ⟨0, 6, 550378511086503,
    [44242925425]⟩⟩ 0 1 7708) (.out ⟨1025, 16, 20, 778, 16, 217, ⟨[[], [(343597383680, 0)]], 1, 1⟩, ⟨[[(65698454939,
    0), (3389239848970, 0)], [(131787013954, 0), (1289319352, 0)]], 1, 1⟩, 1099511627776, 0, 622911723307, ⟨[], 0,
    0⟩, 0, 0, 0, ⟨0, 6, 552019193329980, [42751001312]⟩⟩ 0 1 8125))))) (.sy (.sx (.sy (.sx (.out ⟨935, 16, 20, 724,
    16, 207, ⟨[[], [(343597383680, 0)]], 1, 1⟩, ⟨[[(515706975302, 0), (3215898090038, 0)], [(145063556292, 0),
    (615362871, 0)]], 1, 1⟩, 1099511627776, 0, 253410865558, ⟨[], 0, 0⟩, 0, 0, 0, ⟨0, 6, 514287667617756,
    [44706344185]⟩⟩ 0 1 7437) (.out ⟨965, 16, 20, 737, 16, 207, ⟨[[], [(343597383680, 0)]], 1, 1⟩, ⟨[[(0,
    137924485494), (3280051630955, 0)], [(139286722034, 0), (858005098, 0)]], 1, 1⟩, 1099511627776, 0, 424894913755,
    ⟨[], 0, 0⟩, 0, 0, 0, ⟨0, 6, 518512062334672, [43316509651]⟩⟩ 0 1 7930)) (.sx (.sx (.out ⟨1855, 16, 40, 886, 16,
    248, ⟨[[], [(343597383680, 0)]], 1, 1⟩, ⟨[[(0, 375739165810), (4067495464159, 0)], [(90661061651, 0), (723483799,
    0)]], 1, 1⟩, 1099511627776, 0, 393117063084, ⟨[], 0, 0⟩, 0, 0, 0, ⟨0, 6, 614860755809087, [26997166789]⟩⟩ 0 1
    8025) (.out ⟨1885, 16, 40, 879, 16, 244, ⟨[[], [(343597383680, 0)]], 1, 1⟩, ⟨[[(127518146803, 0), (4089625701943,
    0)], [(88323514166, 0), (1175625178, 0)]], 1, 1⟩, 1099511627776, 0, 597787686696, ⟨[], 0, 0⟩, 0, 0, 0, ⟨0, 6,
    607473173093171, [26138995534]⟩⟩ 0 1 8260)) (.skip))) (.sy (.sx (.sx (.out ⟨1975, 16, 40, 919, 16, 255, ⟨[[],
    [(343597383680, 0)]], 1, 1⟩, ⟨[[(0, 147859149142), (4155724724686, 0)], [(84383632031, 0), (1189598009, 0)]], 1,
    1⟩, 1099511627776, 0, 650827482540, ⟨[], 0, 0⟩, 0, 0, 0, ⟨0, 6, 642544623801537, [26072549654]⟩⟩ 0 1 8272)
    (.skip)) (.skip)) (.skip))) (.skip))
theorem c44 : checkC job ⟨6, 8, 7, 8, 9, 13⟩ 3 100 lims t44 784 48 16 27 3 128 = true := by decide +kernel

def t45 : CTree :=
  .sx (.sy (.sx (.sy (.sy (.sx (.out ⟨815, 16, 20, 587, 16, 164, ⟨[[], [(343597383680, 0)]], 1, 1⟩, ⟨[[(134282701548,
    0), (2968764969795, 0)], [(156394193345, 0), (1758521831, 0)]], 1, 1⟩, 1099511627776, 0, 474283954273, ⟨[], 0,
    0⟩, 0, 0, 0, ⟨0, 5, 392898377961152, [40634662976]⟩⟩ 0 1 8078) (.skip)) (.skip)) (.skip)) (.skip)) (.skip))
    (.skip)
theorem c45 : checkC job ⟨6, 8, 7, 8, 9, 13⟩ 3 100 lims t45 368 48 8 33 3 128 = true := by decide +kernel

def t46 : CTree :=
  .sx (.sy (.sx (.sy (.sx (.sy (.sx (.sy (.sy (.out ⟨575, 16, 20, 476, 16, 136, ⟨[[], [(343597383680, 0)]], 1, 1⟩,
    ⟨[[(0, 276373303906), (1458200054258, 0)], [(245637416554, 0), (3156127401, 0)]], 1, 1⟩, 1099511627776, 0,
    650349400092, ⟨[], 0, 0⟩, 0, 0, 0, ⟨0, 5, 295163381186496, [47761888062]⟩⟩ 0 1 7456) (.skip)) (.skip)) (.skip))
    (.skip)) (.skip)) (.skip)) (.skip)) (.skip)) (.skip)
theorem c46 : checkC job ⟨6, 8, 7, 8, 9, 13⟩ 3 100 lims t46 160 48 4 21 3 64 = true := by decide +kernel

def t47 : CTree :=
  .sx (.sy (.sx (.leaf ⟨440, 25, 8, 127, 16, 66, ⟨[[], [(549755813888, 0)]], 3, 4⟩, ⟨[[(301431183742, 0),
    (4358155866002, 0), (937767312, 0), (1193254824, 0), (10855930, 0)], [(72177604560, 0), (1426068130, 0),
    (41971384, 0), (1625928, 0), (32855, 0)], [(0, 29384535), (0, 150012), (0, 13563), (498, 0), (0, 15)], [(18804,
    0), (0, 354), (0, 23), (0, 1)]], 3, 4⟩, 1099511627776, 0, 607762560, ⟨[[(70967021089090, 0), (0, 267476712836),
    (1020359657, 0), (633303, 0), (0, 9026)], [(35069629431, 0), (0, 93118328), (0, 275763), (2337, 0), (0, 20)],
    [(0, 33901685), (106527, 0), (0, 1537), (20, 0)], [(44508, 0), (22, 0), (0, 4)]], 3, 4⟩, 68719476736, 273538869,
    2379997834644519562529747237671708532135026662604321815658934559165843388401424940701019275264, ⟨0, 6,
    170906975830705, [48464268769, 27536516, 20861]⟩⟩) (.leaf ⟨488, 25, 8, 131, 16, 65, ⟨[[], [(549755813888, 0)]],
    3, 4⟩, ⟨[[(355483067038, 0), (4425284068692, 0), (4749833222, 0), (1332798222, 0), (13586739, 0)], [(65984495162,
    0), (1366578244, 0), (38196953, 0), (1675518, 0), (27073, 0)], [(0, 24439033), (0, 245933), (0, 19019), (271, 0),
    (0, 42)], [(13115, 0), (0, 329), (0, 16), (0, 1)]], 3, 4⟩, 1099511627776, 0, 502968993, ⟨[[(70978901016193, 0),
    (0, 263542925071), (1046649657, 0), (551523, 0), (0, 13054)], [(31579945809, 0), (0, 88805641), (0, 385557),
    (4128, 0), (0, 20)], [(0, 27806888), (95318, 0), (0, 1727), (24, 0)], [(32622, 0), (67, 0), (0, 4)]], 3, 4⟩,
    68719476736, 258850958,
    2805267871712720815355787030082540685193750155782589176757233364054039309281901885880600100864, ⟨0, 6,
    172666429717233, [43035211338, 22046727, 15059]⟩⟩)) (.sx (.leaf ⟨440, 25, 8, 140, 16, 61, ⟨[[], [(549755813888,
    0)]], 3, 4⟩, ⟨[[(0, 140621633087), (4168370167873, 0), (23627282982, 0), (1482775722, 0), (27819153, 0)],
    [(76366589329, 0), (1962163613, 0), (69205866, 0), (1810640, 0), (34863, 0)], [(0, 28424927), (0, 305164), (0,
    24581), (0, 2400), (0, 124)], [(14315, 0), (0, 798), (0, 75), (0, 6)]], 3, 4⟩, 1099511627776, 0, 1574910219,
    ⟨[[(65037105694065, 0), (0, 234830138617), (1200045446, 0), (0, 755882), (0, 19885)], [(32650460225, 0), (0,
    112507612), (0, 242686), (0, 1026), (0, 54)], [(0, 31889653), (77825, 0), (200, 0), (31, 0)], [(42946, 0), (0,
    154), (0, 3)]], 3, 4⟩, 68719476736, 147826882,
    2233866203029782751246035697122820110012016763180777296637295269542796870730809895591456066765, ⟨0, 6,
    157959477661713, [44792733256, 25450417, 19281]⟩⟩) (.sy (.leaf ⟨488, 25, 8, 239, 16, 104, ⟨[[], [(549755813888,
    0)]], 3, 4⟩, ⟨[[(462741584858, 0), (3643361430511, 0), (9792307775, 0), (318929757, 0), (1748078, 0)],
    [(116903467494, 0), (1451450686, 0), (24237943, 0), (277861, 0), (0, 4294)], [(0, 41517659), (0, 355298), (0,
    13181), (0, 629), (0, 28)], [(17831, 0), (0, 486), (0, 23), (0, 1)]], 3, 4⟩, 1099511627776, 0, 451384598,
    ⟨[[(66491468908111, 0), (0, 140553103674), (408732639, 0), (0, 150810), (0, 2666)], [(29840651527, 0), (0,
    62162796), (0, 84568), (423, 0), (0, 6)], [(0, 26480447), (36334, 0), (0, 98), (7, 0)], [(32613, 0), (0, 41), (0,
    1)]], 3, 4⟩, 68719476736, 51519032,
    1436541951362053739031236222630379685681906059930973930486837323590112582269671171604637915546, ⟨0, 6,
    276266287547573, [68856338141, 35274763, 24095]⟩⟩) (.leaf ⟨488, 25, 8, 245, 16, 98, ⟨[[], [(549755813888, 0)]],
    3, 4⟩, ⟨[[(0, 322771767975), (3578302475953, 0), (15186575068, 0), (377509591, 0), (5601687, 0)], [(119240647711,
    0), (1668206533, 0), (27288694, 0), (281628, 0), (7352, 0)], [(0, 41738022), (0, 568490), (0, 28086), (0, 1131),
    (0, 27)], [(12978, 0), (0, 871), (0, 49), (0, 2)]], 3, 4⟩, 1099511627776, 0, 479823291, ⟨[[(63718196043616, 0),
    (0, 131255198056), (441917727, 0), (0, 430792), (0, 2710)], [(28500552566, 0), (0, 69408832), (0, 85433), (0,
    181), (0, 9)], [(0, 25694933), (44133, 0), (389, 0), (8, 0)], [(31245, 0), (0, 92), (0, 1)]], 3, 4⟩, 68719476736,
    79039248, 1719466897043192589526583689350300895538203630669369558943403475503165708088290892076354928192, ⟨0, 6,
    260327847881367, [64883857095, 33239681, 22705]⟩⟩)))) (.sy (.sx (.leaf ⟨536, 25, 8, 137, 16, 65, ⟨[[],
    [(549755813888, 0)]], 3, 4⟩, ⟨[[(0, 121590241834), (4553925299495, 0), (8229127877, 0), (1495270066, 0),
    (15688071, 0)], [(61618492240, 0), (1310581128, 0), (34181222, 0), (1699304, 0), (15478, 0)], [(0, 21211590), (0,
    335400), (0, 22354), (0, 43), (0, 81)], [(9533, 0), (0, 288), (0, 7), (0, 1)]], 3, 4⟩, 1099511627776, 0,
    465478149, ⟨[[(70865569169508, 0), (0, 255217233530), (1035049795, 0), (440069, 0), (0, 16482)], [(28620990811,
    0), (0, 85274628), (0, 464547), (6054, 0), (0, 20)], [(0, 23178319), (85356, 0), (0, 1810), (26, 0)], [(24657,
    0), (86, 0), (0, 4)]], 3, 4⟩, 68719476736, 234411616,
    3298042692866057281206875412961001120646148349920253954567173562940696425631718144420761042944, ⟨0, 6,
    176607039436526, [39181311816, 18274866, 11365]⟩⟩) (.sy (.leaf ⟨584, 25, 8, 234, 16, 112, ⟨[[], [(549755813888,
    0)]], 3, 4⟩, ⟨[[(0, 125904457250), (4009133356563, 0), (1755072499, 0), (335223673, 0), (1630200, 0)],
    [(96472152117, 0), (999649754, 0), (9720507, 0), (330396, 0), (3575, 0)], [(0, 31486228), (0, 296755), (0, 9205),
    (0, 31), (0, 1)], [(12846, 0), (0, 218), (5, 0)]], 3, 4⟩, 1099511627776, 0, 241233574, ⟨[[(72499955628559, 0),
    (0, 151770225756), (338564200, 0), (170417, 0), (0, 1877)], [(26641510314, 0), (0, 43381611), (0, 233772), (1681,
    0), (0, 1)], [(0, 20216478), (61960, 0), (0, 814), (5, 0)], [(18333, 0), (79, 0), (0, 1)]], 3, 4⟩, 68719476736,
    41264887, 1666338900765082228841200049022872378390349873601709450367000542034145856128300227119168880640, ⟨0, 6,
    310514742715641, [61963448654, 26525449, 15140]⟩⟩) (.leaf ⟨584, 25, 8, 249, 16, 109, ⟨[[], [(549755813888, 0)]],
    3, 4⟩, ⟨[[(37874563207, 0), (3958955609534, 0), (7941437986, 0), (362620782, 0), (709742, 0)], [(100138329119,
    0), (1122689961, 0), (15434844, 0), (288379, 0), (0, 9626)], [(0, 32711656), (0, 405458), (0, 11550), (0, 400),
    (0, 36)], [(11341, 0), (0, 190), (0, 3), (0, 1)]], 3, 4⟩, 1099511627776, 0, 265079250, ⟨[[(69346294668322, 0),
    (0, 140579287286), (362944195, 0), (0, 20812), (0, 2646)], [(25599126826, 0), (0, 52653944), (0, 134971), (1641,
    0), (0, 4)], [(0, 19196149), (35030, 0), (0, 473), (7, 0)], [(19506, 0), (29, 0), (0, 1)]], 3, 4⟩, 68719476736,
    34769054, 969262213312726046095693373295958670656356038839707398010213208053707985293448105656006835735, ⟨0, 6,
    302197383535758, [60303713422, 25814946, 14735]⟩⟩))) (.sx (.sy (.leaf ⟨536, 25, 8, 249, 16, 104, ⟨[[],
    [(549755813888, 0)]], 3, 4⟩, ⟨[[(322182804958, 0), (3779008352561, 0), (11976828878, 0), (338664382, 0),
    (1048963, 0)], [(109371111501, 0), (1370314236, 0), (21052690, 0), (120821, 0), (0, 10569)], [(0, 37194414), (0,
    486819), (0, 20063), (0, 1018), (0, 37)], [(12604, 0), (0, 423), (0, 25), (0, 1)]], 3, 4⟩, 1099511627776, 0,
    336253064, ⟨[[(66471912680550, 0), (0, 135416466504), (399114450, 0), (0, 231605), (0, 2885)], [(26907655147, 0),
    (0, 60607531), (0, 72929), (875, 0), (0, 7)], [(0, 22034102), (29922, 0), (0, 57), (8, 0)], [(25018, 0), (0, 28),
    (0, 1)]], 3, 4⟩, 68719476736, 43989018,
    1629051911889532031908076716752777163133498452765138399002759418076603338895370107215798105352, ⟨0, 6,
    282571263098441, [62690098905, 29239785, 18184]⟩⟩) (.sx (.leaf ⟨655, 16, 10, 304, 16, 118, ⟨[[], [(343597383680,
    0)]], 3, 4⟩, ⟨[[(0, 201976512810), (4449253095033, 0), (20453934872, 0), (471025877, 0), (7187623, 0)],
    [(68278062534, 0), (946931823, 0), (13525737, 0), (53205, 0), (1549, 0)], [(0, 11848887), (0, 227253), (0,
    11727), (0, 466), (0, 12)], [(1395, 0), (0, 128), (0, 8)]], 3, 4⟩, 1099511627776, 0, 113653776,
    ⟨[[(63737308498178, 0), (0, 105648790124), (295758890, 0), (0, 290582), (0, 1113)], [(21011314916, 0), (0,
    44787742), (0, 30023), (80, 0), (0, 3)], [(0, 14288654), (21976, 0), (212, 0), (3, 0)], [(13056, 0), (0, 34)]],
    3, 4⟩, 68719476736, 17083943,
    1680769111828832074366131501562442560093858219287725639136216119537142668920421436290498215263, ⟨0, 6,
    318883203331064, [36379031264, 8678204, 2760]⟩⟩) (.leaf ⟨685, 16, 10, 307, 16, 117, ⟨[[], [(343597383680, 0)]],
    3, 4⟩, ⟨[[(60592811419, 0), (4499494423655, 0), (21454179326, 0), (467617027, 0), (7164228, 0)], [(65479389250,
    0), (892166299, 0), (10968851, 0), (0, 42810), (0, 775)], [(0, 11389453), (0, 261350), (0, 13804), (0, 530), (0,
    12)], [(1123, 0), (0, 123), (0, 7)]], 3, 4⟩, 1099511627776, 0, 111487428, ⟨[[(63762798691161, 0), (0,
    104569016367), (294993941, 0), (0, 317474), (0, 969)], [(19942438538, 0), (0, 44110960), (0, 14288), (213, 0),
    (0, 4)], [(0, 13064808), (21690, 0), (245, 0), (4, 0)], [(11468, 0), (0, 33)]], 3, 4⟩, 68719476736, 20388891,
    3416310470663389055479206341374405064593437294014148535719630211673441633786232416309790268206, ⟨0, 6,
    319566634407300, [34490994197, 7867471, 2393]⟩⟩))) (.sy (.leaf ⟨584, 25, 8, 256, 16, 103, ⟨[[], [(549755813888,
    0)]], 3, 4⟩, ⟨[[(59433114534, 0), (3868160576369, 0), (13658345823, 0), (336263765, 0), (0, 325892)],
    [(101558939585, 0), (1253725059, 0), (16349939, 0), (0, 116160), (0, 18127)], [(0, 33737049), (0, 591054), (0,
    27078), (0, 1456), (0, 42)], [(9312, 0), (0, 335), (0, 26), (0, 2)]], 3, 4⟩, 1099511627776, 0, 270109109,
    ⟨[[(66439273081252, 0), (0, 132085931908), (396377940, 0), (0, 295871), (0, 3012)], [(24396869425, 0), (0,
    59664105), (0, 44338), (1457, 0), (0, 7)], [(0, 18582252), (25886, 0), (0, 0), (9, 0)], [(19549, 0), (0, 25), (0,
    1)]], 3, 4⟩, 68719476736, 44875622,
    2667298783391400607268556697668140529679756017220511481756040424361145556560970926447265511600, ⟨0, 6,
    285562665175992, [56984242959, 24393940, 13923]⟩⟩) (.sy (.sx (.leaf ⟨715, 16, 10, 527, 16, 201, ⟨[[],
    [(343597383680, 0)]], 3, 4⟩, ⟨[[(0, 549652272828), (3881286572412, 0), (8759844898, 0), (90714661, 0), (532068,
    0)], [(106654640829, 0), (698624141, 0), (3760061, 0), (0, 28917), (0, 267)], [(0, 18356208), (0, 216417), (0,
    5761), (0, 113), (0, 1)], [(1877, 0), (0, 83), (0, 3)]], 3, 4⟩, 1099511627776, 0, 33913420, ⟨[[(64374914746835,
    0), (0, 61709945771), (99953058, 0), (0, 60485), (0, 126)], [(19198632028, 0), (0, 24968035), (0, 296), (88, 0)],
    [(0, 12092862), (10968, 0), (71, 0), (1, 0)], [(10263, 0), (0, 16)]], 3, 4⟩, 68719476736, 3174409,
    3648110593791074904046229965741096016598515305381846815470591056800913229406303532559886992932, ⟨0, 6,
    554566409565780, [56767587544, 12405504, 3615]⟩⟩) (.out ⟨745, 16, 10, 528, 16, 198, ⟨[[], [(343597383680, 0)]],
    1, 1⟩, ⟨[[(0, 368400491161), (3887388106938, 0)], [(101639661079, 0), (645059408, 0)]], 1, 1⟩, 1099511627776, 0,
    164014881222, ⟨[], 0, 0⟩, 0, 0, 0, ⟨0, 6, 551548080390437, [53668485549]⟩⟩ 0 1 911)) (.out ⟨584, 26, 8, 404, 16,
    147, ⟨[[], [(549755813888, 0)]], 1, 1⟩, ⟨[[(305976472735, 0), (2948479931408, 0)], [(159541834310, 0),
    (1039872990, 0)]], 1, 1⟩, 1099511627776, 0, 316595063222, ⟨[], 0, 0⟩, 0, 0, 0, ⟨0, 6, 407550599814279,
    [81327026358]⟩⟩ 0 1 1552)))))
theorem c47 : checkC job ⟨6, 8, 7, 8, 9, 13⟩ 3 100 lims t47 256 48 4 3 3 64 = true := by decide +kernel

def t48 : CTree :=
  .sx (.sy (.sx (.sy (.leaf ⟨440, 25, 8, 347, 16, 137, ⟨[[], [(549755813888, 0)]], 3, 4⟩, ⟨[[(0, 86276727316),
    (2479754589251, 0), (6185857461, 0), (81028886, 0), (782805, 0)], [(190468210022, 0), (1445259970, 0), (13669751,
    0), (125717, 0), (1419, 0)], [(0, 67516792), (0, 344716), (0, 8782), (0, 197), (0, 7)], [(22157, 0), (0, 965),
    (0, 27), (0, 1)]], 3, 4⟩, 1099511627776, 0, 843622057, ⟨[[(61880479830226, 0), (0, 89377266290), (226659449, 0),
    (0, 158595), (0, 548)], [(30962122142, 0), (0, 53808310), (0, 70156), (0, 349), (0, 2)], [(0, 30628480), (45419,
    0), (281, 0), (2, 0)], [(40183, 0), (0, 96)]], 3, 4⟩, 68719476736, 71213272,
    2301126984209034561784906918938237728248483223860811846359352655781901616964599389784065579763, ⟨0, 6,
    354761449830404, [100600073050, 57159132, 43302]⟩⟩) (.sx (.leaf ⟨535, 16, 10, 479, 16, 184, ⟨[[], [(343597383680,
    0)]], 3, 4⟩, ⟨[[(0, 544688868858), (3390208072360, 0), (9983978689, 0), (132408047, 0), (1289429, 0)],
    [(136352708126, 0), (1104342290, 0), (11267569, 0), (111188, 0), (393, 0)], [(0, 23903258), (0, 127684), (0,
    3759), (0, 129), (0, 6)], [(3226, 0), (0, 226), (0, 8)]], 3, 4⟩, 1099511627776, 0, 83236681, ⟨[[(60669579930600,
    0), (0, 62826093573), (123523715, 0), (0, 70769), (0, 110)], [(24941958433, 0), (0, 33678577), (0, 39527), (0,
    146)], [(0, 20240754), (26186, 0), (118, 0)], [(21565, 0), (0, 39)]], 3, 4⟩, 68719476736, 5275520,
    3823815746319819775225141434329308717336519558919068523599533659030814864527711262643614113528, ⟨0, 6,
    473180193028091, [69450353999, 20283398, 7899]⟩⟩) (.out ⟨565, 16, 10, 482, 16, 181, ⟨[[], [(343597383680, 0)]],
    1, 1⟩, ⟨[[(240956707737, 0), (3437862603331, 0)], [(129690405592, 0), (1055895749, 0)]], 1, 1⟩, 1099511627776, 0,
    215997203028, ⟨[], 0, 0⟩, 0, 0, 0, ⟨0, 6, 471846541123739, [64690506247]⟩⟩ 0 1 882))) (.sy (.sy (.leaf ⟨488, 25,
    8, 485, 16, 185, ⟨[[], [(549755813888, 0)]], 3, 4⟩, ⟨[[(425885627737, 0), (1750664323038, 0), (2361514684, 0),
    (14456822, 0), (67686, 0)], [(237661966961, 0), (890283834, 0), (3670662, 0), (11269, 0), (1, 0)], [(0,
    83687508), (0, 394257), (0, 5286), (0, 61), (0, 1)], [(16802, 0), (0, 634), (0, 10)]], 3, 4⟩, 1099511627776, 0,
    758291771, ⟨[[(62215774951453, 0), (0, 64055490975), (119120484, 0), (0, 79343), (0, 117)], [(27660659698, 0),
    (0, 37917893), (0, 27786), (0, 85), (0, 1)], [(0, 25100124), (30079, 0), (187, 0), (1, 0)], [(30042, 0), (0,
    57)]], 3, 4⟩, 68719476736, 43725182,
    2529066220577836281890734447202391796517575957964424574850816361742773204071923832529607182875, ⟨0, 6,
    491435223041355, [122484832271, 62748377, 42861]⟩⟩) (.out ⟨488, 26, 8, 482, 16, 180, ⟨[[], [(549755813888, 0)]],
    1, 1⟩, ⟨[[(0, 393670778814), (1732498613713, 0)], [(236566921356, 0), (910244089, 0)]], 1, 1⟩, 1099511627776, 0,
    384759526417, ⟨[], 0, 0⟩, 0, 0, 0, ⟨0, 6, 478153189986184, [119174431398]⟩⟩ 0 1 999)) (.out ⟨488, 26, 8, 364, 16,
    132, ⟨[[], [(549755813888, 0)]], 1, 1⟩, ⟨[[(0, 274607325250), (2614616146294, 0)], [(179717837864, 0),
    (1436995254, 0)]], 1, 1⟩, 1099511627776, 0, 376030104969, ⟨[], 0, 0⟩, 0, 0, 0, ⟨0, 6, 350645672656535,
    [87394583026]⟩⟩ 0 1 1625))) (.sx (.out ⟨440, 26, 8, 232, 16, 83, ⟨[[], [(549755813888, 0)]], 1, 1⟩, ⟨[[(0,
    421915974794), (3310365985123, 0)], [(130667479615, 0), (2355994271, 0)]], 1, 1⟩, 1099511627776, 0, 555353439488,
    ⟨[], 0, 0⟩, 0, 0, 0, ⟨0, 6, 214928469605281, [60947489512]⟩⟩ 0 1 1921) (.sy (.out ⟨488, 26, 8, 361, 16, 126,
    ⟨[[], [(549755813888, 0)]], 1, 1⟩, ⟨[[(146325374722, 0), (2608696344307, 0)], [(180165427475, 0), (1497358571,
    0)]], 1, 1⟩, 1099511627776, 0, 398532150518, ⟨[], 0, 0⟩, 0, 0, 0, ⟨0, 6, 334707232990329, [83422101979]⟩⟩ 0 1
    2469) (.out ⟨488, 26, 8, 355, 16, 119, ⟨[[], [(549755813888, 0)]], 1, 1⟩, ⟨[[(0, 158178030166), (2592477124837,
    0)], [(178899684862, 0), (1487624509, 0)]], 1, 1⟩, 1099511627776, 0, 424249210412, ⟨[], 0, 0⟩, 0, 0, 0, ⟨0, 6,
    316112386713088, [78787540758]⟩⟩ 0 1 3397)))) (.sy (.out ⟨560, 50, 8, 195, 16, 68, ⟨[[], [(1099511627776, 0)]],
    1, 1⟩, ⟨[[(0, 13857755246), (2825812180255, 0)], [(162518722234, 0), (2239482395, 0)]], 1, 1⟩, 1099511627776, 0,
    800879505102, ⟨[], 0, 0⟩, 0, 0, 0, ⟨0, 6, 186682861847776, [78465958959]⟩⟩ 0 1 2490) (.sy (.sx (.out ⟨536, 26, 8,
    382, 16, 128, ⟨[[], [(549755813888, 0)]], 1, 1⟩, ⟨[[(282683402110, 0), (2782157088094, 0)], [(169452583758, 0),
    (1211610213, 0)]], 1, 1⟩, 1099511627776, 0, 398024167110, ⟨[], 0, 0⟩, 0, 0, 0, ⟨0, 6, 347780016121158,
    [77157044806]⟩⟩ 0 1 3406) (.out ⟨584, 26, 8, 406, 16, 131, ⟨[[], [(549755813888, 0)]], 1, 1⟩, ⟨[[(0,
    296125229334), (2947544465675, 0)], [(158970758477, 0), (839188666, 0)]], 1, 1⟩, 1099511627776, 0, 395280282748,
    ⟨[], 0, 0⟩, 0, 0, 0, ⟨0, 6, 363191350854902, [72475105122]⟩⟩ 0 1 4308)) (.out ⟨560, 50, 8, 266, 16, 84, ⟨[[],
    [(1099511627776, 0)]], 1, 1⟩, ⟨[[(0, 433038089), (1947014719443, 0)], [(220660445397, 0), (1109128903, 0)]], 1,
    1⟩, 1099511627776, 0, 993257077936, ⟨[], 0, 0⟩, 0, 0, 0, ⟨0, 6, 230608241106076, [96928537537]⟩⟩ 0 1 4838)))
theorem c48 : checkC job ⟨6, 8, 7, 8, 9, 13⟩ 3 100 lims t48 256 48 4 15 3 128 = true := by decide +kernel

def t49 : CTree :=
  .sy (.sx (.sx (.out ⟨535, 16, 10, 280, 16, 94, ⟨[[], [(343597383680, 0)]], 1, 1⟩, ⟨[[(290898329926, 0),
    (4118775825429, 0)], [(84428717904, 0), (1687544199, 0)]], 1, 1⟩, 1099511627776, 0, 590107351397, ⟨[], 0, 0⟩, 0,
    0, 0, ⟨0, 6, 241733359481742, [35480072152]⟩⟩ 0 1 3362) (.out ⟨565, 16, 10, 281, 16, 92, ⟨[[], [(343597383680,
    0)]], 1, 1⟩, ⟨[[(418949342375, 0), (4180943924797, 0)], [(79489938875, 0), (1459490032, 0)]], 1, 1⟩,
    1099511627776, 0, 587390301285, ⟨[], 0, 0⟩, 0, 0, 0, ⟨0, 6, 239833601013171, [32881362291]⟩⟩ 0 1 3956)) (.sy
    (.out ⟨488, 26, 8, 351, 16, 113, ⟨[[], [(549755813888, 0)]], 1, 1⟩, ⟨[[(0, 246405817501), (2603235843955, 0)],
    [(178327328549, 0), (1383848367, 0)]], 1, 1⟩, 1099511627776, 0, 467114012794, ⟨[], 0, 0⟩, 0, 0, 0, ⟨0, 6,
    300173947046882, [74815059711]⟩⟩ 0 1 4363) (.out ⟨488, 26, 8, 349, 16, 108, ⟨[[], [(549755813888, 0)]], 1, 1⟩,
    ⟨[[(263852407193, 0), (2640764893310, 0)], [(178041648160, 0), (1200918267, 0)]], 1, 1⟩, 1099511627776, 0,
    526146136071, ⟨[], 0, 0⟩, 0, 0, 0, ⟨0, 6, 286891913991710, [71504658839]⟩⟩ 0 1 5347))) (.sx (.sy (.out ⟨440, 26,
    8, 315, 16, 98, ⟨[[], [(549755813888, 0)]], 1, 1⟩, ⟨[[(0, 167868234067), (2428138488002, 0)], [(188150798645, 0),
    (1732058077, 0)]], 1, 1⟩, 1099511627776, 0, 553873702737, ⟨[], 0, 0⟩, 0, 0, 0, ⟨0, 6, 253770964112260,
    [71962096051]⟩⟩ 0 1 5212) (.sx (.sx (.out ⟨1055, 16, 20, 522, 16, 159, ⟨[[], [(343597383680, 0)]], 1, 1⟩,
    ⟨[[(447889673015, 0), (4154418534463, 0)], [(83972987173, 0), (821594939, 0)]], 1, 1⟩, 1099511627776, 0,
    347143858698, ⟨[], 0, 0⟩, 0, 0, 0, ⟨0, 6, 407438874783842, [30433723279]⟩⟩ 0 1 5752) (.out ⟨1085, 16, 20, 530,
    16, 159, ⟨[[], [(343597383680, 0)]], 1, 1⟩, ⟨[[(0, 397840149635), (4226893871394, 0)], [(81624292268, 0),
    (683879653, 0)]], 1, 1⟩, 1099511627776, 0, 342628469204, ⟨[], 0, 0⟩, 0, 0, 0, ⟨0, 6, 410319743414046,
    [29592237843]⟩⟩ 0 1 6147)) (.out ⟨565, 16, 10, 438, 16, 129, ⟨[[], [(343597383680, 0)]], 1, 1⟩, ⟨[[(192946781000,
    0), (3494863350706, 0)], [(126087570528, 0), (694790921, 0)]], 1, 1⟩, 1099511627776, 0, 410647978281, ⟨[], 0, 0⟩,
    0, 0, 0, ⟨0, 6, 336288418811947, [46105388430]⟩⟩ 0 1 6634))) (.sy (.out ⟨488, 26, 8, 347, 16, 103, ⟨[[],
    [(549755813888, 0)]], 1, 1⟩, ⟨[[(282122885402, 0), (2682529187972, 0)], [(176010573555, 0), (852542712, 0)]], 1,
    1⟩, 1099511627776, 0, 651160869652, ⟨[], 0, 0⟩, 0, 0, 0, ⟨0, 6, 273609880936538, [68194257967]⟩⟩ 0 1 6426) (.sx
    (.out ⟨595, 16, 10, 459, 16, 132, ⟨[[], [(343597383680, 0)]], 1, 1⟩, ⟨[[(233805548010, 0), (3614609257592, 0)],
    [(119294333274, 0), (117694784, 0)]], 1, 1⟩, 1099511627776, 0, 441526666619, ⟨[], 0, 0⟩, 0, 0, 0, ⟨0, 6,
    348521983381613, [44798903904]⟩⟩ 0 1 7277) (.sy (.out ⟨625, 16, 10, 728, 16, 207, ⟨[[], [(343597383680, 0)]], 1,
    1⟩, ⟨[[(97117388779, 0), (2806500518633, 0)], [(171844575663, 0), (0, 10873994)]], 1, 1⟩, 1099511627776, 0,
    330161156251, ⟨[], 0, 0⟩, 0, 0, 0, ⟨0, 6, 553125592609829, [66880690901]⟩⟩ 0 1 7588) (.sy (.out ⟨625, 16, 10,
    972, 16, 272, ⟨[[], [(343597383680, 0)]], 1, 1⟩, ⟨[[(0, 47014532601), (1888160790417, 0)], [(227405507763, 0),
    (578981702, 0)]], 1, 1⟩, 1099511627776, 0, 466634735782, ⟨[], 0, 0⟩, 0, 0, 0, ⟨0, 6, 726812372897940,
    [87881874034]⟩⟩ 0 1 8033) (.sx (.out ⟨1235, 16, 20, 1412, 16, 393, ⟨[[], [(343597383680, 0)]], 1, 1⟩,
    ⟨[[(116626598288, 0), (2796116332335, 0)], [(169940280292, 0), (942007939, 0)]], 1, 1⟩, 1099511627776, 0,
    293629259431, ⟨[], 0, 0⟩, 0, 0, 0, ⟨0, 6, 1047071129239489, [64259303732]⟩⟩ 0 1 8185) (.skip)))))))
theorem c49 : checkC job ⟨6, 8, 7, 8, 9, 13⟩ 3 100 lims t49 464 48 8 21 3 128 = true := by decide +kernel

def t50 : CTree :=
  .sx (.sy (.out ⟨536, 26, 8, 251, 16, 76, ⟨[[], [(549755813888, 0)]], 1, 1⟩, ⟨[[(0, 80538434144), (3734422468685,
    0)], [(109875558630, 0), (914337860, 0)]], 1, 1⟩, 1099511627776, 0, 764548001467, ⟨[], 0, 0⟩, 0, 0, 0, ⟨0, 6,
    206494384571938, [45811995354]⟩⟩ 0 1 5906) (.sx (.sy (.out ⟨655, 16, 10, 501, 16, 144, ⟨[[], [(343597383680,
    0)]], 1, 1⟩, ⟨[[(0, 247456885328), (3793740487329, 0)], [(110381555185, 0), (18888147, 0)]], 1, 1⟩,
    1099511627776, 0, 349383965328, ⟨[], 0, 0⟩, 0, 0, 0, ⟨0, 6, 389145604065027, [44394750017]⟩⟩ 0 1 7292) (.sy (.sy
    (.out ⟨655, 16, 10, 1038, 16, 291, ⟨[[], [(343597383680, 0)]], 1, 1⟩, ⟨[[(485601396976, 0), (1969794010551, 0)],
    [(223556140977, 0), (348788933, 0)]], 1, 1⟩, 1099511627776, 0, 406548530234, ⟨[], 0, 0⟩, 0, 0, 0, ⟨0, 6,
    786398408214741, [89714390660]⟩⟩ 0 1 7982) (.sx (.out ⟨1295, 16, 20, 1500, 16, 418, ⟨[[], [(343597383680, 0)]],
    1, 1⟩, ⟨[[(140312358126, 0), (2889400096307, 0)], [(165345818120, 0), (687479183, 0)]], 1, 1⟩, 1099511627776, 0,
    258668598353, ⟨[], 0, 0⟩, 0, 0, 0, ⟨0, 6, 1126492534142373, [65180387211]⟩⟩ 0 1 8151) (.skip))) (.skip))) (.sy
    (.sx (.out ⟨1355, 16, 20, 610, 16, 173, ⟨[[], [(343597383680, 0)]], 1, 1⟩, ⟨[[(67133360908, 0), (4552042358187,
    0)], [(62545970927, 0), (0, 61116871)]], 1, 1⟩, 1099511627776, 0, 327626731884, ⟨[], 0, 0⟩, 0, 0, 0, ⟨0, 6,
    471290866640220, [25782037199]⟩⟩ 0 1 7660) (.out ⟨1385, 16, 20, 619, 16, 174, ⟨[[], [(343597383680, 0)]], 1, 1⟩,
    ⟨[[(0, 25868592071), (4576430607096, 0)], [(60578482682, 0), (56011754, 0)]], 1, 1⟩, 1099511627776, 0,
    686825672256, ⟨[], 0, 0⟩, 0, 0, 0, ⟨0, 6, 476477316050279, [25369382568]⟩⟩ 0 1 7907)) (.skip)))) (.sy (.sy (.out
    ⟨584, 26, 8, 416, 16, 124, ⟨[[], [(549755813888, 0)]], 1, 1⟩, ⟨[[(0, 237411260464), (3027154087962, 0)],
    [(157321528064, 0), (349310970, 0)]], 1, 1⟩, 1099511627776, 0, 458899353485, ⟨[], 0, 0⟩, 0, 0, 0, ⟨0, 6,
    343784179435174, [68602389581]⟩⟩ 0 1 6316) (.out ⟨584, 26, 8, 422, 16, 121, ⟨[[], [(549755813888, 0)]], 1, 1⟩,
    ⟨[[(202613236405, 0), (3074740727338, 0)], [(154664974619, 0), (0, 92888383)]], 1, 1⟩, 1099511627776, 0,
    617874603388, ⟨[], 0, 0⟩, 0, 0, 0, ⟨0, 6, 335466820255291, [66942654349]⟩⟩ 0 1 7358)) (.sx (.sy (.sy (.out ⟨715,
    16, 10, 842, 16, 236, ⟨[[], [(343597383680, 0)]], 1, 1⟩, ⟨[[(0, 466010765621), (3071577395927, 0)],
    [(155541109605, 0), (55227440, 0)]], 1, 1⟩, 1099511627776, 0, 402093167985, ⟨[], 0, 0⟩, 0, 0, 0, ⟨0, 6,
    651132699788678, [66652490847]⟩⟩ 0 1 7988) (.skip)) (.skip)) (.skip)))
theorem c50 : checkC job ⟨6, 8, 7, 8, 9, 13⟩ 3 100 lims t50 560 48 8 21 3 128 = true := by decide +kernel

def t51 : CTree :=
  .sx (.sy (.sx (.leaf ⟨632, 25, 8, 242, 16, 112, ⟨[[], [(549755813888, 0)]], 3, 4⟩, ⟨[[(59773435759, 0),
    (4102177473012, 0), (2609779088, 0), (366372161, 0), (1958491, 0)], [(90751468788, 0), (936884185, 0), (8169736,
    0), (315210, 0), (3203, 0)], [(0, 28250308), (0, 355614), (0, 6578), (0, 136), (0, 3)], [(9796, 0), (0, 188),
    (13, 0)]], 3, 4⟩, 1099511627776, 0, 186059914, ⟨[[(72525399197807, 0), (0, 148448728087), (330882360, 0),
    (197800, 0), (0, 2159)], [(24501662456, 0), (0, 41552935), (0, 267943), (2163, 0)], [(0, 17396430), (59733, 0),
    (0, 853), (5, 0)], [(14276, 0), (74, 0), (0, 1)]], 3, 4⟩, 68719476736, 33536393,
    1861655259831635116998427286899586065729366900167734906063115596254171015466865806503638466560, ⟨0, 6,
    316231395338643, [57257363946, 22649274, 11946]⟩⟩) (.leaf ⟨680, 25, 8, 250, 16, 112, ⟨[[], [(549755813888, 0)]],
    3, 4⟩, ⟨[[(0, 276401459704), (4188682574518, 0), (3346959217, 0), (394914864, 0), (2231041, 0)], [(85576306525,
    0), (863746409, 0), (7349345, 0), (273892, 0), (2387, 0)], [(0, 25763188), (0, 404282), (0, 1536), (0, 309), (0,
    6)], [(7592, 0), (0, 148), (22, 0), (0, 1)]], 3, 4⟩, 1099511627776, 0, 147244293, ⟨[[(72480863015048, 0), (0,
    145186614994), (322613703, 0), (241163, 0), (0, 2400)], [(22617655602, 0), (0, 40498568), (0, 292729), (2698,
    0)], [(0, 15105075), (55589, 0), (0, 872), (6, 0)], [(11250, 0), (59, 0), (0, 1)]], 3, 4⟩, 68719476736, 29199989,
    1830325078625098228572045235685785180037904346193086588082671202769881899367641814270732140544, ⟨0, 6,
    321529367846715, [53215667668, 19564584, 9590]⟩⟩)) (.sx (.leaf ⟨632, 25, 8, 258, 16, 109, ⟨[[], [(549755813888,
    0)]], 3, 4⟩, ⟨[[(0, 536527655809), (4062849221642, 0), (9314766126, 0), (385830406, 0), (0, 582611)],
    [(94145091060, 0), (1040437939, 0), (13163115, 0), (186244, 0), (0, 17738)], [(0, 29840768), (0, 446707), (0,
    11960), (0, 679), (0, 49)], [(8775, 0), (0, 94), (0, 0), (0, 1)]], 3, 4⟩, 1099511627776, 0, 240106214,
    ⟨[[(69274460078494, 0), (0, 136618315784), (355851967, 0), (0, 28599), (0, 2860)], [(23425229675, 0), (0,
    51901435), (0, 128314), (2189, 0), (0, 3)], [(0, 16401788), (30425, 0), (0, 459), (7, 0)], [(15389, 0), (23, 0),
    (0, 1)]], 3, 4⟩, 68719476736, 24291619,
    1467918675593528164096952332420930782291776587463230139015567380174526622721122327884624137568, ⟨0, 6,
    307760911534929, [55723684555, 22042597, 11626]⟩⟩) (.leaf ⟨680, 25, 8, 263, 16, 108, ⟨[[], [(549755813888, 0)]],
    3, 4⟩, ⟨[[(58123294253, 0), (4120402879789, 0), (10372824063, 0), (392705236, 0), (0, 2762127)], [(87827996258,
    0), (944309395, 0), (10792870, 0), (19970, 0), (0, 28452)], [(0, 27317863), (0, 454169), (0, 11484), (0, 1064),
    (0, 65)], [(7048, 0), (14, 0), (2, 0), (0, 2)]], 3, 4⟩, 1099511627776, 0, 241252588, ⟨[[(69348213496768, 0), (0,
    135082971584), (356102720, 0), (4711, 0), (0, 3073)], [(21576997987, 0), (0, 51478936), (0, 118699), (2902, 0),
    (0, 3)], [(0, 14220245), (26531, 0), (0, 463), (8, 0)], [(12072, 0), (13, 0), (0, 1)]], 3, 4⟩, 68719476736,
    21959764, 3142649675802551561190155969515802233760673224188045882144582890329184979958691472288693088440, ⟨0, 6,
    310046176137904, [51315108108, 18865849, 9248]⟩⟩))) (.sy (.sx (.leaf ⟨728, 25, 8, 257, 16, 112, ⟨[[],
    [(549755813888, 0)]], 3, 4⟩, ⟨[[(11235544362, 0), (4267756291723, 0), (4060037266, 0), (417583677, 0), (2396531,
    0)], [(80823647869, 0), (782487322, 0), (7755195, 0), (189255, 0), (936, 0)], [(0, 23821120), (0, 439715), (6241,
    0), (0, 595), (0, 10)], [(5976, 0), (0, 97), (32, 0), (0, 1)]], 3, 4⟩, 1099511627776, 0, 132201483,
    ⟨[[(72519039096884, 0), (0, 142652670075), (313793030, 0), (315047, 0), (0, 2556)], [(20977492060, 0), (0,
    39647958), (0, 314566), (3286, 0), (1, 0)], [(0, 13296136), (50443, 0), (0, 886), (6, 0)], [(8767, 0), (39, 0),
    (0, 1)]], 3, 4⟩, 68719476736, 24782134,
    2963591786487220047225024608354131721863558405787577459295525813875993191825217280122332119040, ⟨0, 7,
    326465824535932, [49706942327, 17069692, 7816]⟩⟩) (.sy (.leaf ⟨776, 25, 8, 428, 16, 186, ⟨[[], [(549755813888,
    0)]], 3, 4⟩, ⟨[[(440247437294, 0), (3592900949610, 0), (1243622251, 0), (86017795, 0), (233088, 0)],
    [(125187444410, 0), (553313832, 0), (4061451, 0), (6261, 0), (186, 0)], [(0, 35790045), (0, 429201), (8947, 0),
    (0, 206), (0, 1)], [(8192, 0), (0, 147), (21, 0)]], 3, 4⟩, 1099511627776, 0, 122137624, ⟨[[(73392324282232, 0),
    (0, 86714226519), (107905704, 0), (104679, 0), (0, 325)], [(19730934363, 0), (0, 21163349), (0, 144003), (844,
    0)], [(0, 12167091), (32240, 0), (0, 360), (1, 0)], [(6467, 0), (13, 0)]], 3, 4⟩, 68719476736, 13865213,
    3495350979096591908538099430343242519286219365678077784616036662182447586792436281128549089280, ⟨0, 7,
    549840855555407, [77442903703, 24949389, 10717]⟩⟩) (.leaf ⟨776, 25, 8, 441, 16, 183, ⟨[[], [(549755813888, 0)]],
    3, 4⟩, ⟨[[(0, 178329698812), (3558984520348, 0), (2798351147, 0), (89804762, 0), (91991, 0)], [(126579930543, 0),
    (593047357, 0), (4098818, 0), (202, 0), (0, 1091)], [(0, 37474673), (0, 339502), (4875, 0), (0, 244), (0, 3)],
    [(7860, 0), (63, 0), (14, 0)]], 3, 4⟩, 1099511627776, 0, 131395264, ⟨[[(71683107261756, 0), (0, 83579150167),
    (117173689, 0), (80569, 0), (0, 383)], [(19250923939, 0), (0, 26367667), (0, 95052), (910, 0)], [(0, 11651012),
    (19669, 0), (0, 284), (2, 0)], [(6609, 0), (1, 0)]], 3, 4⟩, 68719476736, 14308234,
    1794937034603649887982206905120318946790733023829236722831213802113695439972146315878516251860, ⟨0, 7,
    540972454659352, [76193824611, 24546980, 10544]⟩⟩))) (.sy (.leaf ⟨752, 49, 8, 318, 16, 128, ⟨[[],
    [(1099511627776, 0)]], 3, 4⟩, ⟨[[(0, 33357075032), (2497556530460, 0), (2946268066, 0), (60238972, 0), (0,
    332206)], [(187630328156, 0), (939595242, 0), (5228193, 0), (0, 43261), (0, 5238)], [(0, 113802946), (0, 932419),
    (0, 3582), (0, 872), (0, 22)], [(51436, 0), (731, 0), (26, 0), (0, 3)]], 3, 4⟩, 1099511627776, 0, 1687532822,
    ⟨[[(70105327870556, 0), (0, 113876224515), (247949280, 0), (112925, 0), (0, 1589)], [(19436671308, 0), (0,
    41570349), (0, 97778), (2430, 0), (0, 1)], [(0, 11950062), (18821, 0), (0, 396), (5, 0)], [(7844, 0), (0, 4), (0,
    1)]], 3, 4⟩, 68719476736, 560630544,
    2415667192315465385444538749610702848776540018757519683148507732201022300884927294070762801550, ⟨0, 7,
    375786597415985, [109989829830, 73131536, 64833]⟩⟩) (.sx (.sy (.leaf ⟨728, 25, 8, 640, 16, 253, ⟨[[],
    [(549755813888, 0)]], 3, 4⟩, ⟨[[(442200331309, 0), (2474071005203, 0), (1778165685, 0), (13267600, 0), (0,
    70482)], [(195409205459, 0), (510099623, 0), (1167290, 0), (0, 13581), (0, 444)], [(0, 60394492), (0, 265715),
    (0, 2164), (0, 68), (0, 1)], [(14316, 0), (70, 0), (0, 1)]], 3, 4⟩, 1099511627776, 0, 230733266,
    ⟨[[(68986249698228, 0), (0, 55634436986), (64186797, 0), (2833, 0), (0, 98)], [(19776189361, 0), (0, 21848816),
    (0, 10793), (280, 0)], [(0, 12463286), (7831, 0), (0, 65), (1, 0)], [(9156, 0), (0, 4)]], 3, 4⟩, 68719476736,
    14382529, 1798675377807085055462065501547907265540177360027186362095012488631840063924325151123138452727, ⟨0, 7,
    737462978639204, [112284432221, 38559214, 17655]⟩⟩) (.sx (.leaf ⟨895, 16, 10, 894, 16, 348, ⟨[[], [(343597383680,
    0)]], 3, 4⟩, ⟨[[(0, 529565165860), (3416821245782, 0), (2720998279, 0), (16278931, 0), (0, 112296)],
    [(138590556881, 0), (369122891, 0), (679910, 0), (0, 14531), (0, 326)], [(0, 21716853), (0, 104262), (0, 1175),
    (0, 28)], [(2590, 0), (7, 0)]], 3, 4⟩, 1099511627776, 0, 22393555, ⟨[[(68202640462019, 0), (0, 39325597846),
    (33952793, 0), (0, 1598), (0, 25)], [(15887564838, 0), (0, 12880274), (0, 638), (80, 0)], [(0, 8148011), (3265,
    0), (0, 13)], [(5019, 0), (0, 3)]], 3, 4⟩, 68719476736, 956376,
    3205778716996243056781113086499680348408342909058587902579540210261797315416224283069723329636, ⟨0, 6,
    1010638347319037, [78517530407, 13707669, 3191]⟩⟩) (.out ⟨925, 16, 10, 895, 16, 344, ⟨[[], [(343597383680, 0)]],
    1, 1⟩, ⟨[[(34741491250, 0), (3411633254508, 0)], [(132945493112, 0), (345325187, 0)]], 1, 1⟩, 1099511627776, 0,
    106510065955, ⟨[], 0, 0⟩, 0, 0, 0, ⟨0, 7, 1006350701904990, [75097785840]⟩⟩ 0 1 401))) (.sy (.sy (.leaf ⟨776, 25,
    8, 873, 16, 338, ⟨[[], [(549755813888, 0)]], 3, 4⟩, ⟨[[(110252726324, 0), (1680070203424, 0), (607012690, 0),
    (1994496, 0), (0, 9290)], [(245157233359, 0), (306701942, 0), (285350, 0), (0, 4327), (0, 49)], [(0, 74975713),
    (0, 154432), (0, 671), (0, 16)], [(17177, 0), (83, 0)]], 3, 4⟩, 1099511627776, 0, 241340919, ⟨[[(69156630298158,
    0), (0, 41129568975), (35920206, 0), (5281, 0), (0, 29)], [(18349810687, 0), (0, 16048875), (0, 2470), (144, 0)],
    [(0, 11260728), (3644, 0), (0, 35)], [(6342, 0), (0, 10)]], 3, 4⟩, 68719476736, 12255500,
    2080675703095272908801898602998556334780514430102568557499908211562181731904734396772612951915, ⟨0, 7,
    999173167622191, [140729577696, 45338137, 19475]⟩⟩) (.out ⟨776, 26, 8, 867, 16, 332, ⟨[[], [(549755813888, 0)]],
    1, 1⟩, ⟨[[(0, 410457592714), (1657604675750, 0)], [(242621984065, 0), (304119662, 0)]], 1, 1⟩, 1099511627776, 0,
    290281208746, ⟨[], 0, 0⟩, 0, 0, 0, ⟨0, 7, 981436365830081, [138231419512]⟩⟩ 0 1 478)) (.out ⟨776, 26, 8, 671, 16,
    253, ⟨[[], [(549755813888, 0)]], 1, 1⟩, ⟨[[(0, 234070303716), (2544204768532, 0)], [(186984062046, 0),
    (466554899, 0)]], 1, 1⟩, 1099511627776, 0, 241923462588, ⟨[], 0, 0⟩, 0, 0, 0, ⟨0, 7, 747901808900634,
    [105339003423]⟩⟩ 0 1 798)))))
theorem c51 : checkC job ⟨6, 8, 7, 8, 9, 13⟩ 3 100 lims t51 352 48 4 3 3 128 = true := by decide +kernel

def t52 : CTree :=
  .sx (.sy (.sx (.sy (.leaf ⟨632, 25, 8, 415, 16, 165, ⟨[[], [(549755813888, 0)]], 3, 4⟩, ⟨[[(319032762579, 0),
    (3155872717660, 0), (5415603373, 0), (65479967, 0), (0, 298749)], [(150016188062, 0), (879424911, 0), (4821268,
    0), (0, 54920), (0, 2913)], [(0, 48709717), (0, 466512), (0, 10678), (0, 332), (0, 5)], [(12458, 0), (0, 137),
    (0, 8)]], 3, 4⟩, 1099511627776, 0, 261649453, ⟨[[(67160385219941, 0), (0, 82703428006), (152772116, 0), (0,
    59513), (0, 482)], [(22562440912, 0), (0, 35935110), (0, 12407), (552, 0), (0, 1)], [(0, 15998311), (14238, 0),
    (0, 37), (2, 0)], [(15457, 0), (0, 9)]], 3, 4⟩, 68719476736, 23306242,
    2849535134804205554944988169939893258165557122493584170498461924214913451070019302936484751419, ⟨0, 6,
    465876609204251, [84352366528, 33367234, 17599]⟩⟩) (.sx (.sy (.leaf ⟨775, 16, 10, 840, 16, 326, ⟨[[],
    [(343597383680, 0)]], 3, 4⟩, ⟨[[(0, 503645034621), (3147491161913, 0), (3046199145, 0), (15577937, 0), (0,
    15819)], [(154638844166, 0), (467316156, 0), (1105229, 0), (0, 10371), (0, 132)], [(0, 25643160), (0, 140107),
    (0, 1829), (0, 24)], [(3014, 0), (0, 31), (0, 1)]], 3, 4⟩, 1099511627776, 0, 35149784, ⟨[[(66067676129064, 0),
    (0, 40079389870), (38588300, 0), (0, 10841), (0, 26)], [(18067305336, 0), (0, 14726680), (559, 0), (47, 0)], [(0,
    10510387), (4842, 0), (9, 0)], [(8304, 0), (0, 6)]], 3, 4⟩, 68719476736, 1323330,
    2905178779558367170648008884638763396076528317376499013629327915295987563126379090671074149269, ⟨0, 6,
    916420943402417, [84942750638, 17125555, 4604]⟩⟩) (.out ⟨775, 16, 10, 831, 16, 316, ⟨[[], [(343597383680, 0)]],
    1, 1⟩, ⟨[[(0, 508365844702), (3087996931435, 0)], [(152649450491, 0), (464650008, 0)]], 1, 1⟩, 1099511627776, 0,
    132969856774, ⟨[], 0, 0⟩, 0, 0, 0, ⟨0, 6, 888309871518907, [82337144790]⟩⟩ 0 1 621)) (.out ⟨805, 16, 10, 539, 16,
    204, ⟨[[], [(343597383680, 0)]], 1, 1⟩, ⟨[[(151836585316, 0), (4017710675200, 0)], [(94566615930, 0), (555160403,
    0)]], 1, 1⟩, 1099511627776, 0, 147900967612, ⟨[], 0, 0⟩, 0, 0, 0, ⟨0, 6, 578472397665155, [51173451495]⟩⟩ 0 1
    719))) (.sy (.sy (.sx (.leaf ⟨835, 16, 10, 864, 16, 339, ⟨[[], [(343597383680, 0)]], 3, 4⟩, ⟨[[(0, 44472574204),
    (3287297737197, 0), (2788297575, 0), (16151083, 0), (0, 68338)], [(145851388805, 0), (411049704, 0), (922537, 0),
    (0, 11042), (0, 242)], [(0, 23359181), (0, 116865), (0, 1377), (0, 24)], [(2856, 0), (0, 7)]], 3, 4⟩,
    1099511627776, 0, 27867891, ⟨[[(67492754816122, 0), (0, 40056779700), (35903800, 0), (0, 5493), (0, 27)],
    [(17018871193, 0), (0, 13652117), (0, 966), (65, 0)], [(0, 9214611), (3968, 0), (0, 7)], [(6580, 0), (0, 3)]], 3,
    4⟩, 68719476736, 1099147,
    2316040780002770363593694779612907069287867430640797372122683265156589764635187949911459510916, ⟨0, 6,
    969300243048442, [81982969624, 15341125, 3828]⟩⟩) (.sy (.leaf ⟨865, 16, 10, 1255, 16, 488, ⟨[[], [(343597383680,
    0)]], 3, 4⟩, ⟨[[(246567405362, 0), (2387591447469, 0), (1006101652, 0), (2773223, 0), (0, 8260)], [(202775420191,
    0), (278129666, 0), (256725, 0), (0, 2588), (0, 25)], [(0, 32230454), (0, 81971), (0, 502), (0, 5)], [(3859, 0),
    (0, 1)]], 3, 4⟩, 1099511627776, 0, 34558812, ⟨[[(67681230617638, 0), (0, 27719515770), (17264983, 0), (0, 1423),
    (0, 6)], [(16378114974, 0), (0, 9330160), (99, 0), (25, 0)], [(0, 8629791), (2500, 0), (0, 4)], [(5766, 0), (0,
    2)]], 3, 4⟩, 68719476736, 729050,
    2826139598646953127127298066227944070917316353952573898401923268344053008507786015010763234158, ⟨0, 6,
    1406465695475841, [113923714639, 20578706, 4956]⟩⟩) (.out ⟨865, 16, 10, 1242, 16, 478, ⟨[[], [(343597383680,
    0)]], 1, 1⟩, ⟨[[(326837091860, 0), (2350777528855, 0)], [(200263241056, 0), (275152776, 0)]], 1, 1⟩,
    1099511627776, 0, 133172350066, ⟨[], 0, 0⟩, 0, 0, 0, ⟨0, 6, 1377644677125926, [111589212290]⟩⟩ 0 1 375))) (.out
    ⟨680, 26, 8, 613, 16, 234, ⟨[[], [(549755813888, 0)]], 1, 1⟩, ⟨[[(269058437142, 0), (2307089252286, 0)],
    [(201629629408, 0), (562644882, 0)]], 1, 1⟩, 1099511627776, 0, 279431433036, ⟨[], 0, 0⟩, 0, 0, 0, ⟨0, 6,
    671766714965458, [111182734234]⟩⟩ 0 1 542)) (.out ⟨680, 26, 8, 435, 16, 161, ⟨[[], [(549755813888, 0)]], 1, 1⟩,
    ⟨[[(42704035122, 0), (3230541661921, 0)], [(142235137825, 0), (780934232, 0)]], 1, 1⟩, 1099511627776, 0,
    257779049725, ⟨[], 0, 0⟩, 0, 0, 0, ⟨0, 6, 462198466279653, [76497522272]⟩⟩ 0 1 1188))) (.out ⟨656, 50, 8, 215,
    16, 76, ⟨[[], [(1099511627776, 0)]], 1, 1⟩, ⟨[[(0, 49613345851), (3135439345016, 0)], [(145858449261, 0),
    (1570707294, 0)]], 1, 1⟩, 1099511627776, 0, 652727621874, ⟨[], 0, 0⟩, 0, 0, 0, ⟨0, 6, 216416005000848,
    [74863504602]⟩⟩ 0 1 2186)) (.sy (.out ⟨752, 50, 8, 229, 16, 83, ⟨[[], [(1099511627776, 0)]], 1, 1⟩, ⟨[[(0,
    252513918897), (3394891285428, 0)], [(131236456936, 0), (1252739799, 0)]], 1, 1⟩, 1099511627776, 0, 522189195234,
    ⟨[], 0, 0⟩, 0, 0, 0, ⟨0, 7, 243674121761928, [71321530280]⟩⟩ 0 1 1637) (.out ⟨752, 50, 8, 236, 16, 79, ⟨[[],
    [(1099511627776, 0)]], 1, 1⟩, ⟨[[(0, 258930182353), (3374917426824, 0)], [(130960639260, 0), (768483749, 0)]], 1,
    1⟩, 1099511627776, 0, 603882520305, ⟨[], 0, 0⟩, 0, 0, 0, ⟨0, 7, 231930790592678, [67884348098]⟩⟩ 0 1 3430))
theorem c52 : checkC job ⟨6, 8, 7, 8, 9, 13⟩ 3 100 lims t52 352 48 4 9 3 128 = true := by decide +kernel

def t53 : CTree :=
  .sy (.sy (.sx (.out ⟨632, 26, 8, 274, 16, 91, ⟨[[], [(549755813888, 0)]], 1, 1⟩, ⟨[[(422017864391, 0),
    (3959488090311, 0)], [(96579967833, 0), (957248404, 0)]], 1, 1⟩, 1099511627776, 0, 457385768862, ⟨[], 0, 0⟩, 0,
    0, 0, ⟨0, 6, 256938008712647, [46521608206]⟩⟩ 0 1 3615) (.out ⟨680, 26, 8, 286, 16, 92, ⟨[[], [(549755813888,
    0)]], 1, 1⟩, ⟨[[(0, 472551923951), (4077934466254, 0)], [(89569037437, 0), (601456483, 0)]], 1, 1⟩,
    1099511627776, 0, 425423151117, ⟨[], 0, 0⟩, 0, 0, 0, ⟨0, 6, 264113409302659, [43712869870]⟩⟩ 0 1 4383)) (.sx (.sx
    (.out ⟨775, 16, 10, 320, 16, 99, ⟨[[], [(343597383680, 0)]], 1, 1⟩, ⟨[[(495461106909, 0), (4610568794424, 0)],
    [(56446776921, 0), (307835314, 0)]], 1, 1⟩, 1099511627776, 0, 380672172931, ⟨[], 0, 0⟩, 0, 0, 0, ⟨0, 6,
    278299611646746, [25795497893]⟩⟩ 0 1 5353) (.out ⟨805, 16, 10, 329, 16, 100, ⟨[[], [(343597383680, 0)]], 1, 1⟩,
    ⟨[[(0, 510741830023), (4680358983625, 0)], [(54049486263, 0), (177879826, 0)]], 1, 1⟩, 1099511627776, 0,
    368839716776, ⟨[], 0, 0⟩, 0, 0, 0, ⟨0, 6, 283564900816252, [25085025243]⟩⟩ 0 1 5806)) (.out ⟨680, 26, 8, 295, 16,
    88, ⟨[[], [(549755813888, 0)]], 1, 1⟩, ⟨[[(103548920216, 0), (4131280623036, 0)], [(87696436197, 0), (49150153,
    0)]], 1, 1⟩, 1099511627776, 0, 563538706284, ⟨[], 0, 0⟩, 0, 0, 0, ⟨0, 6, 252630217593847, [41812310310]⟩⟩ 0 1
    6295))) (.sy (.sx (.sy (.out ⟨632, 26, 8, 453, 16, 131, ⟨[[], [(549755813888, 0)]], 1, 1⟩, ⟨[[(0, 95914762171),
    (3216375530553, 0)], [(146956639146, 0), (3053226, 0)]], 1, 1⟩, 1099511627776, 0, 495510482760, ⟨[], 0, 0⟩, 0, 0,
    0, ⟨0, 6, 369877792762163, [66970666758]⟩⟩ 0 1 7126) (.sy (.sx (.out ⟨775, 16, 10, 901, 16, 255, ⟨[[],
    [(343597383680, 0)]], 1, 1⟩, ⟨[[(235451953295, 0), (3198686009131, 0)], [(146904390559, 0), (0, 266987272)]], 1,
    1⟩, 1099511627776, 0, 221897366621, ⟨[], 0, 0⟩, 0, 0, 0, ⟨0, 6, 716832333029498, [66442949118]⟩⟩ 0 1 7717) (.out
    ⟨805, 16, 10, 949, 16, 265, ⟨[[], [(343597383680, 0)]], 1, 1⟩, ⟨[[(423120284897, 0), (3281533215958, 0)],
    [(141036781937, 0), (0, 618670013)]], 1, 1⟩, 1099511627776, 0, 251612847204, ⟨[], 0, 0⟩, 0, 0, 0, ⟨0, 6,
    751446987163068, [66475316893]⟩⟩ 0 1 8093)) (.sx (.out ⟨775, 16, 10, 919, 16, 255, ⟨[[], [(343597383680, 0)]], 1,
    1⟩, ⟨[[(0, 281274125783), (3238122437311, 0)], [(145211877574, 0), (34592035, 0)]], 1, 1⟩, 1099511627776, 0,
    541194481539, ⟨[], 0, 0⟩, 0, 0, 0, ⟨0, 6, 716832333029498, [66442949118]⟩⟩ 0 1 8272) (.skip)))) (.sy (.sx (.out
    ⟨835, 16, 10, 600, 16, 170, ⟨[[], [(343597383680, 0)]], 1, 1⟩, ⟨[[(0, 377570297249), (4149364746144, 0)],
    [(86454788994, 0), (0, 414943127)]], 1, 1⟩, 1099511627776, 0, 300061981003, ⟨[], 0, 0⟩, 0, 0, 0, ⟨0, 6,
    486079767900399, [41112403646]⟩⟩ 0 1 7686) (.out ⟨865, 16, 10, 621, 16, 174, ⟨[[], [(343597383680, 0)]], 1, 1⟩,
    ⟨[[(235768012021, 0), (4180288835254, 0)], [(82036894801, 0), (0, 1007220413)]], 1, 1⟩, 1099511627776, 0,
    514912464033, ⟨[], 0, 0⟩, 0, 0, 0, ⟨0, 6, 501485719288517, [40620340876]⟩⟩ 0 1 7997)) (.skip))) (.skip))
theorem c53 : checkC job ⟨6, 8, 7, 8, 9, 13⟩ 3 100 lims t53 656 48 8 9 3 64 = true := by decide +kernel

def t54 : CTree :=
  .sy (.sy (.out ⟨752, 50, 8, 245, 16, 76, ⟨[[], [(1099511627776, 0)]], 1, 1⟩, ⟨[[(0, 32020931216), (3415218324844,
    0)], [(129229600006, 0), (371688485, 0)]], 1, 1⟩, 1099511627776, 0, 727967788623, ⟨[], 0, 0⟩, 0, 0, 0, ⟨0, 7,
    223123292215741, [65306461461]⟩⟩ 0 1 5286) (.sy (.sx (.out ⟨728, 26, 8, 499, 16, 148, ⟨[[], [(549755813888, 0)]],
    1, 1⟩, ⟨[[(91909192722, 0), (3433903489847, 0)], [(132706515947, 0), (0, 89455409)]], 1, 1⟩, 1099511627776, 0,
    315812047786, ⟨[], 0, 0⟩, 0, 0, 0, ⟨0, 7, 431401268136768, [65684173789]⟩⟩ 0 1 6447) (.out ⟨776, 26, 8, 531, 16,
    154, ⟨[[], [(549755813888, 0)]], 1, 1⟩, ⟨[[(0, 262544830921), (3549036680377, 0)], [(124202609155, 0), (0,
    397137814)]], 1, 1⟩, 1099511627776, 0, 341407211388, ⟨[], 0, 0⟩, 0, 0, 0, ⟨0, 7, 455244579330821, [64119393388]⟩⟩
    0 1 7048)) (.sx (.out ⟨728, 26, 8, 511, 16, 146, ⟨[[], [(549755813888, 0)]], 1, 1⟩, ⟨[[(0, 8837271876),
    (3448813818996, 0)], [(129416788912, 0), (0, 442120721)]], 1, 1⟩, 1099511627776, 0, 430756534252, ⟨[], 0, 0⟩, 0,
    0, 0, ⟨0, 7, 425571521270055, [64796549819]⟩⟩ 0 1 7456) (.sx (.out ⟨955, 16, 10, 658, 16, 185, ⟨[[],
    [(343597383680, 0)]], 1, 1⟩, ⟨[[(0, 244524575718), (4334222776697, 0)], [(75543091172, 0), (0, 16262071)]], 1,
    1⟩, 1099511627776, 0, 281570463964, ⟨[], 0, 0⟩, 0, 0, 0, ⟨0, 7, 545021642194774, [39118192505]⟩⟩ 0 1 7901) (.out
    ⟨985, 16, 10, 650, 16, 181, ⟨[[], [(343597383680, 0)]], 1, 1⟩, ⟨[[(0, 69889402224), (4301046656412, 0)],
    [(73158741630, 0), (1645241995, 0)]], 1, 1⟩, 1099511627776, 0, 820589438768, ⟨[], 0, 0⟩, 0, 0, 0, ⟨0, 7,
    536855011904316, [37106737086]⟩⟩ 0 1 8171))))) (.sx (.sy (.sx (.sy (.sy (.out ⟨895, 16, 10, 1041, 16, 291, ⟨[[],
    [(343597383680, 0)]], 1, 1⟩, ⟨[[(88273577098, 0), (3444682070913, 0)], [(129191722400, 0), (0, 861985558)]], 1,
    1⟩, 1099511627776, 0, 298517693315, ⟨[], 0, 0⟩, 0, 0, 0, ⟨0, 6, 845102755947815, [65656900427]⟩⟩ 0 1 8063)
    (.skip)) (.skip)) (.skip)) (.skip)) (.skip))
theorem c54 : checkC job ⟨6, 8, 7, 8, 9, 13⟩ 3 100 lims t54 752 48 8 9 3 64 = true := by decide +kernel

def t55 : CTree :=
  .sx (.sy (.sx (.sy (.sy (.sx (.sx (.sy (.out ⟨535, 16, 10, 415, 16, 120, ⟨[[], [(343597383680, 0)]], 1, 1⟩, ⟨[[(0,
    10808627921), (3415983359066, 0)], [(130426913041, 0), (528225300, 0)]], 1, 1⟩, 1099511627776, 0, 496902066210,
    ⟨[], 0, 0⟩, 0, 0, 0, ⟨0, 6, 308595778061799, [45293709130]⟩⟩ 0 1 7128) (.sy (.sy (.out ⟨535, 16, 10, 783, 16,
    220, ⟨[[], [(343597383680, 0)]], 1, 1⟩, ⟨[[(0, 415364501985), (1637539542625, 0)], [(242901452353, 0),
    (542588027, 0)]], 1, 1⟩, 1099511627776, 0, 521066740401, ⟨[], 0, 0⟩, 0, 0, 0, ⟨0, 6, 565758926446631,
    [83038466738]⟩⟩ 0 1 7920) (.out ⟨535, 16, 10, 763, 16, 212, ⟨[[], [(343597383680, 0)]], 1, 1⟩, ⟨[[(0,
    86331224394), (1639731661304, 0)], [(239988530440, 0), (1645035338, 0)]], 1, 1⟩, 1099511627776, 0, 746751851521,
    ⟨[], 0, 0⟩, 0, 0, 0, ⟨0, 6, 545185874575844, [80018886129]⟩⟩ 0 1 8233)) (.sx (.sy (.out ⟨1055, 16, 20, 1132, 16,
    313, ⟨[[], [(343597383680, 0)]], 1, 1⟩, ⟨[[(0, 105637169151), (2504229400746, 0)], [(185697122608, 0),
    (1888114569, 0)]], 1, 1⟩, 1099511627776, 0, 513717751220, ⟨[], 0, 0⟩, 0, 0, 0, ⟨0, 6, 802065206335488,
    [59910411235]⟩⟩ 0 1 8371) (.skip)) (.skip)))) (.sy (.sy (.out ⟨565, 16, 10, 649, 16, 185, ⟨[[], [(343597383680,
    0)]], 1, 1⟩, ⟨[[(421350750711, 0), (2618422923901, 0)], [(183400368398, 0), (149265038, 0)]], 1, 1⟩,
    1099511627776, 0, 387828355794, ⟨[], 0, 0⟩, 0, 0, 0, ⟨0, 6, 482274088993877, [66120130695]⟩⟩ 0 1 7519) (.sx (.out
    ⟨1115, 16, 20, 863, 16, 242, ⟨[[], [(343597383680, 0)]], 1, 1⟩, ⟨[[(136582030725, 0), (3544598875785, 0)],
    [(124147603219, 0), (668025533, 0)]], 1, 1⟩, 1099511627776, 0, 461896536692, ⟨[], 0, 0⟩, 0, 0, 0, ⟨0, 6,
    628776930762513, [43827926166]⟩⟩ 0 1 7975) (.sy (.out ⟨1145, 16, 20, 1293, 16, 360, ⟨[[], [(343597383680, 0)]],
    1, 1⟩, ⟨[[(0, 435762322142), (2656774757911, 0)], [(178355023884, 0), (990091904, 0)]], 1, 1⟩, 1099511627776, 0,
    300514679922, ⟨[], 0, 0⟩, 0, 0, 0, ⟨0, 6, 941546981207328, [63490308431]⟩⟩ 0 1 8175) (.skip)))) (.skip))) (.sx
    (.sy (.sy (.sy (.out ⟨595, 16, 10, 908, 16, 254, ⟨[[], [(343597383680, 0)]], 1, 1⟩, ⟨[[(0, 284930125112),
    (1807489865055, 0)], [(232039665469, 0), (699110413, 0)]], 1, 1⟩, 1099511627776, 0, 511430844103, ⟨[], 0, 0⟩, 0,
    0, 0, ⟨0, 6, 670640786204013, [86203951451]⟩⟩ 0 1 8043) (.sx (.out ⟨1175, 16, 20, 1333, 16, 371, ⟨[[],
    [(343597383680, 0)]], 1, 1⟩, ⟨[[(0, 79465849277), (2707763581648, 0)], [(175614994739, 0), (1026523411, 0)]], 1,
    1⟩, 1099511627776, 0, 304799289265, ⟨[], 0, 0⟩, 0, 0, 0, ⟨0, 6, 976516901948914, [63759729479]⟩⟩ 0 1 8186)
    (.skip))) (.skip)) (.skip)) (.skip))) (.skip)) (.skip)) (.skip)) (.skip)) (.skip)
theorem c55 : checkC job ⟨6, 8, 7, 8, 9, 13⟩ 3 100 lims t55 152 48 2 9 3 32 = true := by decide +kernel

def t56 : CTree :=
  .sx (.sx (.sx (.leaf ⟨179, 16, 41, 171, 16, 95, ⟨[[(412316860416, 0)], [(352187318272, 0)]], 3, 4⟩,
    ⟨[[(257910919747, 0), (3102325246066, 0), (7560797351, 0), (521696449, 0), (8952516, 0)], [(147291536993, 0),
    (1954690186, 0), (64380562, 0), (1920631, 0), (63950, 0)], [(0, 85754834), (1316735, 0), (79531, 0), (4192, 0),
    (230, 0)], [(120627, 0), (776, 0), (89, 0), (8, 0), (1, 0)]], 3, 4⟩, 1099511627776, 0, 3835158168,
    ⟨[[(41313357172931, 0), (0, 127460370925), (501134686, 0), (609955, 0), (0, 2396)], [(53359621319, 0), (0,
    169781208), (0, 5971), (1348, 0), (0, 21)], [(0, 114371579), (493860, 0), (0, 869), (4, 0), (1, 0)], [(353970,
    0), (0, 1686), (0, 4), (0, 1)]], 3, 4⟩, 68719476736, 294440130,
    802455577539308741499147295670580214547224550859899138445132502228193174402806824741573829779, ⟨0, 2,
    90603058321161, [109621560310, 97876393, 116520]⟩⟩) (.leaf ⟨210, 16, 41, 183, 16, 95, ⟨[[(137438953472, 0)],
    [(352187318272, 0)]], 3, 4⟩, ⟨[[(508731647482, 0), (3302867980552, 0), (14563641343, 0), (752615763, 0),
    (17771784, 0)], [(133700004136, 0), (2231967252, 0), (82559262, 0), (2983786, 0), (126458, 0)], [(0, 57863945),
    (1588705, 0), (112344, 0), (7125, 0), (439, 0)], [(77757, 0), (1133, 0), (142, 0), (13, 0), (1, 0)]], 3, 4⟩,
    1099511627776, 0, 2355054365, ⟨[[(41353044811624, 0), (0, 120026380176), (521129142, 0), (511668, 0), (0, 2857)],
    [(45470868636, 0), (0, 143943335), (0, 16246), (477, 0), (0, 40)], [(0, 82003988), (360859, 0), (0, 406), (16,
    0), (1, 0)], [(227701, 0), (0, 974), (1, 0)]], 3, 4⟩, 68719476736, 258744690,
    785782851265551526261003699079388876198460409801695029845024523060097329057982743655162876490, ⟨0, 2,
    100316125226064, [93579380753, 71325748, 72486]⟩⟩)) (.sx (.leaf ⟨241, 16, 41, 191, 16, 93, ⟨[[(0, 137438953472)],
    [(352187318272, 0)]], 3, 4⟩, ⟨[[(0, 429650933514), (3458504237520, 0), (23166340787, 0), (1093967802, 0),
    (34135212, 0)], [(121876977841, 0), (2518389971, 0), (106372619, 0), (4665808, 0), (235240, 0)], [(0, 38251856),
    (1940954, 0), (159556, 0), (11521, 0), (753, 0)], [(53864, 0), (1593, 0), (209, 0), (19, 0), (1, 0)]], 3, 4⟩,
    1099511627776, 0, 2005053138, ⟨[[(41263704346791, 0), (0, 113754657443), (559965170, 0), (393458, 0), (0, 3201)],
    [(39451051418, 0), (0, 127412560), (0, 22609), (0, 536), (0, 69)], [(0, 61345205), (285592, 0), (214, 0), (33,
    0), (1, 0)], [(143224, 0), (0, 778), (0, 7)]], 3, 4⟩, 68719476736, 226273110,
    988164144540502411446414588450104357729016148925103757672049402081763861803815647013487996343, ⟨0, 3,
    106411808260582, [79914485736, 53134631, 47105]⟩⟩) (.leaf ⟨272, 16, 41, 192, 16, 89, ⟨[[(0, 412316860416)],
    [(352187318272, 0)]], 3, 4⟩, ⟨[[(358914495686, 0), (3559710240411, 0), (33544848101, 0), (1595225452, 0),
    (62193952, 0)], [(110908136734, 0), (2814128378, 0), (137412887, 0), (7165166, 0), (404640, 0)], [(0, 23601319),
    (2380911, 0), (222607, 0), (17515, 0), (1180, 0)], [(39951, 0), (2139, 0), (290, 0), (27, 0), (2, 0)]], 3, 4⟩,
    1099511627776, 0, 2437613452, ⟨[[(41352878508888, 0), (0, 111374363468), (620720558, 0), (277122, 0), (0, 3802)],
    [(34940494891, 0), (0, 117103373), (0, 27138), (0, 1344), (0, 93)], [(0, 47843536), (237331, 0), (521, 0), (42,
    0), (1, 0)], [(98264, 0), (0, 662), (0, 10), (0, 1)]], 3, 4⟩, 68719476736, 249769440,
    1390687861837515910368417278895291267279519764002544679820496512572140164796698003868206160750, ⟨0, 3,
    108744567673625, [67819495604, 39987910, 31437]⟩⟩))) (.sx (.sx (.leaf ⟨302, 16, 41, 191, 16, 84,
    ⟨[[(412316860416, 0)], [(352187318272, 0)]], 3, 4⟩, ⟨[[(0, 546072575099), (3637357733401, 0), (46313058409, 0),
    (2332413991, 0), (107510523, 0)], [(101381307381, 0), (3149920750, 0), (178613241, 0), (10756518, 0), (658137,
    0)], [(0, 12327334), (2934894, 0), (305404, 0), (25775, 0), (1849, 0)], [(32075, 0), (2800, 0), (398, 0), (41,
    0), (4, 0)]], 3, 4⟩, 1099511627776, 0, 4090506574, ⟨[[(41238200409335, 0), (0, 107824395283), (701808486, 0),
    (94448, 0), (0, 3081)], [(31227838273, 0), (0, 111152620), (0, 55428), (0, 3609), (0, 160)], [(0, 38119501),
    (208539, 0), (1085, 0), (64, 0), (2, 0)], [(70007, 0), (0, 620), (0, 15), (0, 1)]], 3, 4⟩, 68719476736,
    369607552, 2258395234812351307612237161898035023094646956329159217977486387688766644064396389266768265216, ⟨0, 3,
    108456607650878, [57499979895, 30455498, 21508]⟩⟩) (.sy (.leaf ⟨333, 16, 41, 309, 16, 134, ⟨[[(137438953472, 0)],
    [(352187318272, 0)]], 3, 4⟩, ⟨[[(501968380507, 0), (3024378457540, 0), (20949891764, 0), (538815238, 0),
    (12722552, 0)], [(151044878789, 0), (2514006335, 0), (74342832, 0), (2313296, 0), (72005, 0)], [(0, 13426360),
    (2226108, 0), (119492, 0), (5208, 0), (195, 0)], [(40356, 0), (2003, 0), (149, 0), (8, 0)]], 3, 4⟩,
    1099511627776, 0, 669909099, ⟨[[(41876609238678, 0), (0, 67262312569), (275368592, 0), (0, 9038), (0, 842)],
    [(28780932209, 0), (0, 62596391), (0, 11954), (0, 493), (0, 17)], [(0, 31909023), (103913, 0), (200, 0), (9, 0)],
    [(53659, 0), (0, 256), (0, 3)]], 3, 4⟩, 68719476736, 41408049,
    1105791541267623687382618235908640150140510164023095098191980849410897241443075057225394590282, ⟨0, 3,
    181400289586240, [83259128398, 40028427, 25659]⟩⟩) (.leaf ⟨333, 16, 41, 290, 16, 119, ⟨[[(137438953472, 0)],
    [(352187318272, 0)]], 3, 4⟩, ⟨[[(210349547525, 0), (2972885670993, 0), (30494482964, 0), (904863278, 0),
    (27519016, 0)], [(150453920849, 0), (3317959220, 0), (122649840, 0), (4735796, 0), (199479, 0)], [(5051968, 0),
    (3963871, 0), (251848, 0), (14273, 0), (953, 0)], [(53567, 0), (4713, 0), (446, 0), (41, 0), (4, 0)]], 3, 4⟩,
    1099511627776, 0, 1526423207, ⟨[[(40780596147408, 0), (0, 64876906546), (347561490, 0), (0, 28236), (1310, 0)],
    [(27673734909, 0), (0, 72013134), (0, 105133), (0, 3607), (0, 71)], [(0, 29954554), (139649, 0), (1410, 0), (40,
    0), (1, 0)], [(47712, 0), (0, 523), (0, 13)]], 3, 4⟩, 68719476736, 131313991,
    1836658129292940529265207648766202963902188573995654807511145620922666776101827079034244133256, ⟨0, 3,
    161094287020616, [73939076711, 35547633, 22787]⟩⟩))) (.sy (.sx (.leaf ⟨364, 16, 41, 306, 16, 127, ⟨[[(0,
    137438953472)], [(352187318272, 0)]], 3, 4⟩, ⟨[[(0, 314950070404), (3116398439901, 0), (27803133759, 0),
    (774739747, 0), (20751253, 0)], [(141747869612, 0), (2846627402, 0), (96755241, 0), (3409247, 0), (118686, 0)],
    [(0, 1994398), (2760666, 0), (164758, 0), (8101, 0), (370, 0)], [(36848, 0), (2689, 0), (227, 0), (15, 0), (1,
    0)]], 3, 4⟩, 1099511627776, 0, 742937060, ⟨[[(41834185766374, 0), (0, 64891785349), (304113027, 0), (0, 82546),
    (0, 695)], [(26156612142, 0), (0, 60278481), (0, 27210), (0, 1076), (0, 27)], [(0, 26263517), (94102, 0), (375,
    0), (13, 0)], [(39910, 0), (0, 235), (0, 4)]], 3, 4⟩, 68719476736, 52937621,
    1705123765854564559135157300107945550710480458454928130552011176605856443419051041598182785024, ⟨0, 3,
    179169990437760, [72241339597, 31796364, 18660]⟩⟩) (.leaf ⟨395, 16, 41, 298, 16, 119, ⟨[[(0, 412316860416)],
    [(352187318272, 0)]], 3, 4⟩, ⟨[[(71409826041, 0), (3202459955007, 0), (36396131705, 0), (1118338708, 0),
    (34442465, 0)], [(133425838692, 0), (3243938581, 0), (127485998, 0), (5182515, 0), (216623, 0)], [(8294794, 0),
    (3482584, 0), (237477, 0), (13983, 0), (837, 0)], [(36703, 0), (3838, 0), (387, 0), (33, 0), (3, 0)]], 3, 4⟩,
    1099511627776, 0, 1241758621, ⟨[[(41862320855440, 0), (0, 63419450933), (340352969, 0), (0, 178685), (0, 316)],
    [(23970519969, 0), (0, 59395649), (0, 53531), (0, 1936), (0, 41)], [(0, 21958973), (89961, 0), (612, 0), (19,
    0)], [(30203, 0), (0, 228), (0, 5)]], 3, 4⟩, 68719476736, 77827031,
    3073553449572550070708515186765039796646327560176403825817958459497163990670747100331958449884, ⟨0, 3,
    174121973623875, [62416103717, 25331211, 13707]⟩⟩)) (.sx (.sy (.leaf ⟨364, 16, 41, 412, 16, 164, ⟨[[(0,
    137438953472)], [(352187318272, 0)]], 3, 4⟩, ⟨[[(6414845211, 0), (2209960920156, 0), (13393056514, 0),
    (213366271, 0), (3621173, 0)], [(202593290968, 0), (2569468983, 0), (52606249, 0), (1139638, 0), (28742, 0)],
    [(18990250, 0), (3184745, 0), (113240, 0), (3825, 0), (156, 0)], [(71791, 0), (4081, 0), (228, 0), (12, 0), (1,
    0)]], 3, 4⟩, 1099511627776, 0, 951101517, ⟨[[(41039013596468, 0), (0, 44140371857), (180328097, 0), (0, 34818),
    (435, 0)], [(25362126950, 0), (0, 47876809), (0, 62647), (0, 1441), (0, 19)], [(0, 24934824), (87526, 0), (708,
    0), (14, 0)], [(35964, 0), (0, 305), (0, 6)]], 3, 4⟩, 68719476736, 34978190,
    1735606366254398093491210090044618384541359858548678762958783444736782500296903011210269511146, ⟨0, 3,
    231369121510178, [93288029085, 41059872, 24096]⟩⟩) (.leaf ⟨364, 16, 41, 388, 16, 150, ⟨[[(0, 137438953472)],
    [(352187318272, 0)]], 3, 4⟩, ⟨[[(339500344546, 0), (2192864138613, 0), (16702088994, 0), (317148860, 0),
    (7877673, 0)], [(201400307469, 0), (3071185177, 0), (75635191, 0), (2275758, 0), (94416, 0)], [(39589853, 0),
    (4723298, 0), (222000, 0), (11813, 0), (708, 0)], [(99271, 0), (8394, 0), (691, 0), (54, 0), (4, 0)]], 3, 4⟩,
    1099511627776, 0, 2166373650, ⟨[[(40526760790692, 0), (0, 43456284233), (214774326, 0), (7702, 0), (1846, 0)],
    [(24764953581, 0), (0, 54894940), (0, 161936), (0, 3423), (0, 42)], [(0, 23731612), (122631, 0), (1629, 0), (30,
    0)], [(31227, 0), (0, 533), (0, 12)]], 3, 4⟩, 68719476736, 68175061,
    2510479879793077146284888208833186082020550313714895456076060936330601324233219736032400459065, ⟨0, 3,
    211618098942236, [85324416846, 37554761, 22039]⟩⟩)) (.sy (.sx (.leaf ⟨774, 16, 82, 573, 16, 221, ⟨[[(0,
    137438953472)], [(352187318272, 0)]], 3, 4⟩, ⟨[[(258560770097, 0), (3251910737948, 0), (24080187284, 0),
    (432809074, 0), (9244785, 0)], [(139136550779, 0), (2090274341, 0), (49473591, 0), (1320538, 0), (45747, 0)],
    [(12048653, 0), (1450112, 0), (62094, 0), (2782, 0), (148, 0)], [(14337, 0), (1106, 0), (78, 0), (5, 0)]], 3, 4⟩,
    1099511627776, 0, 219983358, ⟨[[(41043529728730, 0), (0, 30049366854), (97495777, 0), (0, 16740), (236, 0)],
    [(11837872863, 0), (0, 17025919), (0, 25115), (0, 380), (0, 3)], [(0, 5395200), (16194, 0), (122, 0), (2, 0)],
    [(3522, 0), (0, 29)]], 3, 4⟩, 68719476736, 6123827,
    2946241017362454295060823648926185834513660955300742469389574837930075960301364698108929728441, ⟨0, 3,
    320559950386300, [59109290275, 12232883, 3376]⟩⟩) (.out ⟨795, 16, 81, 556, 16, 210, ⟨[[(0, 206158430208)],
    [(347892350976, 0)]], 1, 1⟩, ⟨[[(389241053788, 0), (3294447244921, 0)], [(134806521073, 0), (2283664592, 0)]], 1,
    1⟩, 1099511627776, 0, 450823761158, ⟨[], 0, 0⟩, 0, 0, 0, ⟨0, 3, 309892157823776, [54020681749]⟩⟩ 0 1 762)) (.sx
    (.out ⟨764, 16, 81, 530, 16, 198, ⟨[[(481036337152, 0)], [(347892350976, 0)]], 1, 1⟩, ⟨[[(297587439633, 0),
    (3223726139048, 0)], [(137816834361, 0), (2585489538, 0)]], 1, 1⟩, 1099511627776, 0, 523841348414, ⟨[], 0, 0⟩, 0,
    0, 0, ⟨0, 3, 287198507585916, [52957644681]⟩⟩ 0 1 991) (.out ⟨795, 16, 81, 507, 16, 185, ⟨[[(0, 206158430208)],
    [(347892350976, 0)]], 1, 1⟩, ⟨[[(0, 127601603902), (3267526320088, 0)], [(133261690167, 0), (2938528765, 0)]], 1,
    1⟩, 1099511627776, 0, 637931985824, ⟨[], 0, 0⟩, 0, 0, 0, ⟨0, 3, 273000234273327, [47589648207]⟩⟩ 0 1 1491))))))
theorem c56 : checkC job ⟨6, 8, 7, 8, 9, 13⟩ 3 100 lims t56 112 48 16 51 3 128 = true := by decide +kernel

end PyX.Kron.S2b
