import Verif.Lemmas.Back2

/-!
# The backward equation `T(p, h)` of subregion 2c
-/

namespace PyX.Kron.T2c

open Spec.IF97

/-- its coefficients -/
def table : List Term :=
  [⟨-7, 0, -3236839855524.2⟩, ⟨-7, 4, 7326335090218.1⟩, ⟨-6, 0, 358250899454.47⟩, ⟨-6, 2, -583401318515.9⟩, ⟨-5, 0,
    -10783068217.47⟩, ⟨-5, 2, 20825544563.171⟩, ⟨-2, 0, 610747.83564516⟩, ⟨-2, 1, 859777.2253558⟩, ⟨-1, 0,
    -25745.72360417⟩, ⟨-1, 2, 31081.088422714⟩, ⟨0, 0, 1208.2315865936⟩, ⟨0, 1, 482.19755109255⟩, ⟨1, 4,
    3.7966001272486⟩, ⟨1, 8, -10.842984880077⟩, ⟨2, 4, -0.04536417267666⟩, ⟨6, 0, 1.4559115658698e-13⟩, ⟨6, 1,
    1.126159740723e-12⟩, ⟨6, 4, -1.7804982240686e-11⟩, ⟨6, 10, 1.2324579690832e-07⟩, ⟨6, 12, -1.1606921130984e-06⟩,
    ⟨6, 16, 2.7846367088554e-05⟩, ⟨6, 20, -5.9270038474176e-04⟩, ⟨6, 22, 1.2918582991878e-03⟩]

def Bp : List Mono :=
  [(366316754510905000000000000000000000000, 0, 4), (17912544972723500000000000000000000000, 1, 0),
    (1041277228158550000000000000000000000, 2, 2), (30537391782258000000000000000000, 5, 0),
    (1554054421135700000000000000000, 6, 2), (60411579329680000000000000000, 7, 0), (189830006362430000000000000, 8,
    4), (7279557829349, 13, 0), (6162289845416000000, 13, 10), (1392318354427700000000, 13, 16),
    (64592914959390000000000, 13, 22)]

def Bn : List Mono :=
  [(161841992776210000000000000000000000000, 0, 0), (29170065925795000000000000000000000000, 1, 2),
    (539153410873500000000000000000000000, 2, 0), (42988861267790000000000000000000, 5, 1),
    (1287286180208500000000000000000, 6, 0), (24109877554627500000000000000, 7, 1), (542149244003850000000000000, 8,
    8), (2268208633833000000000000, 9, 4), (56307987036150, 13, 1), (890249112034300, 13, 4), (58034605654920000000,
    13, 12), (29635019237088000000000, 13, 20)]

theorem same_B : same 50000000000000000000000000 0 0 0 0 ((table.map flipJ).map (shiftI 7)) Bp Bn = true := by decide +kernel

def qB : Quot := ⟨.mono Bp Bn 13 22, [(50000000000000000000000000, 7, 0)], 7, 0⟩

theorem qB_eval {x : ℝ} (hx : 0 < x) (y : ℝ) : qB.eval x y = dpoly table 0 0 x (-y) := by
  simp only [qB, Quot.eval, E.eval, evalN_cons', evalN_nil']
  rw [same_eq0 same_B, dpoly_shiftI _ _ hx.ne', dpoly_flipJ]
  push_cast
  field_simp
  ring

/-- limits of the vapour which the certificate makes use of -/
def lims : List Lim :=
  [⟨true, 1574682543, 100000000, 381, 1024⟩, ⟨true, 207469, 10000, 333, 1024⟩, ⟨true, 215501, 10000, 327, 1024⟩,
    ⟨true, 42283, 2000, 165, 512⟩, ⟨true, 60151, 2500, 621, 2048⟩, ⟨true, 243117, 10000, 309, 1024⟩, ⟨true, 273497,
    10000, 585, 2048⟩, ⟨true, 66897, 2500, 591, 2048⟩, ⟨true, 264699, 10000, 297, 1024⟩, ⟨true, 6763, 250, 147, 512⟩,
    ⟨true, 126787, 5000, 303, 1024⟩, ⟨true, 64763, 2500, 75, 256⟩, ⟨true, 31033, 1250, 153, 512⟩, ⟨true, 228627,
    10000, 159, 512⟩, ⟨true, 28013, 1250, 321, 1024⟩, ⟨true, 238131, 10000, 39, 128⟩, ⟨true, 116651, 5000, 315,
    1024⟩, ⟨true, 219729, 10000, 81, 256⟩, ⟨true, 17923, 1000, 717, 2048⟩, ⟨true, 37319, 2000, 351, 1024⟩, ⟨true,
    183559, 10000, 177, 512⟩, ⟨true, 45161, 2500, 357, 1024⟩, ⟨true, 48259, 2500, 345, 1024⟩, ⟨true, 49997, 2500,
    339, 1024⟩, ⟨true, 196447, 10000, 171, 512⟩, ⟨true, 203661, 10000, 21, 64⟩, ⟨true, 189753, 10000, 87, 256⟩,
    ⟨true, 170141, 10000, 369, 1024⟩, ⟨true, 33791, 2000, 741, 2048⟩, ⟨true, 42839, 2500, 735, 2048⟩, ⟨true, 172597,
    10000, 183, 512⟩, ⟨true, 176491, 10000, 723, 2048⟩, ⟨true, 173867, 10000, 729, 2048⟩, ⟨true, 88923, 5000, 45,
    128⟩, ⟨true, 325252401, 20000000, 1509, 4096⟩, ⟨true, 16583, 1000, 2997, 8192⟩, ⟨true, 83331, 5000, 747, 2048⟩,
    ⟨true, 33221, 2000, 1497, 4096⟩, ⟨true, 1642092489, 100000000, 3009, 8192⟩, ⟨true, 1647406707, 100000000, 1503,
    4096⟩, ⟨true, 163679703, 10000000, 753, 2048⟩, ⟨true, 41389, 2500, 375, 1024⟩, ⟨true, 1595097803, 100000000, 759,
    2048⟩, ⟨true, 807900451, 50000000, 189, 512⟩, ⟨true, 6689, 400, 1491, 4096⟩, ⟨true, 33559, 2000, 93, 256⟩, ⟨true,
    57171, 2000, 573, 2048⟩, ⟨true, 289059, 10000, 285, 1024⟩, ⟨true, 74739, 2500, 561, 2048⟩, ⟨true, 152897, 5000,
    555, 2048⟩, ⟨true, 302351, 10000, 279, 1024⟩, ⟨true, 292311, 10000, 567, 2048⟩, ⟨true, 295609, 10000, 141, 512⟩,
    ⟨true, 31283, 1000, 549, 2048⟩, ⟨true, 320067, 10000, 543, 2048⟩, ⟨true, 316423, 10000, 273, 1024⟩, ⟨true, 81877,
    2500, 537, 2048⟩, ⟨true, 335159, 10000, 531, 2048⟩, ⟨true, 331307, 10000, 267, 1024⟩, ⟨true, 161881, 5000, 135,
    512⟩, ⟨true, 309287, 10000, 69, 256⟩, ⟨true, 175553, 5000, 519, 2048⟩, ⟨true, 21439, 625, 525, 2048⟩, ⟨true,
    347037, 10000, 261, 1024⟩, ⟨true, 182893, 5000, 1017, 4096⟩, ⟨true, 35941, 1000, 513, 2048⟩, ⟨true, 357313,
    10000, 1029, 4096⟩, ⟨true, 361521, 10000, 1023, 4096⟩, ⟨true, 35523, 1000, 129, 512⟩, ⟨true, 353161, 10000, 1035,
    4096⟩, ⟨true, 37449, 1000, 1005, 4096⟩, ⟨true, 381171, 10000, 249, 1024⟩, ⟨true, 188351, 5000, 501, 2048⟩, ⟨true,
    198643, 5000, 975, 4096⟩, ⟨true, 196303, 5000, 981, 4096⟩, ⟨true, 197469, 5000, 489, 2048⟩, ⟨true, 387987, 10000,
    987, 4096⟩, ⟨true, 3857, 100, 495, 2048⟩, ⟨true, 95857, 2500, 993, 4096⟩, ⟨true, 24393, 625, 123, 512⟩, ⟨true,
    370109, 10000, 1011, 4096⟩, ⟨true, 93073, 2500, 63, 256⟩, ⟨true, 18397, 500, 507, 2048⟩, ⟨true, 67813, 2000, 33,
    128⟩, ⟨true, 411699, 10000, 957, 4096⟩, ⟨true, 106671, 2500, 939, 4096⟩, ⟨true, 52703, 1250, 945, 4096⟩, ⟨true,
    212073, 5000, 471, 2048⟩, ⟨true, 419119, 10000, 237, 1024⟩, ⟨true, 416629, 10000, 951, 4096⟩, ⟨true, 103539,
    2500, 477, 2048⟩, ⟨true, 455703, 10000, 453, 2048⟩, ⟨true, 43181, 1000, 933, 4096⟩, ⟨true, 437001, 10000, 927,
    4096⟩, ⟨true, 219811, 5000, 231, 1024⟩, ⟨true, 223793, 5000, 915, 4096⟩, ⟨true, 222457, 5000, 459, 2048⟩, ⟨true,
    225137, 5000, 57, 256⟩, ⟨true, 429239, 10000, 117, 512⟩, ⟨true, 507771, 10000, 213, 1024⟩, ⟨true, 501691, 10000,
    429, 2048⟩, ⟨true, 241951, 5000, 219, 1024⟩, ⟨true, 478119, 10000, 441, 2048⟩, ⟨true, 46677, 1000, 447, 2048⟩,
    ⟨true, 114611, 2500, 903, 4096⟩, ⟨true, 461201, 10000, 225, 1024⟩, ⟨true, 472409, 10000, 111, 512⟩, ⟨true,
    495687, 10000, 27, 128⟩, ⟨true, 244879, 5000, 435, 2048⟩, ⟨true, 202211, 5000, 483, 2048⟩, ⟨true, 100507, 2500,
    969, 4096⟩, ⟨true, 25427, 625, 963, 4096⟩, ⟨true, 409257, 10000, 15, 64⟩, ⟨true, 399649, 10000, 243, 1024⟩,
    ⟨true, 55917, 2000, 579, 2048⟩, ⟨true, 282697, 10000, 9, 32⟩, ⟨true, 301531, 5000, 1533, 8192⟩, ⟨true, 151679,
    2500, 1527, 8192⟩, ⟨true, 302443, 5000, 765, 4096⟩, ⟨true, 159189, 2500, 1479, 8192⟩, ⟨true, 632921, 10000, 1485,
    8192⟩, ⟨true, 158709, 2500, 741, 4096⟩, ⟨true, 124311, 2000, 1503, 8192⟩, ⟨true, 617811, 10000, 1509, 8192⟩,
    ⟨true, 7746, 125, 753, 4096⟩, ⟨true, 76299, 1250, 1521, 8192⟩, ⟨true, 61409, 1000, 1515, 8192⟩, ⟨true, 306119,
    5000, 759, 4096⟩, ⟨true, 608551, 10000, 381, 2048⟩, ⟨true, 153987, 2500, 189, 1024⟩, ⟨true, 62911, 1000, 1491,
    8192⟩, ⟨true, 625321, 10000, 1497, 8192⟩, ⟨true, 156803, 2500, 747, 4096⟩, ⟨true, 631013, 10000, 93, 512⟩, ⟨true,
    124687, 2000, 375, 2048⟩, ⟨true, 83283, 1250, 717, 4096⟩, ⟨true, 132851, 2000, 1437, 8192⟩, ⟨true, 650361, 10000,
    729, 4096⟩, ⟨true, 131653, 2000, 723, 4096⟩, ⟨true, 165563, 2500, 45, 256⟩, ⟨true, 654301, 10000, 363, 2048⟩,
    ⟨true, 320307, 5000, 1473, 8192⟩, ⟨true, 80319, 1250, 735, 4096⟩, ⟨true, 129289, 2000, 183, 1024⟩, ⟨true, 319341,
    5000, 369, 2048⟩, ⟨true, 340247, 5000, 1413, 8192⟩, ⟨true, 688761, 10000, 1401, 8192⟩, ⟨true, 347513, 5000, 87,
    512⟩, ⟨true, 690843, 10000, 699, 4096⟩, ⟨true, 136923, 2000, 1407, 8192⟩, ⟨true, 137337, 2000, 351, 2048⟩, ⟨true,
    336163, 5000, 1425, 8192⟩, ⟨true, 338199, 5000, 1419, 8192⟩, ⟨true, 670299, 10000, 357, 2048⟩, ⟨true, 334139,
    5000, 1431, 8192⟩, ⟨true, 751727, 10000, 657, 4096⟩, ⟨true, 731603, 10000, 1341, 8192⟩, ⟨true, 738251, 10000,
    333, 2048⟩, ⟨true, 183453, 2500, 669, 4096⟩, ⟨true, 747209, 10000, 165, 1024⟩, ⟨true, 742717, 10000, 663, 4096⟩,
    ⟨true, 725013, 10000, 675, 4096⟩, ⟨true, 8927, 125, 1365, 8192⟩, ⟨true, 716317, 10000, 681, 4096⟩, ⟨true, 180163,
    2500, 339, 2048⟩, ⟨true, 709863, 10000, 1371, 8192⟩, ⟨true, 88199, 1250, 1377, 8192⟩, ⟨true, 351733, 5000, 345,
    2048⟩, ⟨true, 699233, 10000, 693, 4096⟩, ⟨true, 3647, 50, 21, 128⟩, ⟨true, 30989, 400, 321, 2048⟩, ⟨true, 401617,
    5000, 39, 256⟩, ⟨true, 196029, 2500, 159, 1024⟩, ⟨true, 152169, 2000, 651, 4096⟩, ⟨true, 191361, 2500, 81, 512⟩,
    ⟨true, 756273, 10000, 327, 2048⟩, ⟨true, 822807, 10000, 153, 1024⟩, ⟨true, 863361, 10000, 147, 1024⟩, ⟨true,
    421423, 5000, 75, 512⟩, ⟨true, 111881, 1250, 285, 2048⟩, ⟨true, 927867, 10000, 69, 512⟩, ⟨true, 916799, 10000,
    279, 2048⟩, ⟨true, 45293, 500, 141, 1024⟩, ⟨true, 187813, 2000, 273, 2048⟩, ⟨true, 475197, 5000, 135, 1024⟩,
    ⟨true, 192371, 2000, 267, 2048⟩, ⟨true, 243363, 2500, 33, 256⟩, ⟨true, 4369, 50, 291, 2048⟩, ⟨true, 442181, 5000,
    9, 64⟩, ⟨true, 131617, 2500, 417, 2048⟩, ⟨true, 256963, 5000, 423, 2048⟩, ⟨true, 536081, 10000, 825, 4096⟩,
    ⟨true, 34117, 625, 51, 256⟩, ⟨true, 134831, 2500, 411, 2048⟩, ⟨true, 532857, 10000, 207, 1024⟩, ⟨true, 36022,
    625, 789, 4096⟩, ⟨true, 549177, 10000, 813, 4096⟩, ⟨true, 552501, 10000, 405, 2048⟩, ⟨true, 277923, 5000, 807,
    4096⟩, ⟨true, 139803, 2500, 201, 1024⟩, ⟨true, 569433, 10000, 795, 4096⟩, ⟨true, 113201, 2000, 399, 2048⟩, ⟨true,
    281299, 5000, 801, 4096⟩, ⟨true, 286441, 5000, 99, 512⟩, ⟨true, 295223, 5000, 777, 4096⟩, ⟨true, 145839, 2500,
    783, 4096⟩, ⟨true, 579843, 10000, 393, 2048⟩, ⟨true, 58689, 1000, 195, 1024⟩, ⟨true, 298811, 5000, 771, 4096⟩,
    ⟨true, 594023, 10000, 387, 2048⟩, ⟨true, 601243, 10000, 3, 16⟩, ⟨true, 633617163, 50000000, 813, 2048⟩, ⟨true,
    1421142453, 100000000, 393, 1024⟩, ⟨true, 1495800519, 100000000, 387, 1024⟩, ⟨true, 72898059, 5000000, 195, 512⟩,
    ⟨true, 767347677, 50000000, 3, 8⟩, ⟨true, 675217831, 50000000, 399, 1024⟩, ⟨true, 658242943, 50000000, 201, 512⟩,
    ⟨true, 1283433031, 100000000, 405, 1024⟩, ⟨true, 692655557, 50000000, 99, 256⟩, ⟨true, 229016737, 20000000, 837,
    2048⟩, ⟨true, 1159657871, 100000000, 417, 1024⟩, ⟨true, 1174424611, 100000000, 831, 2048⟩, ⟨true, 594693389,
    50000000, 207, 512⟩, ⟨true, 123547567, 10000000, 819, 2048⟩, ⟨true, 152488663, 12500000, 411, 1024⟩, ⟨true,
    1251249639, 100000000, 51, 128⟩, ⟨true, 1035094887, 100000000, 861, 2048⟩, ⟨true, 1048225813, 100000000, 429,
    1024⟩, ⟨true, 34020531, 3125000, 849, 2048⟩, ⟨true, 1130699271, 100000000, 105, 256⟩, ⟨true, 1102488611,
    100000000, 423, 1024⟩, ⟨true, 537502187, 50000000, 213, 512⟩, ⟨true, 212305627, 20000000, 855, 2048⟩, ⟨true,
    228174891, 25000000, 891, 2048⟩, ⟨true, 890051061, 100000000, 897, 2048⟩, ⟨true, 225325717, 25000000, 447, 1024⟩,
    ⟨true, 873440713, 100000000, 1803, 4096⟩, ⟨true, 867974259, 100000000, 903, 2048⟩, ⟨true, 857145399, 100000000,
    453, 1024⟩, ⟨true, 846453733, 100000000, 909, 2048⟩, ⟨true, 878942177, 100000000, 225, 512⟩, ⟨true, 492118693,
    50000000, 873, 2048⟩, ⟨true, 947779287, 100000000, 441, 1024⟩, ⟨true, 187187141, 20000000, 885, 2048⟩, ⟨true,
    29992999, 3125000, 879, 2048⟩, ⟨true, 485963973, 50000000, 219, 512⟩, ⟨true, 462121581, 50000000, 111, 256⟩,
    ⟨true, 692617839, 100000000, 957, 2048⟩, ⟨true, 2972106, 390625, 1869, 4096⟩, ⟨true, 72820811, 10000000, 945,
    2048⟩, ⟨true, 355094247, 50000000, 951, 2048⟩, ⟨true, 701347781, 100000000, 477, 1024⟩, ⟨true, 359570719,
    50000000, 237, 512⟩, ⟨true, 373344367, 50000000, 939, 2048⟩, ⟨true, 737390029, 100000000, 471, 1024⟩, ⟨true,
    189026437, 25000000, 117, 256⟩, ⟨true, 399994929, 50000000, 1845, 4096⟩, ⟨true, 156035303, 20000000, 1857, 4096⟩,
    ⟨true, 158004071, 20000000, 1851, 4096⟩, ⟨true, 38522833, 5000000, 1863, 4096⟩, ⟨true, 104487173, 12500000, 57,
    128⟩, ⟨true, 412737271, 50000000, 915, 2048⟩, ⟨true, 405043353, 50000000, 1839, 4096⟩, ⟨true, 407591711,
    50000000, 459, 1024⟩, ⟨true, 1022132943, 100000000, 27, 64⟩, ⟨true, 252334401, 25000000, 867, 2048⟩, ⟨true,
    996706529, 100000000, 435, 1024⟩, ⟨true, 2357422, 390625, 495, 1024⟩, ⟨true, 574025147, 100000000, 501, 1024⟩,
    ⟨true, 622686613, 100000000, 1965, 4096⟩, ⟨true, 158622709, 25000000, 489, 1024⟩, ⟨true, 25063867, 4000000, 981,
    2048⟩, ⟨true, 128496949, 20000000, 975, 2048⟩, ⟨true, 650579747, 100000000, 243, 512⟩, ⟨true, 675484487,
    100000000, 963, 2048⟩, ⟨true, 329388561, 50000000, 969, 2048⟩, ⟨true, 166769563, 25000000, 483, 1024⟩, ⟨true,
    683997209, 100000000, 15, 32⟩, ⟨true, 506479891, 100000000, 129, 256⟩, ⟨true, 34124371, 6250000, 507, 1024⟩,
    ⟨true, 98556053, 25000000, 273, 512⟩, ⟨true, 207248219, 50000000, 135, 256⟩, ⟨true, 114549469, 25000000, 33, 64⟩]

/-- fourth roots of pressures above saturation, times `10⁸` -/
def betas : List ℕ :=
  [199204091, 0, 0, 0, 0, 0, 0, 0, 0, 0, 0, 0, 0, 0, 0, 0, 0, 0, 0, 0, 0, 0, 0, 0, 0, 0, 0, 0, 0, 0, 0, 0, 0, 0,
    200815684, 0, 0, 0, 201302609, 201465278, 201140121, 0, 199846630, 200491960, 0, 0, 0, 0, 0, 0, 0, 0, 0, 0, 0, 0,
    0, 0, 0, 0, 0, 0, 0, 0, 0, 0, 0, 0, 0, 0, 0, 0, 0, 0, 0, 0, 0, 0, 0, 0, 0, 0, 0, 0, 0, 0, 0, 0, 0, 0, 0, 0, 0, 0,
    0, 0, 0, 0, 0, 0, 0, 0, 0, 0, 0, 0, 0, 0, 0, 0, 0, 0, 0, 0, 0, 0, 0, 0, 0, 0, 0, 0, 0, 0, 0, 0, 0, 0, 0, 0, 0, 0,
    0, 0, 0, 0, 0, 0, 0, 0, 0, 0, 0, 0, 0, 0, 0, 0, 0, 0, 0, 0, 0, 0, 0, 0, 0, 0, 0, 0, 0, 0, 0, 0, 0, 0, 0, 0, 0, 0,
    0, 0, 0, 0, 0, 0, 0, 0, 0, 0, 0, 0, 0, 0, 0, 0, 0, 0, 0, 0, 0, 0, 0, 0, 0, 0, 0, 0, 0, 0, 0, 0, 0, 0, 0, 0, 0, 0,
    0, 0, 0, 188674945, 194159839, 196661080, 195405368, 197927229, 191698394, 190482048, 189275021, 192924254,
    183954030, 184536581, 185121255, 185708070, 187481556, 186888202, 188077131, 179368031, 179934198, 181644715,
    183373586, 182218945, 181072525, 180502357, 173812882, 172724415, 173267731, 171912857, 171643243, 171105364,
    170569276, 172182923, 177123002, 175459466, 174908737, 176012077, 176566585, 174359880, 162227105, 166083338,
    164272126, 163246323, 162735895, 163758397, 165304585, 164787519, 165823331, 168178750, 167127616, 167652321,
    166604625, 170034967, 169502427, 168706912, 168971646, 178803842, 178241617, 177681342, 156736204, 154786375,
    157967368, 158710748, 158214769, 159208300, 159707435, 161214405, 160208158, 160710479, 161719944, 150017026,
    152860811, 140908056, 142685618, 146306381]

theorem lims_ok : chk2 lims betas = true := by decide +kernel

/-- `p + 25` -/
def q1 : Quot := ⟨.mono [(1, 1, 0), (25, 0, 0)] [] 1 0, [(1, 0, 0)], 0, 0⟩

theorem q1_eval (x y : ℝ) : q1.eval x y = x + 25 := by
  simp [q1, Quot.eval, E.eval]

/-- on which side of the border -/
def side : E := .mono [(135911572798482, 0, 1), (100000000000, 1, 0)] [(90584278514723, 0, 0), (51236010920544, 0, 2)] 1 2

theorem side_eval (x y : ℝ) : side.eval x y = 100000000000 * (x - (905.84278514723 - 0.67955786399241 * (2000 * y) + 1.2809002730136e-04 * (2000 * y) ^ 2)) := by
  simp only [side, E.eval, evalN_cons', evalN_nil']; push_cast; ring

/-- temperature from pressure and enthalpy -/
def job : Job := ⟨q1, B2.qhc, qB, B2.qT, ⟨false, 0, 1⟩, 0, [side], B2.qp, B2.qh, ⟨false, 0, 1⟩⟩

end PyX.Kron.T2c
