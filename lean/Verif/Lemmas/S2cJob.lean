import Verif.Lemmas.Back2s

/-!
# The backward equation `T(p, s)` of subregion 2c
-/

namespace PyX.Kron.S2c

open Spec.IF97

/-- its coefficients -/
def table : List Term :=
  [⟨-2, 0, 909.68501005365⟩, ⟨-2, 1, 2404.566708842⟩, ⟨-1, 0, -591.6232638713⟩, ⟨0, 0, 541.45404128074⟩, ⟨0, 1,
    -270.98308411192⟩, ⟨0, 2, 979.76525097926⟩, ⟨0, 3, -469.66772959435⟩, ⟨1, 0, 14.399274604723⟩, ⟨1, 1,
    -19.104204230429⟩, ⟨1, 3, 5.3299167111971⟩, ⟨1, 4, -21.252975375934⟩, ⟨2, 0, -0.3114733441376⟩, ⟨2, 1,
    0.60334840894623⟩, ⟨2, 2, -0.042764839702509⟩, ⟨3, 0, 5.8185597255259e-03⟩, ⟨3, 1, -0.014597008284753⟩, ⟨3, 5,
    5.6631175631027e-03⟩, ⟨4, 0, -7.6155864584577e-05⟩, ⟨4, 1, 2.2440342919332e-04⟩, ⟨4, 4, -1.2561095013413e-05⟩,
    ⟨5, 0, 6.3323132660934e-07⟩, ⟨5, 1, -2.0541989675375e-06⟩, ⟨5, 2, 3.6405370390082e-08⟩, ⟨6, 0,
    -2.9759897789215e-09⟩, ⟨6, 1, 1.0136618529763e-08⟩, ⟨7, 0, 5.9925719692351e-12⟩, ⟨7, 1, -2.0677870105164e-11⟩,
    ⟨7, 3, -2.0874278181886e-11⟩, ⟨7, 4, 1.0162166825089e-10⟩, ⟨7, 5, -1.6429828281347e-10⟩]

def Bp : List Mono :=
  [(57188184277376500000000000000, 0, 0), (1612070402191400000000000000, 2, 0), (19879348353270800000000000000, 2,
    1), (4696677295943500000000000000, 2, 3), (6352404157259518000000000000, 3, 1), (1646938862962749000000000000, 3,
    3), (7241641149448240000000000, 4, 0), (1578443051753063000000000, 5, 0), (4530494050482160000000000, 5, 2),
    (566311756310270000000000, 5, 4), (1716734735874550000000, 6, 0), (1775516112358960000000, 6, 1),
    (1004887601073040000000, 6, 3), (19085774859771720000, 7, 1), (364053703900820000, 7, 2), (172972472806045000, 8,
    0), (101631384493369160, 9, 1), (57798322447135660, 9, 3), (1642982828134700, 9, 5)]

def Bn : List Mono :=
  [(24045667088420000000000000000, 0, 1), (5916232638713000000000000000, 1, 0), (18382411265868400000000000000, 2,
    2), (3212174061815022000000000000, 3, 0), (4780919087552334000000000000, 3, 2), (212529753759340000000000000, 3,
    4), (4322890501361940000000000, 4, 1), (427648397025090000000000, 4, 2), (4384523967634630000000000, 5, 1),
    (2265247025241080000000000, 5, 3), (56631175631027000000000, 5, 5), (3014662803219120000000, 6, 2),
    (125610950134130000000, 6, 4), (33295451269053320000, 7, 0), (101366185297630000, 8, 1), (38339557517129809, 9,
    0), (108301882561475560, 9, 2), (15413611598838100, 9, 4)]

def qB : Quot := ⟨.mono Bp Bn 9 5, [(10000000000000000000000000, 2, 0)], 2, 0⟩

theorem qB_eval {x : ℝ} (hx : 0 < x) (y : ℝ) : qB.eval x y = dpoly table 0 0 x (2 - y) := by
  simp only [qB, Bp, Bn, table, dpoly, Term.d, ff, Quot.eval, E.eval, evalN_cons', evalN_nil', List.map_cons, List.map_nil, List.sum_cons,
    List.sum_nil]
  rw [div_eq_iff (by positivity)]
  norm_num [zpow_neg]
  have e1 : x ^ 2 * x ^ (-1 : ℤ) = x := by rw [zpow_neg_one]; field_simp
  have e2 : x ^ 2 * x ^ (-2 : ℤ) = 1 := by rw [show (-2 : ℤ) = -(2 : ℕ) from rfl, zpow_neg, zpow_natCast]; field_simp
  field_simp
  ring

/-- on which side of the border -/
def side : E := .mono [(58500, 0, 0)] [(29251, 0, 1)] 0 1

theorem side_eval (x s : ℝ) : side.eval x (s / 2.9251) = 10000 * (5.85 - s) := by
  simp only [side, E.eval, evalN_cons', evalN_nil']; push_cast; ring

/-- limits of the vapour which the certificate makes use of -/
def lims : List Lim :=
  [⟨true, 388637507, 25000000, 765, 2048⟩, ⟨true, 1574682543, 100000000, 381, 1024⟩, ⟨true, 42283, 2000, 165, 512⟩,
    ⟨true, 264699, 10000, 297, 1024⟩, ⟨true, 6763, 250, 147, 512⟩, ⟨true, 126787, 5000, 303, 1024⟩, ⟨true, 31033,
    1250, 153, 512⟩, ⟨true, 28013, 1250, 321, 1024⟩, ⟨true, 238131, 10000, 39, 128⟩, ⟨true, 228627, 10000, 159, 512⟩,
    ⟨true, 219729, 10000, 81, 256⟩, ⟨true, 45161, 2500, 357, 1024⟩, ⟨true, 183559, 10000, 177, 512⟩, ⟨true, 196447,
    10000, 171, 512⟩, ⟨true, 203661, 10000, 21, 64⟩, ⟨true, 189753, 10000, 87, 256⟩, ⟨true, 170141, 10000, 369,
    1024⟩, ⟨true, 88923, 5000, 45, 128⟩, ⟨true, 172597, 10000, 183, 512⟩, ⟨true, 163679703, 10000000, 753, 2048⟩,
    ⟨true, 41389, 2500, 375, 1024⟩, ⟨true, 1595097803, 100000000, 759, 2048⟩, ⟨true, 807900451, 50000000, 189, 512⟩,
    ⟨true, 33559, 2000, 93, 256⟩, ⟨true, 302351, 10000, 279, 1024⟩, ⟨true, 289059, 10000, 285, 1024⟩, ⟨true, 316423,
    10000, 273, 1024⟩, ⟨true, 331307, 10000, 267, 1024⟩, ⟨true, 161881, 5000, 135, 512⟩, ⟨true, 309287, 10000, 69,
    256⟩, ⟨true, 347037, 10000, 261, 1024⟩, ⟨true, 35941, 1000, 513, 2048⟩, ⟨true, 175553, 5000, 519, 2048⟩, ⟨true,
    24393, 625, 123, 512⟩, ⟨true, 381171, 10000, 249, 1024⟩, ⟨true, 18397, 500, 507, 2048⟩, ⟨true, 93073, 2500, 63,
    256⟩, ⟨true, 67813, 2000, 33, 128⟩, ⟨true, 419119, 10000, 237, 1024⟩, ⟨true, 434397, 10000, 465, 2048⟩, ⟨true,
    225137, 5000, 57, 256⟩, ⟨true, 219811, 5000, 231, 1024⟩, ⟨true, 429239, 10000, 117, 512⟩, ⟨true, 501691, 10000,
    429, 2048⟩, ⟨true, 507771, 10000, 213, 1024⟩, ⟨true, 478119, 10000, 441, 2048⟩, ⟨true, 46677, 1000, 447, 2048⟩,
    ⟨true, 455703, 10000, 453, 2048⟩, ⟨true, 472409, 10000, 111, 512⟩, ⟨true, 244879, 5000, 435, 2048⟩, ⟨true,
    495687, 10000, 27, 128⟩, ⟨true, 202211, 5000, 483, 2048⟩, ⟨true, 399649, 10000, 243, 1024⟩, ⟨true, 409257, 10000,
    15, 64⟩, ⟨true, 138259, 5000, 291, 1024⟩, ⟨true, 282697, 10000, 9, 32⟩, ⟨true, 631013, 10000, 93, 512⟩, ⟨true,
    124687, 2000, 375, 2048⟩, ⟨true, 153987, 2500, 189, 1024⟩, ⟨true, 608551, 10000, 381, 2048⟩, ⟨true, 654301,
    10000, 363, 2048⟩, ⟨true, 129289, 2000, 183, 1024⟩, ⟨true, 319341, 5000, 369, 2048⟩, ⟨true, 137337, 2000, 351,
    2048⟩, ⟨true, 670299, 10000, 357, 2048⟩, ⟨true, 678443, 10000, 177, 1024⟩, ⟨true, 165563, 2500, 45, 256⟩, ⟨true,
    738251, 10000, 333, 2048⟩, ⟨true, 351733, 5000, 345, 2048⟩, ⟨true, 89001, 1250, 171, 1024⟩, ⟨true, 347513, 5000,
    87, 512⟩, ⟨true, 3647, 50, 21, 128⟩, ⟨true, 401617, 5000, 39, 256⟩, ⟨true, 196029, 2500, 159, 1024⟩, ⟨true,
    191361, 2500, 81, 512⟩, ⟨true, 747209, 10000, 165, 1024⟩, ⟨true, 822807, 10000, 153, 1024⟩, ⟨true, 421423, 5000,
    75, 512⟩, ⟨true, 45293, 500, 141, 1024⟩, ⟨true, 61574, 625, 261, 2048⟩, ⟨true, 475197, 5000, 135, 1024⟩, ⟨true,
    243363, 2500, 33, 256⟩, ⟨true, 192371, 2000, 267, 2048⟩, ⟨true, 927867, 10000, 69, 512⟩, ⟨true, 863361, 10000,
    147, 1024⟩, ⟨true, 131617, 2500, 417, 2048⟩, ⟨true, 134831, 2500, 411, 2048⟩, ⟨true, 532857, 10000, 207, 1024⟩,
    ⟨true, 260079, 5000, 105, 512⟩, ⟨true, 256963, 5000, 423, 2048⟩, ⟨true, 552501, 10000, 405, 2048⟩, ⟨true, 139803,
    2500, 201, 1024⟩, ⟨true, 113201, 2000, 399, 2048⟩, ⟨true, 286441, 5000, 99, 512⟩, ⟨true, 34117, 625, 51, 256⟩,
    ⟨true, 579843, 10000, 393, 2048⟩, ⟨true, 58689, 1000, 195, 1024⟩, ⟨true, 601243, 10000, 3, 16⟩, ⟨true, 594023,
    10000, 387, 2048⟩, ⟨true, 633617163, 50000000, 813, 2048⟩, ⟨true, 701552689, 50000000, 789, 2048⟩, ⟨true,
    1421142453, 100000000, 393, 1024⟩, ⟨true, 295350223, 20000000, 777, 2048⟩, ⟨true, 1495800519, 100000000, 387,
    1024⟩, ⟨true, 1439426357, 100000000, 783, 2048⟩, ⟨true, 72898059, 5000000, 195, 512⟩, ⟨true, 1515113739,
    100000000, 771, 2048⟩, ⟨true, 767347677, 50000000, 3, 8⟩, ⟨true, 675217831, 50000000, 399, 1024⟩, ⟨true,
    658242943, 50000000, 201, 512⟩, ⟨true, 1283433031, 100000000, 405, 1024⟩, ⟨true, 1367755827, 100000000, 795,
    2048⟩, ⟨true, 692655557, 50000000, 99, 256⟩, ⟨true, 240909469, 20000000, 825, 2048⟩, ⟨true, 229016737, 20000000,
    837, 2048⟩, ⟨true, 1159657871, 100000000, 417, 1024⟩, ⟨true, 1174424611, 100000000, 831, 2048⟩, ⟨true, 123547567,
    10000000, 819, 2048⟩, ⟨true, 152488663, 12500000, 411, 1024⟩, ⟨true, 1251249639, 100000000, 51, 128⟩, ⟨true,
    212305627, 20000000, 855, 2048⟩, ⟨true, 260409767, 25000000, 1719, 4096⟩, ⟨true, 1035094887, 100000000, 861,
    2048⟩, ⟨true, 1048225813, 100000000, 429, 1024⟩, ⟨true, 34020531, 3125000, 849, 2048⟩, ⟨true, 1116501819,
    100000000, 843, 2048⟩, ⟨true, 1130699271, 100000000, 105, 256⟩, ⟨true, 1102488611, 100000000, 423, 1024⟩, ⟨true,
    26706109, 2500000, 1707, 4096⟩, ⟨true, 537502187, 50000000, 213, 512⟩, ⟨true, 244515711, 25000000, 1749, 4096⟩,
    ⟨true, 492118693, 50000000, 873, 2048⟩, ⟨true, 9300707, 1000000, 1773, 4096⟩, ⟨true, 941838491, 100000000, 1767,
    4096⟩, ⟨true, 947779287, 100000000, 441, 1024⟩, ⟨true, 120729051, 12500000, 1755, 4096⟩, ⟨true, 29992999,
    3125000, 879, 2048⟩, ⟨true, 873440713, 100000000, 1803, 4096⟩, ⟨true, 867974259, 100000000, 903, 2048⟩, ⟨true,
    857145399, 100000000, 453, 1024⟩, ⟨true, 846453733, 100000000, 909, 2048⟩, ⟨true, 228174891, 25000000, 891,
    2048⟩, ⟨true, 884478881, 100000000, 1797, 4096⟩, ⟨true, 890051061, 100000000, 897, 2048⟩, ⟨true, 225325717,
    25000000, 447, 1024⟩, ⟨true, 462121581, 50000000, 111, 256⟩, ⟨true, 701347781, 100000000, 477, 1024⟩, ⟨true,
    359570719, 50000000, 237, 512⟩, ⟨true, 737390029, 100000000, 471, 1024⟩, ⟨true, 189026437, 25000000, 117, 256⟩,
    ⟨true, 765642707, 100000000, 933, 2048⟩, ⟨true, 193825299, 25000000, 465, 1024⟩, ⟨true, 785082821, 100000000,
    927, 2048⟩, ⟨true, 397494643, 50000000, 231, 512⟩, ⟨true, 104487173, 12500000, 57, 128⟩, ⟨true, 412737271,
    50000000, 915, 2048⟩, ⟨true, 407591711, 50000000, 459, 1024⟩, ⟨true, 402511121, 50000000, 921, 2048⟩, ⟨true,
    252334401, 25000000, 867, 2048⟩, ⟨true, 507857299, 50000000, 1731, 4096⟩, ⟨true, 1022132943, 100000000, 27, 64⟩,
    ⟨true, 996706529, 100000000, 435, 1024⟩, ⟨true, 574025147, 100000000, 501, 1024⟩, ⟨true, 58857797, 10000000, 249,
    512⟩, ⟨true, 158622709, 25000000, 489, 1024⟩, ⟨true, 166769563, 25000000, 483, 1024⟩, ⟨true, 650579747,
    100000000, 243, 512⟩, ⟨true, 123760203, 20000000, 123, 256⟩, ⟨true, 506479891, 100000000, 129, 256⟩, ⟨true,
    559832179, 100000000, 63, 128⟩, ⟨true, 133122381, 25000000, 255, 512⟩, ⟨true, 207248219, 50000000, 135, 256⟩,
    ⟨true, 114549469, 25000000, 33, 64⟩, ⟨true, 37493577, 10000000, 69, 128⟩, ⟨true, 683997209, 100000000, 15, 32⟩]

/-- fourth roots of pressures above saturation, times `10⁸` -/
def betas : List ℕ :=
  [198564303, 199204091, 0, 0, 0, 0, 0, 0, 0, 0, 0, 0, 0, 0, 0, 0, 0, 0, 0, 201140121, 0, 199846630, 200491960, 0, 0,
    0, 0, 0, 0, 0, 0, 0, 0, 0, 0, 0, 0, 0, 0, 0, 0, 0, 0, 0, 0, 0, 0, 0, 0, 0, 0, 0, 0, 0, 0, 0, 0, 0, 0, 0, 0, 0, 0,
    0, 0, 0, 0, 0, 0, 0, 0, 0, 0, 0, 0, 0, 0, 0, 0, 0, 0, 0, 0, 0, 0, 0, 0, 0, 0, 0, 0, 0, 0, 0, 0, 0, 0, 0, 0,
    188674945, 193540818, 194159839, 196031935, 196661080, 194781346, 195405368, 197292833, 197927229, 191698394,
    190482048, 189275021, 192310122, 192924254, 186297046, 183954030, 184536581, 185121255, 187481556, 186888202,
    188077131, 180502357, 179650866, 179368031, 179934198, 181644715, 182795230, 183373586, 182218945, 180787189,
    181072525, 176844554, 177123002, 174634076, 175183867, 175459466, 176289093, 176012077, 171912857, 171643243,
    171105364, 170569276, 173812882, 172453442, 172724415, 173267731, 174359880, 162735895, 163758397, 164787519,
    165823331, 166343769, 166865907, 167389753, 167915319, 170034967, 169502427, 168971646, 168442613, 178241617,
    178522485, 178803842, 177681342, 154786375, 155758229, 158710748, 160710479, 159707435, 157720358, 150017026,
    153820587, 151906993, 142685618, 146306381, 139151925, 161719944]

theorem lims_ok : chk2 lims betas = true := by decide +kernel

/-- temperature from pressure and entropy -/
def job : Job := ⟨B2.qp, B2.qsc, qB, B2.qT, ⟨true, 230763, 1462550⟩, 0, [side], B2.qp, B2.qsc, ⟨true, 230763, 1462550⟩⟩

end PyX.Kron.S2c
