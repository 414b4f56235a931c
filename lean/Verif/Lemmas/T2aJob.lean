import Verif.Lemmas.Back2

/-!
# The backward equation `T(p, h)` of subregion 2a
-/

namespace PyX.Kron.T2a

open Spec.IF97

/-- its coefficients -/
def table : List Term :=
  [⟨0, 0, 1089.8952318288⟩, ⟨0, 1, 849.51654495535⟩, ⟨0, 2, -107.81748091826⟩, ⟨0, 3, 33.153654801263⟩, ⟨0, 7,
    -7.4232016790248⟩, ⟨0, 20, 11.765048724356⟩, ⟨1, 0, 1.844574935579⟩, ⟨1, 1, -4.1792700549624⟩, ⟨1, 2,
    6.2478196935812⟩, ⟨1, 3, -17.344563108114⟩, ⟨1, 7, -200.58176862096⟩, ⟨1, 9, 271.96065473796⟩, ⟨1, 11,
    -455.11318285818⟩, ⟨1, 18, 3091.9688604755⟩, ⟨1, 44, 252266.40357872⟩, ⟨2, 0, -6.1707422868339e-03⟩, ⟨2, 2,
    -0.31078046629583⟩, ⟨2, 7, 11.670873077107⟩, ⟨2, 36, 128127984.04046⟩, ⟨2, 38, -985549096.23276⟩, ⟨2, 40,
    2822454697.3002⟩, ⟨2, 42, -3594897141.0703⟩, ⟨2, 44, 1722734991.3197⟩, ⟨3, 24, -13551.334240775⟩, ⟨3, 44,
    12848734.66465⟩, ⟨4, 12, 1.3865724283226⟩, ⟨4, 32, 235988.32556514⟩, ⟨4, 44, -13105236.545054⟩, ⟨5, 32,
    7399.9835474766⟩, ⟨5, 36, -551966.9703006⟩, ⟨5, 42, 3715408.5996233⟩, ⟨6, 34, 19127.72923966⟩, ⟨6, 44,
    -415351.64835634⟩, ⟨7, 28, -62.459855192507⟩]

def Bp : List Mono :=
  [(10898952318288000000, 0, 0), (74232016790248000, 0, 7), (117650487243560000, 0, 20), (18445749355790000, 1, 0),
    (41792700549624000, 1, 1), (62478196935812000, 1, 2), (173445631081140000, 1, 3), (2005817686209600000, 1, 7),
    (4551131828581800000, 1, 11), (30919688604755000000, 1, 18), (2522664035787200000000, 1, 44),
    (1281279840404600000000000, 2, 36), (28224546973002000000000000, 2, 40), (17227349913197000000000000, 2, 44),
    (128487346646500000000000, 3, 44), (13865724283226000, 4, 12), (2359883255651400000000, 4, 32),
    (73999835474766000000, 5, 32), (37154085996233000000000, 5, 42), (191277292396600000000, 6, 34)]

def Bn : List Mono :=
  [(8495165449553500000, 0, 1), (1078174809182600000, 0, 2), (331536548012630000, 0, 3), (2719606547379600000, 1, 9),
    (61707422868339, 2, 0), (3107804662958300, 2, 2), (116708730771070000, 2, 7), (9855490962327600000000000, 2, 38),
    (35948971410703000000000000, 2, 42), (135513342407750000000, 3, 24), (131052365450540000000000, 4, 44),
    (5519669703006000000000, 5, 36), (4153516483563400000000, 6, 44), (624598551925070000, 7, 28)]

theorem same_B : same 10000000000000000 0 0 0 0 (table.map flipJ) Bp Bn = true := by decide +kernel

def qB : Quot := ⟨.mono Bp Bn 7 44, [(10000000000000000, 0, 0)], 0, 0⟩

theorem qB_eval (x y : ℝ) : qB.eval x y = dpoly table 0 0 x (-y) := by
  simp only [qB, Quot.eval, E.eval, evalN_cons', evalN_nil']
  rw [same_eq0 same_B, dpoly_flipJ]
  push_cast
  field_simp
  ring

/-- limits of the vapour which the certificate makes use of -/
def lims : List Lim :=
  [⟨true, 70102281, 100000000, 375, 512⟩, ⟨true, 30800897, 50000000, 765, 1024⟩, ⟨true, 31608493, 50000000, 381,
    512⟩, ⟨true, 66572607, 100000000, 189, 256⟩, ⟨true, 16365249, 20000000, 183, 256⟩, ⟨true, 77719579, 100000000,
    369, 512⟩, ⟨true, 86145077, 100000000, 363, 512⟩, ⟨true, 3627473, 4000000, 45, 64⟩, ⟨true, 36907421, 50000000,
    93, 128⟩, ⟨true, 24658437, 20000000, 171, 256⟩, ⟨true, 136527289, 100000000, 21, 32⟩, ⟨true, 95462781, 100000000,
    357, 512⟩, ⟨true, 55658743, 50000000, 87, 128⟩, ⟨true, 92585027, 50000000, 159, 256⟩, ⟨true, 159032547,
    100000000, 327, 512⟩, ⟨true, 35914447, 25000000, 333, 512⟩, ⟨true, 167314623, 100000000, 81, 128⟩, ⟨true,
    226684369, 100000000, 153, 256⟩, ⟨true, 194787279, 100000000, 315, 512⟩, ⟨true, 204895309, 100000000, 39, 64⟩,
    ⟨true, 257151583, 100000000, 597, 1024⟩, ⟨true, 65928147, 25000000, 297, 512⟩, ⟨true, 291649049, 100000000, 291,
    512⟩, ⟨true, 35550321, 12500000, 585, 1024⟩, ⟨true, 135219321, 50000000, 591, 1024⟩, ⟨true, 277333883, 100000000,
    147, 256⟩, ⟨true, 125375791, 50000000, 75, 128⟩, ⟨true, 238418953, 100000000, 303, 512⟩, ⟨true, 98556053,
    25000000, 273, 512⟩, ⟨true, 96115021, 25000000, 549, 1024⟩, ⟨true, 318477459, 100000000, 1143, 2048⟩, ⟨true,
    310572723, 100000000, 1149, 2048⟩, ⟨true, 66141789, 20000000, 567, 1024⟩, ⟨true, 16744423, 5000000, 1131, 2048⟩,
    ⟨true, 339120221, 100000000, 141, 256⟩, ⟨true, 161252037, 50000000, 285, 512⟩, ⟨true, 365645333, 100000000, 555,
    1024⟩, ⟨true, 173871563, 50000000, 561, 1024⟩, ⟨true, 178291497, 50000000, 279, 512⟩, ⟨true, 37493577, 10000000,
    69, 128⟩, ⟨true, 302861943, 100000000, 1155, 2048⟩, ⟨true, 299077799, 100000000, 579, 1024⟩, ⟨true, 41707123,
    100000000, 405, 512⟩, ⟨true, 9258769, 20000000, 399, 512⟩, ⟨true, 21971009, 50000000, 201, 256⟩, ⟨true, 1444573,
    5000000, 213, 256⟩, ⟨true, 33827001, 100000000, 417, 512⟩, ⟨true, 2006039, 6250000, 105, 128⟩, ⟨true, 4695703,
    12500000, 411, 512⟩, ⟨true, 7916693, 20000000, 51, 64⟩, ⟨true, 17824221, 50000000, 207, 256⟩, ⟨true, 1051991,
    5000000, 111, 128⟩, ⟨true, 2747179, 20000000, 117, 128⟩, ⟨true, 2126089, 12500000, 57, 64⟩, ⟨true, 12999909,
    50000000, 27, 32⟩, ⟨true, 11695837, 50000000, 219, 256⟩, ⟨true, 51372501, 100000000, 393, 512⟩, ⟨true, 13528051,
    25000000, 195, 256⟩, ⟨true, 11698317, 20000000, 771, 1024⟩, ⟨true, 5699461, 10000000, 387, 512⟩, ⟨true, 48768579,
    100000000, 99, 128⟩, ⟨true, 4465467, 50000000, 123, 128⟩, ⟨true, 7190423, 100000000, 63, 64⟩, ⟨true, 72291,
    1250000, 129, 128⟩, ⟨true, 1198221, 50000000, 141, 128⟩, ⟨true, 85769, 4000000, 285, 256⟩, ⟨true, 3730073,
    100000000, 135, 128⟩, ⟨true, 4646867, 100000000, 33, 32⟩, ⟨true, 1495619, 50000000, 69, 64⟩, ⟨true, 11081497,
    100000000, 15, 16⟩, ⟨true, 685557, 50000000, 297, 256⟩, ⟨true, 64681, 6250000, 609, 512⟩, ⟨true, 873577,
    100000000, 309, 256⟩, ⟨true, 462197, 50000000, 615, 512⟩, ⟨true, 612697, 50000000, 75, 64⟩, ⟨true, 273729,
    25000000, 303, 256⟩, ⟨true, 1715427, 100000000, 291, 256⟩, ⟨true, 1918103, 100000000, 9, 8⟩, ⟨true, 766907,
    50000000, 147, 128⟩, ⟨true, 331373, 100000000, 669, 512⟩, ⟨true, 350963, 100000000, 333, 256⟩, ⟨true, 261949,
    50000000, 645, 512⟩, ⟨true, 328957, 50000000, 633, 512⟩, ⟨true, 348187, 50000000, 315, 256⟩, ⟨true, 310773,
    50000000, 159, 128⟩, ⟨true, 554641, 100000000, 321, 256⟩, ⟨true, 441383, 100000000, 327, 256⟩, ⟨true, 416831,
    100000000, 657, 512⟩, ⟨true, 467357, 100000000, 651, 512⟩, ⟨true, 3149, 800000, 165, 128⟩, ⟨true, 92923,
    25000000, 663, 512⟩, ⟨true, 195011, 25000000, 39, 32⟩, ⟨true, 43899, 25000000, 351, 256⟩, ⟨true, 156349,
    100000000, 177, 128⟩, ⟨true, 27837, 20000000, 357, 256⟩, ⟨true, 32903, 12500000, 681, 512⟩, ⟨true, 221363,
    100000000, 345, 256⟩, ⟨true, 52231, 25000000, 693, 512⟩, ⟨true, 23453, 10000000, 687, 512⟩, ⟨true, 312861,
    100000000, 21, 16⟩, ⟨true, 6971, 2500000, 339, 256⟩, ⟨true, 186077, 100000000, 699, 512⟩, ⟨true, 7887, 4000000,
    87, 64⟩, ⟨true, 87251, 100000000, 369, 256⟩, ⟨true, 6817, 12500000, 381, 256⟩, ⟨true, 11569, 20000000, 759, 512⟩,
    ⟨true, 61351, 100000000, 189, 128⟩, ⟨true, 77601, 100000000, 93, 64⟩, ⟨true, 34503, 50000000, 375, 256⟩, ⟨true,
    103987, 100000000, 729, 512⟩, ⟨true, 23373, 20000000, 723, 512⟩, ⟨true, 61941, 50000000, 45, 32⟩, ⟨true, 24521,
    25000000, 183, 128⟩]

/-- fourth roots of pressures above saturation, times `10⁸` -/
def betas : List ℕ :=
  [91502516, 88592782, 89167881, 90328311, 95109337, 93892869, 96340216, 97585670, 92690649, 105374102, 108094816,
    98845868, 102716650, 116652134, 112297866, 109479371, 113732209, 122703060, 118138145, 119641818, 126633118,
    127433237, 130681810, 129862386, 128238133, 129047838, 125837743, 124261100, 140908056, 140027332, 133588685,
    132751925, 134853271, 135277337, 135702679, 134008949, 138281795, 136557211, 137416903, 139151925, 131920162,
    131506144, 80362337, 82486108, 81417919, 73314921, 76263349, 75268773, 78288442, 79319223, 77269862, 67726792,
    60878541, 64219638, 71407294, 69544906, 84660860, 85767708, 87452725, 86887729, 83567041, 54666870, 51783166,
    49039218, 39345197, 38266398, 43947009, 46429077, 41587491, 57696518, 34219079, 31895113, 30572099, 31007317,
    33271234, 32347827, 36190373, 37214995, 35191932, 23992704, 24339696, 26903670, 28480150, 28887540, 28078131,
    27289954, 25775301, 25409138, 26146405, 25047855, 24691393, 29718690, 20470498, 19884899, 19315134, 22650666,
    21690816, 21379468, 22006429, 23650361, 22979398, 20769361, 21072334, 17186693, 15281657, 15508334, 15738199,
    16690376, 16207660, 17957443, 18489321, 18760811, 17696963]

theorem lims_ok : chk2 lims betas = true := by decide +kernel


/-- temperature from pressure and enthalpy -/
def job : Job := ⟨B2.qp, B2.qha, qB, B2.qT, ⟨false, 0, 1⟩, 0, [], q0, q0, ⟨false, 0, 1⟩⟩

end PyX.Kron.T2a
