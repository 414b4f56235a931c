import Verif.Lemmas.Back2s

/-!
# The backward equation `T(p, s)` of subregion 2a
-/

namespace PyX.Kron.S2a

open Spec.IF97

/-- its coefficients, with the exponents of the pressure multiplied by 4 -/
def table : List Term :=
  [⟨-6, -24, -392359.83861984⟩, ⟨-6, -23, 515265.7382727⟩, ⟨-6, -19, 40482.443161048⟩, ⟨-6, -13, -321.93790923902⟩,
    ⟨-6, -11, 96.961424218694⟩, ⟨-6, -10, -22.867846371773⟩, ⟨-5, -19, -449429.14124357⟩, ⟨-5, -15,
    -5011.8336020166⟩, ⟨-5, -6, 0.35684463560015⟩, ⟨-4, -26, 44235.33584819⟩, ⟨-4, -21, -13673.388811708⟩, ⟨-4, -17,
    421632.60207864⟩, ⟨-4, -16, 22516.925837475⟩, ⟨-4, -9, 474.42144865646⟩, ⟨-4, -8, -149.31130797647⟩, ⟨-3, -15,
    -197811.26320452⟩, ⟨-3, -14, -23554.39947076⟩, ⟨-2, -26, -19070.616302076⟩, ⟨-2, -13, 55375.669883164⟩, ⟨-2, -9,
    3829.3691437363⟩, ⟨-2, -7, -603.91860580567⟩, ⟨-1, -27, 1936.3102620331⟩, ⟨-1, -25, 4266.064369861⟩, ⟨-1, -11,
    -5978.0638872718⟩, ⟨-1, -6, -704.01463926862⟩, ⟨1, 1, 338.36784107553⟩, ⟨1, 4, 20.862786635187⟩, ⟨1, 8,
    0.033834172656196⟩, ⟨1, 11, -4.3124428414893e-05⟩, ⟨2, 0, 166.53791356412⟩, ⟨2, 1, -139.86292055898⟩, ⟨2, 5,
    -0.78849547999872⟩, ⟨2, 6, 0.072132411753872⟩, ⟨2, 10, -5.9754839398283e-03⟩, ⟨2, 14, -1.2141358953904e-05⟩, ⟨2,
    16, 2.3227096733871e-07⟩, ⟨3, 0, -10.538463566194⟩, ⟨3, 4, 2.0718925496502⟩, ⟨3, 9, -0.072193155260427⟩, ⟨3, 17,
    2.074988708112e-07⟩, ⟨4, 7, -0.018340657911379⟩, ⟨4, 18, 2.9036272348696e-07⟩, ⟨5, 3, 0.21037527893619⟩, ⟨5, 15,
    2.5681239729999e-04⟩, ⟨6, 5, -0.012799002933781⟩, ⟨6, 18, -8.2198102652018e-06⟩]

def Bp : List Mono :=
  [(51526573827270000000000000, 0, 4), (4048244316104800000000000, 0, 8), (9696142421869400000000, 0, 16),
    (35684463560015000000, 1, 21), (4423533584819000000000000, 2, 1), (42163260207864000000000000, 2, 10),
    (2251692583747500000000000, 2, 11), (47442144865646000000000, 2, 18), (5537566988316400000000000, 4, 14),
    (382936914373630000000000, 4, 18), (193631026203310000000000, 5, 0), (426606436986100000000000, 5, 2),
    (33836784107553000000000, 7, 28), (2086278663518700000000, 7, 31), (3383417265619600000, 7, 35),
    (16653791356412000000000, 8, 27), (7213241175387200000, 8, 33), (23227096733871, 8, 43), (207189254965020000000,
    9, 31), (20749887081120, 9, 44), (29036272348696, 10, 45), (21037527893619000000, 11, 30), (25681239729999000,
    11, 42)]

def Bn : List Mono :=
  [(39235983861984000000000000, 0, 3), (32193790923902000000000, 0, 14), (2286784637177300000000, 0, 17),
    (44942914124357000000000000, 1, 8), (501183360201660000000000, 1, 12), (1367338881170800000000000, 2, 6),
    (14931130797647000000000, 2, 19), (19781126320452000000000000, 3, 12), (2355439947076000000000000, 3, 13),
    (1907061630207600000000000, 4, 1), (60391860580567000000000, 4, 20), (597806388727180000000000, 5, 16),
    (70401463926862000000000, 5, 21), (4312442841489300, 7, 38), (13986292055898000000000, 8, 28),
    (78849547999872000000, 8, 32), (597548393982830000, 8, 37), (1214135895390400, 8, 41), (1053846356619400000000,
    9, 27), (7219315526042700000, 9, 36), (1834065791137900000, 10, 34), (1279900293378100000, 12, 32),
    (821981026520180, 12, 45)]

theorem same_B : same 100000000000000000000 0 0 0 0 ((table.map (shiftJ 27)).map (shiftI 6)) Bp Bn = true := by decide +kernel

def qB : Quot := ⟨.mono Bp Bn 12 45, [(100000000000000000000, 6, 27)], 6, 27⟩

theorem qB_eval {x y : ℝ} (hx : 0 < x) (hy : y ≠ 0) : qB.eval x y = dpoly table 0 0 x y := by
  simp only [qB, Quot.eval, E.eval, evalN_cons', evalN_nil']
  rw [same_eq0 same_B, dpoly_shiftI _ _ hx.ne', dpoly_shiftJ _ _ _ hy]
  push_cast
  field_simp
  ring

/-- limits of the vapour which the certificate makes use of -/
def lims : List Lim :=
  [⟨true, 90328311, 100000000, 189, 256⟩, ⟨true, 89167881, 100000000, 381, 512⟩, ⟨true, 93892869, 100000000, 369,
    512⟩, ⟨true, 92690649, 100000000, 93, 128⟩, ⟨true, 22875629, 25000000, 375, 512⟩, ⟨true, 24711467, 25000000, 357,
    512⟩, ⟨true, 100120981, 100000000, 177, 256⟩, ⟨true, 12042527, 12500000, 363, 512⟩, ⟨true, 95109337, 100000000,
    183, 256⟩, ⟨true, 9758567, 10000000, 45, 64⟩, ⟨true, 52687051, 50000000, 171, 256⟩, ⟨true, 3377963, 3125000, 21,
    32⟩, ⟨true, 2054333, 2000000, 87, 128⟩, ⟨true, 35006833, 25000000, 549, 1024⟩, ⟨true, 17613507, 12500000, 273,
    512⟩, ⟨true, 71861589, 50000000, 17169, 32768⟩, ⟨true, 143638779, 100000000, 8589, 16384⟩, ⟨true, 143666907,
    100000000, 17175, 32768⟩, ⟨true, 449047, 312500, 4293, 8192⟩, ⟨true, 142909337, 100000000, 2157, 4096⟩, ⟨true,
    143357797, 100000000, 2151, 4096⟩, ⟨true, 71763161, 50000000, 8595, 16384⟩, ⟨true, 71735063, 50000000, 4299,
    8192⟩, ⟨true, 7179127, 5000000, 537, 1024⟩, ⟨true, 35783349, 25000000, 1077, 2048⟩, ⟨true, 142239201, 100000000,
    1083, 2048⟩, ⟨true, 5654017, 4000000, 1089, 2048⟩, ⟨true, 71342809, 50000000, 135, 256⟩, ⟨true, 137416903,
    100000000, 279, 512⟩, ⟨true, 135702679, 100000000, 141, 256⟩, ⟨true, 5566077, 4000000, 69, 128⟩, ⟨true,
    113732209, 100000000, 81, 128⟩, ⟨true, 56148933, 50000000, 327, 512⟩, ⟨true, 110880321, 100000000, 165, 256⟩,
    ⟨true, 115183561, 100000000, 321, 512⟩, ⟨true, 23627629, 20000000, 315, 512⟩, ⟨true, 58326067, 50000000, 159,
    256⟩, ⟨true, 6135153, 5000000, 153, 256⟩, ⟨true, 121163379, 100000000, 309, 512⟩, ⟨true, 1242611, 1000000, 303,
    512⟩, ⟨true, 125837743, 100000000, 75, 128⟩, ⟨true, 59820909, 50000000, 39, 64⟩, ⟨true, 127433237, 100000000,
    297, 512⟩, ⟨true, 64523919, 50000000, 147, 256⟩, ⟨true, 13068181, 10000000, 291, 512⟩, ⟨true, 132335421,
    100000000, 9, 16⟩, ⟨true, 19133199, 50000000, 285, 256⟩, ⟨true, 2528251, 6250000, 279, 256⟩, ⟨true, 39345197,
    100000000, 141, 128⟩, ⟨true, 41587491, 100000000, 69, 64⟩, ⟨true, 43947009, 100000000, 135, 128⟩, ⟨true,
    42752269, 100000000, 273, 256⟩, ⟨true, 1411637, 3125000, 267, 256⟩, ⟨true, 60878541, 100000000, 117, 128⟩, ⟨true,
    73314921, 100000000, 213, 256⟩, ⟨true, 38634931, 50000000, 207, 256⟩, ⟨true, 75268773, 100000000, 105, 128⟩,
    ⟨true, 32109819, 50000000, 57, 64⟩, ⟨true, 65952009, 100000000, 225, 256⟩, ⟨true, 8465849, 12500000, 111, 128⟩,
    ⟨true, 35703647, 50000000, 27, 32⟩, ⟨true, 24519609, 50000000, 129, 128⟩, ⟨true, 25891583, 50000000, 63, 64⟩,
    ⟨true, 5466687, 10000000, 123, 128⟩, ⟨true, 28848259, 50000000, 15, 16⟩, ⟨true, 46429077, 100000000, 33, 32⟩,
    ⟨true, 5009571, 20000000, 165, 128⟩, ⟨true, 1521231, 6250000, 333, 256⟩, ⟨true, 25775301, 100000000, 327, 256⟩,
    ⟨true, 26522507, 100000000, 81, 64⟩, ⟨true, 1444377, 5000000, 315, 256⟩, ⟨true, 28078131, 100000000, 159, 128⟩,
    ⟨true, 13644977, 50000000, 321, 256⟩, ⟨true, 30572099, 100000000, 309, 256⟩, ⟨true, 5860073, 20000000, 627, 512⟩,
    ⟨true, 2971869, 10000000, 39, 32⟩, ⟨true, 32806511, 100000000, 603, 512⟩, ⟨true, 32347827, 100000000, 303, 256⟩,
    ⟨true, 31448299, 100000000, 153, 128⟩, ⟨true, 16871033, 50000000, 597, 512⟩, ⟨true, 34702343, 100000000, 591,
    512⟩, ⟨true, 34219079, 100000000, 297, 256⟩, ⟨true, 16635617, 50000000, 75, 64⟩, ⟨true, 35687917, 100000000, 585,
    512⟩, ⟨true, 36190373, 100000000, 291, 256⟩, ⟨true, 8797983, 25000000, 147, 128⟩, ⟨true, 7442999, 20000000, 9,
    8⟩, ⟨true, 19884899, 100000000, 177, 128⟩, ⟨true, 9657567, 50000000, 357, 256⟩, ⟨true, 10235249, 50000000, 351,
    256⟩, ⟨true, 338919, 1562500, 345, 256⟩, ⟨true, 11489699, 50000000, 339, 256⟩, ⟨true, 22326361, 100000000, 171,
    128⟩, ⟨true, 10536167, 50000000, 87, 64⟩, ⟨true, 23312611, 100000000, 675, 512⟩, ⟨true, 23650361, 100000000, 21,
    16⟩, ⟨true, 15281657, 100000000, 381, 256⟩, ⟨true, 15738199, 100000000, 189, 128⟩, ⟨true, 810383, 5000000, 375,
    256⟩, ⟨true, 2086297, 12500000, 93, 64⟩, ⟨true, 17186693, 100000000, 369, 256⟩, ⟨true, 17696963, 100000000, 183,
    128⟩, ⟨true, 18760811, 100000000, 45, 32⟩, ⟨true, 18221547, 100000000, 363, 256⟩, ⟨true, 81417919, 100000000,
    201, 256⟩, ⟨true, 21441927, 25000000, 195, 256⟩, ⟨true, 4233043, 5000000, 393, 512⟩, ⟨true, 83567041, 100000000,
    99, 128⟩, ⟨true, 8802107, 10000000, 3, 4⟩, ⟨true, 86887729, 100000000, 387, 512⟩, ⟨true, 79319223, 100000000, 51,
    64⟩]

/-- fourth roots of pressures above saturation, times `10⁸` -/
def betas : List ℕ :=
  [90328311, 89167881, 93892869, 92690649, 91502516, 98845868, 100120981, 96340216, 95109337, 97585670, 105374102,
    108094816, 102716650, 140027332, 140908056, 143723178, 143638779, 143666907, 143695040, 142909337, 143357797,
    143526322, 143470126, 143582540, 143133396, 142239201, 141350425, 142685618, 137416903, 135702679, 139151925,
    113732209, 112297866, 110880321, 115183561, 118138145, 116652134, 122703060, 121163379, 124261100, 125837743,
    119641818, 127433237, 129047838, 130681810, 132335421, 38266398, 40452016, 39345197, 41587491, 43947009,
    42752269, 45172384, 60878541, 73314921, 77269862, 75268773, 64219638, 65952009, 67726792, 71407294, 49039218,
    51783166, 54666870, 57696518, 46429077, 25047855, 24339696, 25775301, 26522507, 28887540, 28078131, 27289954,
    30572099, 29300365, 29718690, 32806511, 32347827, 31448299, 33742066, 34702343, 34219079, 33271234, 35687917,
    36190373, 35191932, 37214995, 19884899, 19315134, 20470498, 21690816, 22979398, 22326361, 21072334, 23312611,
    23650361, 15281657, 15738199, 16207660, 16690376, 17186693, 17696963, 18760811, 18221547, 81417919, 85767708,
    84660860, 83567041, 88021070, 86887729, 79319223]

theorem lims_ok : chk2 (lims.map (limPow 4)) betas = true := by decide +kernel

/-- temperature from pressure and entropy -/
def job : Job := ⟨B2.qp, B2.qsa, qB, B2.qT, ⟨true, 230763, 250000⟩, 0, [], q0, q0, ⟨false, 0, 1⟩⟩

end PyX.Kron.S2a
