import Verif.Lemmas.Back2s

/-!
# The backward equation `T(p, s)` of subregion 2b
-/

namespace PyX.Kron.S2b

open Spec.IF97

/-- its coefficients -/
def table : List Term :=
  [⟨-6, 0, 316876.65083497⟩, ⟨-6, 11, 20.864175881858⟩, ⟨-5, 0, -398593.99803599⟩, ⟨-5, 11, -21.816058518877⟩, ⟨-4,
    0, 223697.85194242⟩, ⟨-4, 1, -2784.1703445817⟩, ⟨-4, 11, 9.920743607148⟩, ⟨-3, 0, -75197.512299157⟩, ⟨-3, 1,
    2970.8605951158⟩, ⟨-3, 11, -3.4406878548526⟩, ⟨-3, 12, 0.38815564249115⟩, ⟨-2, 0, 17511.29508575⟩, ⟨-2, 1,
    -1423.7112854449⟩, ⟨-2, 6, 1.0943803364167⟩, ⟨-2, 10, 0.89971619308495⟩, ⟨-1, 0, -3375.9740098958⟩, ⟨-1, 1,
    471.62885818355⟩, ⟨-1, 5, -1.9188241993679⟩, ⟨-1, 8, 0.41078580492196⟩, ⟨-1, 9, -0.33465378172097⟩, ⟨0, 0,
    1387.0034777505⟩, ⟨0, 1, -406.63326195838⟩, ⟨0, 2, 41.72734715961⟩, ⟨0, 4, 2.1932549434532⟩, ⟨0, 5,
    -1.0320050009077⟩, ⟨0, 6, 0.35882943516703⟩, ⟨0, 9, 5.2511453726066e-03⟩, ⟨1, 0, 12.838916450705⟩, ⟨1, 1,
    -2.8642437219381⟩, ⟨1, 2, 0.56912683664855⟩, ⟨1, 3, -0.099962954584931⟩, ⟨1, 7, -3.2632037778459e-03⟩, ⟨1, 8,
    2.3320922576723e-04⟩, ⟨2, 0, -0.1533480985745⟩, ⟨2, 1, 0.029072288239902⟩, ⟨2, 5, 3.7534702741167e-04⟩, ⟨3, 0,
    1.7296691702411e-03⟩, ⟨3, 1, -3.8556050844504e-04⟩, ⟨3, 3, -3.5017712292608e-05⟩, ⟨4, 0, -1.4566393631492e-05⟩,
    ⟨4, 1, 5.6420857267269e-06⟩, ⟨5, 0, 4.1286150074605e-08⟩, ⟨5, 1, -2.0684671118824e-08⟩, ⟨5, 2,
    1.6409393674725e-09⟩]

def Bp : List Mono :=
  [(633753301669940000000000000, 0, 0), (41728351763716000000000, 0, 11), (447395703884840000000000000, 2, 0),
    (19841487214296000000000, 2, 11), (5941721190231600000000000, 3, 1), (776311284982300000000, 3, 12),
    (35022590171500000000000000, 4, 0), (2188760672833400000000, 4, 6), (1799432386169900000000, 4, 10),
    (943257716367100000000000, 5, 1), (821571609843920000000, 5, 8), (2774006955501000000000000, 6, 0),
    (83454694319220000000000, 6, 2), (4386509886906400000000, 6, 4), (717658870334060000000, 6, 6),
    (10502290745213200000, 6, 9), (25677832901410000000000, 7, 0), (1138253673297100000000, 7, 2),
    (466418451534460000, 7, 8), (58144576479804000000, 8, 1), (750694054823340000, 8, 5), (3459338340482200000, 9,
    0), (11284171453453800, 10, 1), (82572300149210, 11, 0), (3281878734945, 11, 2)]

def Bn : List Mono :=
  [(797187996071980000000000000, 1, 0), (43632117037754000000000, 1, 11), (5568340689163400000000000, 2, 1),
    (150395024598314000000000000, 3, 0), (6881375709705200000000, 3, 11), (2847422570889800000000000, 4, 1),
    (6751948019791600000000000, 5, 0), (3837648398735800000000, 5, 5), (669307563441940000000, 5, 9),
    (813266523916760000000000, 6, 1), (2064010001815400000000, 6, 5), (5728487443876200000000, 7, 1),
    (199925909169862000000, 7, 3), (6526407555691800000, 7, 7), (306696197149000000000, 8, 0), (771121016890080000,
    9, 1), (70035424585216000, 9, 3), (29132787262984000, 10, 0), (41369342237648, 11, 1)]

theorem same_B : same 2000000000000000000000 0 0 0 0 (table.map (shiftI 6)) Bp Bn = true := by decide +kernel

def qB : Quot := ⟨.mono Bp Bn 11 12, [(2000000000000000000000, 6, 0)], 6, 0⟩

theorem qB_eval {x : ℝ} (hx : 0 < x) (y : ℝ) : qB.eval x y = dpoly table 0 0 x y := by
  simp only [qB, Quot.eval, E.eval, evalN_cons', evalN_nil']
  rw [same_eq0 same_B, dpoly_shiftI _ _ hx.ne']
  push_cast
  field_simp
  ring

/-- on which side of the border -/
def side : E := .mono [(20030, 0, 0)] [(7853, 0, 1)] 0 1

theorem side_eval (x s : ℝ) : side.eval x (10 - s / 0.7853) = 10000 * (s - 5.85) := by
  simp only [side, E.eval, evalN_cons', evalN_nil']; push_cast; ring

/-- limits of the vapour which the certificate makes use of -/
def lims : List Lim :=
  [⟨true, 388637507, 25000000, 765, 2048⟩, ⟨true, 1574682543, 100000000, 381, 1024⟩, ⟨true, 215501, 10000, 327,
    1024⟩, ⟨true, 42283, 2000, 165, 512⟩, ⟨true, 6763, 250, 147, 512⟩, ⟨true, 126787, 5000, 303, 1024⟩, ⟨true, 31033,
    1250, 153, 512⟩, ⟨true, 64763, 2500, 75, 256⟩, ⟨true, 228627, 10000, 159, 512⟩, ⟨true, 28013, 1250, 321, 1024⟩,
    ⟨true, 238131, 10000, 39, 128⟩, ⟨true, 116651, 5000, 315, 1024⟩, ⟨true, 219729, 10000, 81, 256⟩, ⟨true, 37319,
    2000, 351, 1024⟩, ⟨true, 91043, 5000, 711, 2048⟩, ⟨true, 183559, 10000, 177, 512⟩, ⟨true, 49997, 2500, 339,
    1024⟩, ⟨true, 48259, 2500, 345, 1024⟩, ⟨true, 196447, 10000, 171, 512⟩, ⟨true, 203661, 10000, 21, 64⟩, ⟨true,
    189753, 10000, 87, 256⟩, ⟨true, 33791, 2000, 741, 2048⟩, ⟨true, 172597, 10000, 183, 512⟩, ⟨true, 170141, 10000,
    369, 1024⟩, ⟨true, 173867, 10000, 729, 2048⟩, ⟨true, 88923, 5000, 45, 128⟩, ⟨true, 163679703, 10000000, 753,
    2048⟩, ⟨true, 41389, 2500, 375, 1024⟩, ⟨true, 1595097803, 100000000, 759, 2048⟩, ⟨true, 807900451, 50000000, 189,
    512⟩, ⟨true, 83331, 5000, 747, 2048⟩, ⟨true, 295609, 10000, 141, 512⟩, ⟨true, 161881, 5000, 135, 512⟩, ⟨true,
    309287, 10000, 69, 256⟩, ⟨true, 93073, 2500, 63, 256⟩, ⟨true, 35523, 1000, 129, 512⟩, ⟨true, 67813, 2000, 33,
    128⟩, ⟨true, 429239, 10000, 117, 512⟩, ⟨true, 472409, 10000, 111, 512⟩, ⟨true, 495687, 10000, 27, 128⟩, ⟨true,
    225137, 5000, 57, 256⟩, ⟨true, 409257, 10000, 15, 64⟩, ⟨true, 24393, 625, 123, 512⟩, ⟨true, 138259, 5000, 291,
    1024⟩, ⟨true, 282697, 10000, 9, 32⟩, ⟨true, 153987, 2500, 189, 1024⟩, ⟨true, 129289, 2000, 183, 1024⟩, ⟨true,
    631013, 10000, 93, 512⟩, ⟨true, 165563, 2500, 45, 256⟩, ⟨true, 347513, 5000, 87, 512⟩, ⟨true, 3647, 50, 21, 128⟩,
    ⟨true, 191361, 2500, 81, 512⟩, ⟨true, 401617, 5000, 39, 256⟩, ⟨true, 421423, 5000, 75, 512⟩, ⟨true, 442181, 5000,
    9, 64⟩, ⟨true, 507771, 10000, 213, 1024⟩, ⟨true, 260079, 5000, 105, 512⟩, ⟨true, 139803, 2500, 201, 1024⟩, ⟨true,
    34117, 625, 51, 256⟩, ⟨true, 58689, 1000, 195, 1024⟩, ⟨true, 286441, 5000, 99, 512⟩, ⟨true, 601243, 10000, 3,
    16⟩, ⟨true, 633617163, 50000000, 813, 2048⟩, ⟨true, 701552689, 50000000, 789, 2048⟩, ⟨true, 295350223, 20000000,
    777, 2048⟩, ⟨true, 1495800519, 100000000, 387, 1024⟩, ⟨true, 1439426357, 100000000, 783, 2048⟩, ⟨true,
    1515113739, 100000000, 771, 2048⟩, ⟨true, 767347677, 50000000, 3, 8⟩, ⟨true, 675217831, 50000000, 399, 1024⟩,
    ⟨true, 1283433031, 100000000, 405, 1024⟩, ⟨true, 658242943, 50000000, 201, 512⟩, ⟨true, 692655557, 50000000, 99,
    256⟩, ⟨true, 1159657871, 100000000, 417, 1024⟩, ⟨true, 152488663, 12500000, 411, 1024⟩, ⟨true, 1251249639,
    100000000, 51, 128⟩, ⟨true, 1048225813, 100000000, 429, 1024⟩, ⟨true, 1130699271, 100000000, 105, 256⟩, ⟨true,
    537502187, 50000000, 213, 512⟩, ⟨true, 878942177, 100000000, 225, 512⟩, ⟨true, 485963973, 50000000, 219, 512⟩,
    ⟨true, 462121581, 50000000, 111, 256⟩, ⟨true, 359570719, 50000000, 237, 512⟩, ⟨true, 397494643, 50000000, 231,
    512⟩, ⟨true, 189026437, 25000000, 117, 256⟩, ⟨true, 104487173, 12500000, 57, 128⟩, ⟨true, 996706529, 100000000,
    435, 1024⟩, ⟨true, 1022132943, 100000000, 27, 64⟩, ⟨true, 650579747, 100000000, 243, 512⟩, ⟨true, 123760203,
    20000000, 123, 256⟩, ⟨true, 506479891, 100000000, 129, 256⟩, ⟨true, 133122381, 25000000, 255, 512⟩, ⟨true,
    559832179, 100000000, 63, 128⟩, ⟨true, 207248219, 50000000, 135, 256⟩, ⟨true, 435803173, 100000000, 267, 512⟩,
    ⟨true, 114549469, 25000000, 33, 64⟩, ⟨true, 37493577, 10000000, 69, 128⟩, ⟨true, 683997209, 100000000, 15, 32⟩]

/-- fourth roots of pressures above saturation, times `10⁸` -/
def betas : List ℕ :=
  [198564303, 199204091, 0, 0, 0, 0, 0, 0, 0, 0, 0, 0, 0, 0, 0, 0, 0, 0, 0, 0, 0, 0, 0, 0, 0, 0, 201140121, 0,
    199846630, 200491960, 0, 0, 0, 0, 0, 0, 0, 0, 0, 0, 0, 0, 0, 0, 0, 0, 0, 0, 0, 0, 0, 0, 0, 0, 0, 0, 0, 0, 0, 0,
    0, 0, 188674945, 193540818, 196031935, 196661080, 194781346, 197292833, 197927229, 191698394, 189275021,
    190482048, 192924254, 184536581, 186888202, 188077131, 179934198, 183373586, 181072525, 172182923, 176566585,
    174359880, 163758397, 167915319, 165823331, 170034967, 177681342, 178803842, 159707435, 157720358, 150017026,
    151906993, 153820587, 142685618, 144484945, 146306381, 139151925, 161719944]

theorem lims_ok : chk2 lims betas = true := by decide +kernel

/-- temperature from pressure and entropy -/
def job : Job := ⟨B2.qp, B2.qsb, qB, B2.qT, ⟨false, 230763, 392650⟩, 0, [side], B2.qp, B2.qsb, ⟨false, 230763, 392650⟩⟩

end PyX.Kron.S2b
