import Verif.Lemmas.Back2

/-!
# The backward equation `T(p, h)` of subregion 2b
-/

namespace PyX.Kron.T2b

open Spec.IF97

/-- its coefficients -/
def table : List Term :=
  [⟨0, 0, 1489.5041079516⟩, ⟨0, 1, 743.07798314034⟩, ⟨0, 2, -97.708318797837⟩, ⟨0, 12, 2.4742464705674⟩, ⟨0, 18,
    -0.63281320016026⟩, ⟨0, 24, 1.1385952129658⟩, ⟨0, 28, -0.47811863648625⟩, ⟨0, 40, 8.5208123431544e-03⟩, ⟨1, 0,
    0.93747147377932⟩, ⟨1, 2, 3.3593118604916⟩, ⟨1, 6, 3.3809355601454⟩, ⟨1, 12, 0.16844539671904⟩, ⟨1, 18,
    0.73875745236695⟩, ⟨1, 24, -0.47128737436186⟩, ⟨1, 28, 0.15020273139707⟩, ⟨1, 40, -0.002176411421975⟩, ⟨2, 2,
    -0.021810755324761⟩, ⟨2, 8, -0.10829784403677⟩, ⟨2, 18, -0.046333324635812⟩, ⟨2, 40, 7.1280351959551e-05⟩, ⟨3, 1,
    1.1032831789999e-04⟩, ⟨3, 2, 1.8955248387902e-04⟩, ⟨3, 12, 3.0891541160537e-03⟩, ⟨3, 24, 1.3555504554949e-03⟩,
    ⟨4, 2, 2.8640237477456e-07⟩, ⟨4, 12, -1.0779857357512e-05⟩, ⟨4, 18, -7.6462712454814e-05⟩, ⟨4, 24,
    1.4052392818316e-05⟩, ⟨4, 28, -3.1083814331434e-05⟩, ⟨4, 40, -1.0302738212103e-06⟩, ⟨5, 18, 2.821728163504e-07⟩,
    ⟨5, 24, 1.2704902271945e-06⟩, ⟨5, 40, 7.3803353468292e-08⟩, ⟨6, 28, -1.1030139238909e-08⟩, ⟨7, 2,
    -8.1456365207833e-14⟩, ⟨7, 28, -2.5180545682962e-11⟩, ⟨9, 1, -1.7565233969407e-18⟩, ⟨9, 40, 8.6934156344163e-15⟩]

def Bp : List Mono :=
  [(14895041079516000000000000000000000, 0, 0), (24742464705674000000000000000000, 0, 12),
    (11385952129658000000000000000000, 0, 24), (85208123431544000000000000000, 0, 40),
    (9374714737793200000000000000000, 1, 0), (33593118604916000000000000000000, 1, 2),
    (33809355601454000000000000000000, 1, 6), (1684453967190400000000000000000, 1, 12),
    (7387574523669500000000000000000, 1, 18), (1502027313970700000000000000000, 1, 28), (712803519595510000000000000,
    2, 40), (1895524838790200000000000000, 3, 2), (30891541160537000000000000000, 3, 12),
    (13555504554949000000000000000, 3, 24), (2864023747745600000000000, 4, 2), (140523928183160000000000000, 4, 24),
    (2821728163504000000000000, 5, 18), (12704902271945000000000000, 5, 24), (738033534682920000000000, 5, 40),
    (17565233969407, 9, 1), (86934156344163000, 9, 40)]

def Bn : List Mono :=
  [(7430779831403400000000000000000000, 0, 1), (977083187978370000000000000000000, 0, 2),
    (6328132001602600000000000000000, 0, 18), (4781186364862500000000000000000, 0, 28),
    (4712873743618600000000000000000, 1, 24), (21764114219750000000000000000, 1, 40),
    (218107553247610000000000000000, 2, 2), (1082978440367700000000000000000, 2, 8), (463333246358120000000000000000,
    2, 18), (1103283178999900000000000000, 3, 1), (107798573575120000000000000, 4, 12), (764627124548140000000000000,
    4, 18), (310838143314340000000000000, 4, 28), (10302738212103000000000000, 4, 40), (110301392389090000000000, 6,
    28), (814563652078330000, 7, 2), (251805456829620000000, 7, 28)]

theorem same_B : same 10000000000000000000000000000000 0 0 0 0 (table.map flipJ) Bp Bn = true := by decide +kernel

def qB : Quot := ⟨.mono Bp Bn 9 40, [(10000000000000000000000000000000, 0, 0)], 0, 0⟩

theorem qB_eval (x y : ℝ) : qB.eval x y = dpoly table 0 0 x (-y) := by
  simp only [qB, Quot.eval, E.eval, evalN_cons', evalN_nil']
  rw [same_eq0 same_B, dpoly_flipJ]
  push_cast
  field_simp
  ring

/-- limits of the vapour which the certificate makes use of -/
def lims : List Lim :=
  [⟨true, 388637507, 25000000, 765, 2048⟩, ⟨true, 1574682543, 100000000, 381, 1024⟩, ⟨true, 207469, 10000, 333,
    1024⟩, ⟨true, 215501, 10000, 327, 1024⟩, ⟨true, 42283, 2000, 165, 512⟩, ⟨true, 6763, 250, 147, 512⟩, ⟨true,
    126787, 5000, 303, 1024⟩, ⟨true, 31033, 1250, 153, 512⟩, ⟨true, 64763, 2500, 75, 256⟩, ⟨true, 28013, 1250, 321,
    1024⟩, ⟨true, 116651, 5000, 315, 1024⟩, ⟨true, 238131, 10000, 39, 128⟩, ⟨true, 219729, 10000, 81, 256⟩, ⟨true,
    91043, 5000, 711, 2048⟩, ⟨true, 183559, 10000, 177, 512⟩, ⟨true, 48259, 2500, 345, 1024⟩, ⟨true, 49997, 2500,
    339, 1024⟩, ⟨true, 196447, 10000, 171, 512⟩, ⟨true, 203661, 10000, 21, 64⟩, ⟨true, 189753, 10000, 87, 256⟩,
    ⟨true, 33791, 2000, 741, 2048⟩, ⟨true, 172597, 10000, 183, 512⟩, ⟨true, 170141, 10000, 369, 1024⟩, ⟨true, 173867,
    10000, 729, 2048⟩, ⟨true, 35033, 2000, 363, 1024⟩, ⟨true, 88923, 5000, 45, 128⟩, ⟨true, 41389, 2500, 375, 1024⟩,
    ⟨true, 163679703, 10000000, 753, 2048⟩, ⟨true, 1595097803, 100000000, 759, 2048⟩, ⟨true, 807900451, 50000000,
    189, 512⟩, ⟨true, 83331, 5000, 747, 2048⟩, ⟨true, 289059, 10000, 285, 1024⟩, ⟨true, 295609, 10000, 141, 512⟩,
    ⟨true, 161881, 5000, 135, 512⟩, ⟨true, 309287, 10000, 69, 256⟩, ⟨true, 93073, 2500, 63, 256⟩, ⟨true, 35523, 1000,
    129, 512⟩, ⟨true, 67813, 2000, 33, 128⟩, ⟨true, 429239, 10000, 117, 512⟩, ⟨true, 472409, 10000, 111, 512⟩, ⟨true,
    495687, 10000, 27, 128⟩, ⟨true, 225137, 5000, 57, 256⟩, ⟨true, 409257, 10000, 15, 64⟩, ⟨true, 24393, 625, 123,
    512⟩, ⟨true, 282697, 10000, 9, 32⟩, ⟨true, 631013, 10000, 93, 512⟩, ⟨true, 129289, 2000, 183, 1024⟩, ⟨true,
    165563, 2500, 45, 256⟩, ⟨true, 347513, 5000, 87, 512⟩, ⟨true, 3647, 50, 21, 128⟩, ⟨true, 191361, 2500, 81, 512⟩,
    ⟨true, 401617, 5000, 39, 256⟩, ⟨true, 927867, 10000, 69, 512⟩, ⟨true, 421423, 5000, 75, 512⟩, ⟨true, 442181,
    5000, 9, 64⟩, ⟨true, 532857, 10000, 207, 1024⟩, ⟨true, 260079, 5000, 105, 512⟩, ⟨true, 507771, 10000, 213, 1024⟩,
    ⟨true, 139803, 2500, 201, 1024⟩, ⟨true, 34117, 625, 51, 256⟩, ⟨true, 58689, 1000, 195, 1024⟩, ⟨true, 286441,
    5000, 99, 512⟩, ⟨true, 601243, 10000, 3, 16⟩, ⟨true, 633617163, 50000000, 813, 2048⟩, ⟨true, 1421142453,
    100000000, 393, 1024⟩, ⟨true, 1439426357, 100000000, 783, 2048⟩, ⟨true, 72898059, 5000000, 195, 512⟩, ⟨true,
    1495800519, 100000000, 387, 1024⟩, ⟨true, 1515113739, 100000000, 771, 2048⟩, ⟨true, 767347677, 50000000, 3, 8⟩,
    ⟨true, 675217831, 50000000, 399, 1024⟩, ⟨true, 658242943, 50000000, 201, 512⟩, ⟨true, 1283433031, 100000000, 405,
    1024⟩, ⟨true, 1367755827, 100000000, 795, 2048⟩, ⟨true, 692655557, 50000000, 99, 256⟩, ⟨true, 594693389,
    50000000, 207, 512⟩, ⟨true, 1159657871, 100000000, 417, 1024⟩, ⟨true, 152488663, 12500000, 411, 1024⟩, ⟨true,
    1251249639, 100000000, 51, 128⟩, ⟨true, 1035094887, 100000000, 861, 2048⟩, ⟨true, 1048225813, 100000000, 429,
    1024⟩, ⟨true, 1102488611, 100000000, 423, 1024⟩, ⟨true, 1130699271, 100000000, 105, 256⟩, ⟨true, 485963973,
    50000000, 219, 512⟩, ⟨true, 878942177, 100000000, 225, 512⟩, ⟨true, 462121581, 50000000, 111, 256⟩, ⟨true,
    359570719, 50000000, 237, 512⟩, ⟨true, 397494643, 50000000, 231, 512⟩, ⟨true, 189026437, 25000000, 117, 256⟩,
    ⟨true, 104487173, 12500000, 57, 128⟩, ⟨true, 996706529, 100000000, 435, 1024⟩, ⟨true, 650579747, 100000000, 243,
    512⟩, ⟨true, 123760203, 20000000, 123, 256⟩, ⟨true, 240868479, 50000000, 261, 512⟩, ⟨true, 129830579, 25000000,
    513, 1024⟩, ⟨true, 506479891, 100000000, 129, 256⟩, ⟨true, 559832179, 100000000, 63, 128⟩, ⟨true, 133122381,
    25000000, 255, 512⟩, ⟨true, 207248219, 50000000, 135, 256⟩, ⟨true, 435803173, 100000000, 267, 512⟩, ⟨true,
    114549469, 25000000, 33, 64⟩, ⟨true, 37493577, 10000000, 69, 128⟩, ⟨true, 683997209, 100000000, 15, 32⟩]

/-- fourth roots of pressures above saturation, times `10⁸` -/
def betas : List ℕ :=
  [198564303, 199204091, 0, 0, 0, 0, 0, 0, 0, 0, 0, 0, 0, 0, 0, 0, 0, 0, 0, 0, 0, 0, 0, 0, 0, 0, 0, 201140121,
    199846630, 200491960, 0, 0, 0, 0, 0, 0, 0, 0, 0, 0, 0, 0, 0, 0, 0, 0, 0, 0, 0, 0, 0, 0, 0, 0, 0, 0, 0, 0, 0, 0,
    0, 0, 0, 188674945, 194159839, 194781346, 195405368, 196661080, 197292833, 197927229, 191698394, 190482048,
    189275021, 192310122, 192924254, 185708070, 184536581, 186888202, 188077131, 179368031, 179934198, 182218945,
    183373586, 176566585, 172182923, 174359880, 163758397, 167915319, 165823331, 170034967, 177681342, 159707435,
    157720358, 148150285, 150959082, 150017026, 153820587, 151906993, 142685618, 144484945, 146306381, 139151925,
    161719944]

theorem lims_ok : chk2 lims betas = true := by decide +kernel

/-- `p - 2` -/
def q1 : Quot := ⟨.mono [(1, 1, 0)] [(2, 0, 0)] 1 0, [(1, 0, 0)], 0, 0⟩

theorem q1_eval (x y : ℝ) : q1.eval x y = x - 2 := by
  simp [q1, Quot.eval, E.eval]

/-- on which side of the border -/
def side : E := .mono [(90584278514723, 0, 0), (51236010920544, 0, 2)] [(135911572798482, 0, 1), (100000000000, 1, 0)] 1 2

theorem side_eval (x y : ℝ) : side.eval x y = 100000000000 * (905.84278514723 - 0.67955786399241 * (2000 * y) + 1.2809002730136e-04 * (2000 * y) ^ 2 - x) := by
  simp only [side, E.eval, evalN_cons', evalN_nil']; push_cast; ring

/-- temperature from pressure and enthalpy -/
def job : Job := ⟨q1, B2.qhb, qB, B2.qT, ⟨false, 0, 1⟩, 0, [side], B2.qp, B2.qh, ⟨false, 0, 1⟩⟩

end PyX.Kron.T2b
