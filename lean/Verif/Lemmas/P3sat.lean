import Verif.Lemmas.Univ

/-!
# The saturation pressure of region 3 as a function of enthalpy and of entropy: bounds

The functions `p3sat_h` and `p3sat_s` are `22 Σ n (η - α)^I (η - β)^J` with `η = h/2600` or `η = s/5.2`. Here the coefficients are
multiplied by their common denominator. The lists give half the lengths of consecutive segments, in 10⁻³ kJ/kg and 10⁻⁶ kJ/(kg K).
-/

namespace PyX.Univ

def hTs : List (ℤ × ℕ × ℕ) :=
  [(300036820876512, 0, 0), (-4681018274249285, 1, 1), (12329539929707350, 1, 3), (-53507111429112000, 1, 4),
    (-45791065790288400000000000000, 1, 36), (-4311660058503310000, 5, 3), (-11791867237001600, 7, 0),
    (126152484692064000000000000000000, 8, 24), (-1948593859988595000000000000000000, 14, 16),
    (-16688785682264800000000000000000000000, 20, 16), (17824973481816400000000000, 22, 3),
    (-74273772360320500000000000000000000000000, 24, 18), (1653057574193990000000000000000000, 28, 8),
    (40682064723391450000000000000000000000000000000000000, 36, 24)]

def sTs : List (ℤ × ℕ × ℕ) :=
  [(127953510722557, 0, 0), (-2594548907920280, 1, 1), (-449190251696806000000000000000, 1, 32), (354933483603692000000, 4, 7),
    (1434158699143076000000000, 12, 4), (-75765821433802200000000000000000, 12, 14),
    (-19111734728626560000000000000000000000000000000000, 16, 36), (37453962935237600000000000000000000000, 24, 10),
    (23850949293294600000000000, 28, 0), (221298554489764000000000000000000000000000000000000, 32, 18)]

/-- the common denominators -/
def hDen : ℤ := 500000000000000
def sDen : ℤ := 200000000000000

def hTop : List ℕ :=
  [73000, 74752, 48988, 32104, 16830, 13786, 9033, 7398, 6059, 6204, 5081, 4161, 3408, 2790, 2284, 1870, 1531, 1253, 1282, 1049,
    858, 701, 572, 585, 478, 390, 319, 326, 265, 271, 220, 179, 182, 185, 188, 192, 196, 200, 204, 208, 265, 271, 346, 353, 451,
    460, 588, 601, 768, 982, 1004, 1284, 1314, 1681, 2151, 2201, 2816, 3604, 3689, 4721, 6042, 7733, 9897, 12668, 16214, 20753,
    33204, 53126, 68000, 55705, 20451, 16752, 17153, 17564, 16387, 9219]

theorem hTop_deg : deg 60 hTs = true := by decide +kernel

theorem hTop_ok : cover hTs 2600000 60 2652000 1580800 (22064 * hDen) 22000 1450000 hTop 2910000 = true := by decide +kernel

def hUp : List ℕ :=
  [29350, 58700, 48086, 31512, 20651, 16916, 11084, 9079, 7436, 7613, 6236, 5107, 5228, 4281, 4383, 3589, 3674, 3008, 2463, 2521,
    2064, 2112, 1729, 1415, 1448, 1184, 969, 680, 502, 307, 173]

theorem hUp_deg : deg 59 (neg (dts hTs)) = true := by decide +kernel

theorem hUp_ok : cover (neg (dts hTs)) 2600000 59 2652000 1580800 0 1 1500000 hUp 2087000 = true := by decide +kernel

def hDown : List ℕ :=
  [232, 464, 593, 758, 969, 1240, 1587, 1624, 2078, 2127, 2722, 2787, 2853, 3651, 3737, 3826, 4896, 5012, 6415, 6568, 8406, 10759,
    11016, 14100, 18048, 23100, 29568, 37846, 48442, 31746, 20804, 17041, 17449, 17867, 18295, 14099, 3525]

theorem hDown_deg : deg 59 (dts hTs) = true := by decide +kernel

theorem hDown_ok : cover (dts hTs) 2600000 59 2652000 1580800 0 1 2087500 hDown 2880000 = true := by decide +kernel

def hMid : List ℕ :=
  [24, 48, 60, 60, 58]

theorem hMid_deg : deg 60 (neg hTs) = true := by decide +kernel

theorem hMid_ok : cover (neg hTs) 2600000 60 2652000 1580800 (-2206395 * hDen) 2200000 2087000 hMid 2087500 = true := by decide +kernel

def hLip1 : List ℕ :=
  [45000, 72000, 47185, 38652, 49474, 79158, 94824, 23707]

theorem hLip1_deg : deg 59 (dts hTs) = true := by decide +kernel

theorem hLip1_ok : cover (dts hTs) 2600000 59 2652000 1580800 (2600 * hDen) 22 1670000 hLip1 2570000 = true := by decide +kernel

def hLip2 : List ℕ :=
  [45000, 72000, 47185, 38652, 49474, 79158, 94824, 23707]

theorem hLip2_deg : deg 59 (neg (dts hTs)) = true := by decide +kernel

theorem hLip2_ok : cover (neg (dts hTs)) 2600000 59 2652000 1580800 (2600 * hDen) 22 1670000 hLip2 2570000 = true := by decide +kernel

def sTop : List ℕ :=
  [140000, 91750, 60128, 39404, 25822, 21152, 17327, 14193, 14532, 11904, 9750, 7987, 6542, 5358, 5485, 4492, 2943, 3012, 2467,
    2020, 1654, 1692, 1385, 1417, 1450, 1856, 1900, 2432, 3112, 3983, 5097, 6524, 10438, 13360, 21376, 34201, 54721, 70042, 112067,
    143445, 60164, 39428, 25838, 16932, 13869, 11360, 11632, 11910, 12195, 12487, 12786, 13092, 13405, 13726, 14054, 14390, 14735,
    15088, 15449, 15819, 16198, 16585, 19480, 10958]

theorem sTop_deg : deg 52 sTs = true := by decide +kernel

theorem sTop_ok : cover sTs 5200000 52 5356000 3634800 (22064 * sDen) 22000 3430000 sTop 6230000 = true := by decide +kernel

def sLow : List ℕ :=
  [2100, 4200, 8400, 6300]

theorem sLow_deg : deg 52 sTs = true := by decide +kernel

theorem sLow_ok : cover sTs 5200000 52 5356000 3634800 (45 * sDen) 22 3390000 sLow 3432000 = true := by decide +kernel

def sUp : List ℕ :=
  [40600, 81200, 42571, 34873, 22852, 18720, 19168, 15701, 12860, 13168, 10786, 11044, 9046, 9262, 7587, 7768, 7953, 6514, 6669,
    5462, 4473, 4579, 3750, 3072, 2516, 1948, 1188, 670]

theorem sUp_deg : deg 51 (neg (dts sTs)) = true := by decide +kernel

theorem sUp_ok : cover (neg (dts sTs)) 5200000 51 5356000 3634800 0 1 3600000 sUp 4412000 = true := by decide +kernel

def sDown : List ℕ :=
  [781, 1562, 2499, 3198, 4092, 5237, 6703, 8579, 10980, 14054, 17988, 28780, 36838, 47152, 60354, 77252, 98882, 60707, 37031,
    20831]

theorem sDown_deg : deg 51 (dts sTs) = true := by decide +kernel

theorem sDown_ok : cover (dts sTs) 5200000 51 5356000 3634800 0 1 4413000 sDown 5500000 = true := by decide +kernel

def sMid : List ℕ :=
  [50, 100, 200, 150]

theorem sMid_deg : deg 52 (neg sTs) = true := by decide +kernel

theorem sMid_ok : cover (neg sTs) 5200000 52 5356000 3634800 (-22063 * sDen) 22000 4412000 sMid 4413000 = true := by decide +kernel

end PyX.Univ
