import Verif.Lemmas.Comp
import Verif.Lemmas.KronSat
import Verif.Lemmas.GammaDefs

/-!
# Region 1 in the coordinates of the checker of the backward equations

`x = 7.1 - p/16.53` and `z = 1/(1386/T - 1.222)`.
-/

namespace PyX.Kron.B1

open Spec Spec.IF97 Spec.Sat

/-- limits for the liquid, in terms of `x` and `1/z` -/
def lims : List Lim :=
  [⟨false, 304971, 50000, 501, 500⟩, ⟨false, 6101139, 1000000, 401, 400⟩, ⟨false, 3051427, 500000, 1003, 1000⟩,
    ⟨false, 6104567, 1000000, 2007, 2000⟩, ⟨false, 1526569, 250000, 251, 250⟩, ⟨false, 3053991, 500000, 2009, 2000⟩,
    ⟨false, 1221937, 200000, 201, 200⟩, ⟨false, 1222277, 200000, 2011, 2000⟩, ⟨false, 3056541, 500000, 503, 500⟩,
    ⟨false, 244591, 40000, 2013, 2000⟩, ⟨false, 1223293, 200000, 1007, 1000⟩, ⟨false, 764769, 125000, 403, 400⟩,
    ⟨false, 1529959, 250000, 126, 125⟩, ⟨false, 6121517, 1000000, 2017, 2000⟩, ⟨false, 3061597, 500000, 1009, 1000⟩,
    ⟨false, 6124869, 1000000, 2019, 2000⟩, ⟨false, 306327, 50000, 101, 100⟩, ⟨false, 383013, 62500, 2021, 2000⟩,
    ⟨false, 3064937, 500000, 1011, 1000⟩, ⟨false, 383221, 62500, 2023, 2000⟩, ⟨false, 1226639, 200000, 253, 250⟩,
    ⟨false, 122697, 20000, 81, 80⟩, ⟨false, 6136503, 1000000, 1013, 1000⟩, ⟨false, 6138153, 1000000, 2027, 2000⟩,
    ⟨false, 6139799, 1000000, 507, 500⟩, ⟨false, 6141443, 1000000, 2029, 2000⟩, ⟨false, 6143083, 1000000, 203, 200⟩,
    ⟨false, 6144721, 1000000, 2031, 2000⟩, ⟨false, 1229271, 200000, 127, 125⟩, ⟨false, 6147987, 1000000, 2033, 2000⟩,
    ⟨false, 1229923, 200000, 1017, 1000⟩, ⟨false, 153781, 25000, 407, 400⟩, ⟨false, 6152863, 1000000, 509, 500⟩,
    ⟨false, 3077241, 500000, 2037, 2000⟩, ⟨false, 3078049, 500000, 1019, 1000⟩, ⟨false, 384857, 62500, 2039, 2000⟩,
    ⟨false, 3079661, 500000, 51, 50⟩, ⟨false, 616093, 100000, 2041, 2000⟩, ⟨false, 3081267, 500000, 1021, 1000⟩,
    ⟨false, 770517, 125000, 2043, 2000⟩, ⟨false, 3082867, 500000, 511, 500⟩, ⟨false, 616733, 100000, 409, 400⟩,
    ⟨false, 3084461, 500000, 1023, 1000⟩, ⟨false, 385657, 62500, 2047, 2000⟩, ⟨false, 6172099, 1000000, 128, 125⟩,
    ⟨false, 6173683, 1000000, 2049, 2000⟩, ⟨false, 192977, 31250, 41, 40⟩, ⟨false, 9893, 1600, 411, 400⟩, ⟨false,
    3095457, 500000, 103, 100⟩, ⟨false, 6198633, 1000000, 413, 400⟩, ⟨false, 6206281, 1000000, 207, 200⟩, ⟨false,
    310693, 50000, 83, 80⟩, ⟨false, 622137, 100000, 26, 25⟩, ⟨false, 6228813, 1000000, 417, 400⟩, ⟨false, 1559047,
    250000, 209, 200⟩, ⟨false, 6243497, 1000000, 419, 400⟩, ⟨false, 312537, 50000, 21, 20⟩, ⟨false, 3128959, 500000,
    421, 400⟩, ⟨false, 6265031, 1000000, 211, 200⟩, ⟨false, 3136041, 500000, 423, 400⟩, ⟨false, 6279069, 1000000, 53,
    50⟩, ⟨false, 3142997, 500000, 17, 16⟩, ⟨false, 6292857, 1000000, 213, 200⟩, ⟨false, 6299659, 1000000, 427, 400⟩,
    ⟨false, 6306401, 1000000, 107, 100⟩, ⟨false, 1578271, 250000, 429, 400⟩, ⟨false, 6319707, 1000000, 43, 40⟩,
    ⟨false, 98848, 15625, 431, 400⟩, ⟨false, 3166389, 500000, 27, 25⟩, ⟨false, 1584807, 250000, 433, 400⟩, ⟨false,
    6345621, 1000000, 217, 200⟩, ⟨false, 6351957, 1000000, 87, 80⟩, ⟨false, 3179119, 500000, 109, 100⟩, ⟨false,
    1272893, 200000, 437, 400⟩, ⟨false, 1592659, 250000, 219, 200⟩, ⟨false, 3188377, 500000, 439, 400⟩, ⟨false,
    3191409, 500000, 11, 10⟩, ⟨false, 800819, 125000, 111, 100⟩, ⟨false, 6429473, 1000000, 28, 25⟩, ⟨false, 1612903,
    250000, 113, 100⟩, ⟨false, 3236499, 500000, 57, 50⟩, ⟨false, 324683, 50000, 23, 20⟩, ⟨false, 814203, 125000, 29,
    25⟩, ⟨false, 6532917, 1000000, 117, 100⟩, ⟨false, 3275781, 500000, 59, 50⟩, ⟨false, 3284791, 500000, 119, 100⟩,
    ⟨false, 6587001, 1000000, 6, 5⟩, ⟨false, 20637, 3125, 121, 100⟩, ⟨false, 6620119, 1000000, 61, 50⟩, ⟨false,
    3317929, 500000, 123, 100⟩, ⟨false, 266043, 40000, 31, 25⟩, ⟨false, 6665789, 1000000, 5, 4⟩, ⟨false, 3340009,
    500000, 63, 50⟩, ⟨false, 6693777, 1000000, 127, 100⟩, ⟨false, 1676771, 250000, 32, 25⟩, ⟨false, 6719953, 1000000,
    129, 100⟩, ⟨false, 6732399, 1000000, 13, 10⟩, ⟨false, 6744437, 1000000, 131, 100⟩, ⟨false, 84451, 12500, 33, 25⟩,
    ⟨false, 6767343, 1000000, 133, 100⟩, ⟨false, 6778237, 1000000, 67, 50⟩, ⟨false, 3394387, 500000, 27, 20⟩, ⟨false,
    849871, 125000, 34, 25⟩, ⟨false, 6808829, 1000000, 137, 100⟩, ⟨false, 106537, 15625, 69, 50⟩, ⟨false, 1706899,
    250000, 139, 100⟩, ⟨false, 1709131, 250000, 7, 5⟩, ⟨false, 171129, 25000, 141, 100⟩, ⟨false, 1713379, 250000, 71,
    50⟩, ⟨false, 6861599, 1000000, 143, 100⟩, ⟨false, 343471, 50000, 36, 25⟩, ⟨false, 3438493, 500000, 29, 20⟩,
    ⟨false, 3442153, 500000, 73, 50⟩, ⟨false, 1722847, 250000, 147, 100⟩, ⟨false, 21557, 3125, 37, 25⟩, ⟨false,
    6904869, 1000000, 149, 100⟩, ⟨false, 6911283, 1000000, 3, 2⟩, ⟨false, 3470179, 500000, 31, 20⟩, ⟨false, 1393001,
    200000, 8, 5⟩, ⟨false, 873237, 125000, 33, 20⟩, ⟨false, 17509, 2500, 17, 10⟩, ⟨false, 7018599, 1000000, 7, 4⟩,
    ⟨false, 3515651, 500000, 9, 5⟩, ⟨false, 880257, 125000, 37, 20⟩, ⟨false, 1410231, 200000, 19, 10⟩, ⟨false,
    1764713, 250000, 39, 20⟩, ⟨false, 7065357, 1000000, 2, 1⟩, ⟨false, 3535427, 500000, 41, 20⟩, ⟨false, 3537747,
    500000, 21, 10⟩, ⟨false, 707941, 100000, 43, 20⟩, ⟨false, 885339, 125000, 11, 5⟩, ⟨false, 1417099, 200000, 9, 4⟩,
    ⟨false, 3543919, 500000, 23, 10⟩, ⟨false, 708981, 100000, 47, 20⟩, ⟨false, 1772867, 250000, 12, 5⟩, ⟨false,
    3546431, 500000, 49, 20⟩, ⟨false, 443377, 62500, 5, 2⟩, ⟨false, 3547507, 500000, 51, 20⟩, ⟨false, 7095837,
    1000000, 13, 5⟩, ⟨false, 3548263, 500000, 53, 20⟩, ⟨false, 443569, 62500, 27, 10⟩, ⟨false, 7097587, 1000000, 11,
    4⟩, ⟨false, 7097991, 1000000, 14, 5⟩, ⟨false, 887291, 125000, 57, 20⟩, ⟨false, 709861, 100000, 29, 10⟩, ⟨false,
    1419769, 200000, 59, 20⟩]

/-- fourth roots of pressures below saturation, times `10⁸` -/
def betas : List ℕ :=
  [201665344, 201578672, 201492051, 201405482, 201318964, 201232496, 201146080, 201059715, 200973400, 200887136,
    200800923, 200714760, 200628647, 200542585, 200456572, 200370610, 200284698, 200198835, 200113022, 200027259,
    199941546, 199855882, 199770267, 199684702, 199599185, 199513718, 199428300, 199342931, 199257610, 199172338,
    199087115, 199001941, 198916815, 198831737, 198746707, 198661726, 198576793, 198491907, 198407070, 198322281,
    198237539, 198152845, 198068198, 197983599, 197899048, 197814543, 197730086, 197308507, 196888096, 196468845,
    196050742, 195633779, 195217946, 194803235, 194389636, 193977141, 193565742, 193155430, 192746197, 192338035,
    191930936, 191524894, 191119900, 190715947, 190313028, 189911137, 189510265, 189110408, 188711557, 188313707,
    187916851, 187520983, 187126097, 186732187, 186339247, 185947271, 185556254, 184001662, 182461977, 180936881,
    179426073, 177929269, 176446205, 174976628, 173520298, 172076991, 170646489, 169228589, 167823092, 166429813,
    165048570, 163679192, 162321512, 160975371, 159640616, 158317097, 157004672, 155703202, 154412552, 153132593,
    151863199, 150604247, 149355618, 148117196, 146888868, 145670525, 144462060, 143263368, 142074347, 140894898,
    139724924, 138564328, 137413018, 136270903, 135137894, 134013902, 132898843, 127454636, 122221733, 117190983,
    112353924, 107702684, 103229898, 98928649, 94792412, 90815014, 86990595, 83313579, 79778648, 76380718, 73114922,
    69976586, 66961224, 64064514, 61282295, 58610549, 56045399, 53583096, 51220011, 48952632, 46777557, 44691489,
    42691230, 40773678, 38935826, 37174754]

theorem lims_ok : chk1 lims betas = true := by decide +kernel

def flip : Lim → Lim
  | ⟨_, xn, xd, yn, yd⟩ => ⟨true, xn, xd, yd, yn⟩

def zlims : List Lim := lims.map flip

theorem flip_holds {l : Lim} (hu : l.up = false) {x y : ℝ} (hy : 0 < y) (h : l.Holds x y) : (flip l).Holds x y⁻¹ := by
  obtain ⟨up, xn, xd, yn, yd⟩ := l
  refine ⟨fun _ hz => h.2 hu ?_, fun hf => by cases hf⟩
  simp only [flip] at hz
  simp only
  have := mul_le_mul_of_nonneg_left hz hy.le
  rw [← mul_assoc, mul_inv_cancel₀ hy.ne', one_mul] at this
  exact this

/-- the second coordinate -/
noncomputable def z (T : ℝ) : ℝ := (1386 / T - 1.222)⁻¹

variable {p T : ℝ}

theorem zlims_hold (hv : Liquid p T) (hy : 0 < 1386 / T - 1.222) : ∀ l ∈ zlims, l.Holds (7.1 - p / 16.53) (z T) := by
  intro l hl
  obtain ⟨m, hm, rfl⟩ := List.mem_map.1 hl
  have hu : ∀ l ∈ lims, l.up = false := by decide +kernel
  exact flip_holds (hu m hm) hy (chk1_sound lims_ok hv m hm)

theorem psat_nonneg (T : ℝ) : 0 ≤ psat T := by simp only [psat]; positivity

theorem y_pos (hv : Liquid p T) : 1 < 1386 / T - 1.222 := by
  have hT : 0 < T := by linarith [hv.T0]
  have h1 : 1386 / 623.2 ≤ 1386 / T := div_le_div_of_nonneg_left (by norm_num) hT hv.T1
  norm_num at h1 ⊢; linarith

theorem z_pos (hv : Liquid p T) : 0 < z T := inv_pos.2 (by linarith [y_pos hv])

theorem x_pos (hv : Liquid p T) : 0 < 7.1 - p / 16.53 := by
  have h3 : p / 16.53 ≤ 100 / 16.53 := div_le_div_of_nonneg_right hv.p1 (by norm_num)
  norm_num at h3 ⊢; linarith

theorem rect (hv : Liquid p T) (h1 : T ≤ 623.16) : InRect 81 61 20 298 175 474 (7.1 - p / 16.53) (z T) := by
  have hT : 0 < T := by linarith [hv.T0]
  have hp := psat_nonneg T
  have y0 := y_pos hv
  have a1 : 1386 / 623.16 ≤ 1386 / T := div_le_div_of_nonneg_left (by norm_num) hT h1
  have a2 : 1386 / T ≤ 1386 / 273.15 := div_le_div_of_nonneg_left (by norm_num) (by norm_num) hv.T0
  have b1 : p / 16.53 ≤ 100 / 16.53 := div_le_div_of_nonneg_right hv.p1 (by norm_num)
  have b2 : 0 ≤ p / 16.53 := div_nonneg (by linarith [hv.sat]) (by norm_num)
  have c1 : z T ≤ (1386 / 623.16 - 1.222)⁻¹ := inv_anti₀ (by norm_num) (by linarith)
  have c2 : (1386 / 273.15 - 1.222)⁻¹ ≤ z T := inv_anti₀ (by linarith) (by linarith)
  norm_num at b1 b2 c1 c2
  constructor <;> rw [abs_le] <;> constructor <;> push_cast <;> norm_num <;> linarith

theorem rect' (hv : Liquid p T) (h1 : T ≤ 623.16) : InRect 163 121 40 298 175 474 (7.1 - p / 16.53) (z T) := by
  have hT : 0 < T := by linarith [hv.T0]
  have hp := psat_nonneg T
  have y0 := y_pos hv
  have a1 : 1386 / 623.16 ≤ 1386 / T := div_le_div_of_nonneg_left (by norm_num) hT h1
  have a2 : 1386 / T ≤ 1386 / 273.15 := div_le_div_of_nonneg_left (by norm_num) (by norm_num) hv.T0
  have b1 : p / 16.53 ≤ 100 / 16.53 := div_le_div_of_nonneg_right hv.p1 (by norm_num)
  have b2 : 0 ≤ p / 16.53 := div_nonneg (by linarith [hv.sat]) (by norm_num)
  have c1 : z T ≤ (1386 / 623.16 - 1.222)⁻¹ := inv_anti₀ (by norm_num) (by linarith)
  have c2 : (1386 / 273.15 - 1.222)⁻¹ ≤ z T := inv_anti₀ (by linarith) (by linarith)
  norm_num at b1 b2 c1 c2
  constructor <;> rw [abs_le] <;> constructor <;> push_cast <;> norm_num <;> linarith

/-! ## Pressure and temperature -/

def qp : Quot := ⟨.mono [(117363, 0, 0)] [(16530, 1, 0)] 1 0, [(1000, 0, 0)], 0, 0⟩

theorem qp_eval (y : ℝ) : qp.eval (7.1 - p / 16.53) y = p := by
  simp only [qp, Quot.eval, E.eval, evalN_cons', evalN_nil']
  norm_num
  ring

def qT : Quot := ⟨.mono [(1386000, 0, 1)] [] 0 1, [(1000, 0, 0), (1222, 0, 1)], 0, 1⟩

theorem qT_eval (hv : Liquid p T) (x : ℝ) : qT.eval x (z T) = T := by
  have hT : 0 < T := by linarith [hv.T0]
  have y0 := y_pos hv
  have e : z T * (1386 / T - 1.222) = 1 := inv_mul_cancel₀ (by linarith)
  have z0 := z_pos hv
  simp only [qT, Quot.eval, E.eval, evalN_cons', evalN_nil']
  push_cast
  rw [div_eq_iff (by positivity)]
  have e2 : z T * (1386 - 1.222 * T) = T := by
    field_simp at e
    linarith
  ring_nf
  linarith

/-! ## Enthalpy -/

def Hp : List Mono :=
  [(67604205838922170047630000000000000000000000000, 0, 18), (270703831957159561710750000000000000000000000000, 0,
    16), (37833672389034402660780000000000000000000000000, 0, 14), (324693570990409623802800000000000000000000000, 0,
    12), (339782674346301439062810000000000000000000000, 1, 24), (1518434071407453711010500000000000000000000000, 1,
    18), (113184871054416100734795000000000000000000000, 2, 20), (3810975482907761234566500000000000000000000, 2,
    16), (10132338978363565935972000000000000000000000, 3, 21), (896555813238128043000000000000000000000000, 4, 22),
    (104221010879768984791590000000000000000000, 4, 19), (259177114251072289392120000000000000000000, 5, 25),
    (1120049552190122038935450000000000000000, 8, 28), (83596913488133761896180000000000000000, 8, 23),
    (1594471431931575066074205000000, 21, 46), (37257655219208930841835500, 30, 56), (306645865865833345102251, 32,
    58)]

def Hn : List Mono :=
  [(23400865968923910997530000000000000000000000000, 0, 19), (153189319071619258908480000000000000000000000000, 0,
    15), (5314553635140910678518000000000000000000000000, 0, 13), (203793846723913591765620000000000000000000000, 1,
    26), (1746450152560596095613000000000000000000000000, 1, 16), (12674766951223447375305000000000000000000000, 1,
    14), (1058866368791825511017100000000000000000000, 2, 14), (988149955440770309096910000000000, 2, 0),
    (408776950482086241365310000000000000000, 3, 11), (114675582679297655815800000000000000, 4, 7),
    (35887971815534478444304500000, 23, 48), (80020124895373524556695000, 29, 55), (5830028528785504315272000, 31,
    57)]

theorem same_H : sameZ 79959379500000000000000000000000000000000000000 0 1 0 16 region1 Hp Hn = true := by decide +kernel

/-- `h/2500 + 1` -/
def qh : Quot := ⟨.mono ((312500000000000000000000000000000000000000000000, 0, 16) :: Hp) Hn 32 58, [(312500000000000000000000000000000000000000000000, 0, 16)], 0, 16⟩

theorem qh_eval (hv : Liquid p T) : qh.eval (7.1 - p / 16.53) (z T) = gamma1.h p T / 2500 + 1 := by
  have z0 := z_pos hv
  have x0 := x_pos hv
  have h := sameZ_eq same_H x0.ne' z0.ne'
  have e : (z T)⁻¹ = 1386 / T - 1.222 := inv_inv _
  rw [e] at h
  have hg : gamma1.h p T = R * 1386 * dpoly region1 0 1 (7.1 - p / 16.53) (1386 / T - 1.222) := by
    simp only [Gamma.h, gamma1]
  simp only [qh, Quot.eval, E.eval, evalN_cons', evalN_nil']
  rw [hg, div_eq_iff (by positivity), add_sub_assoc, h, R]
  push_cast
  ring

/-! ## Entropy -/

def Gp : List Mono :=
  [(422740935845570000000000000000000000000, 0, 18), (1692758458419250000000000000000000000000, 0, 16),
    (236580577698420000000000000000000000000, 0, 14), (2030365749589200000000000000000000000, 0, 12),
    (2124720554805590000000000000000000000, 1, 24), (9495034109209500000000000000000000000, 1, 18),
    (707764816099005000000000000000000000, 2, 20), (23830696953493500000000000000000000, 2, 16),
    (63359289690108000000000000000000000, 3, 21), (5606320477000000000000000000000000, 4, 22),
    (651712228956010000000000000000000, 4, 19), (1620679874404680000000000000000000, 5, 25),
    (7003865957902550000000000000000, 8, 28), (522746136919020000000000000000, 8, 23), (9970509037851995000000, 21,
    46), (232978641481384500, 30, 56), (1917510289495389, 32, 58)]

def Gn : List Mono :=
  [(146329712131670000000000000000000000000, 0, 19), (957919633878720000000000000000000000000, 0, 15),
    (33232834399002000000000000000000000000, 0, 13), (1274358605571180000000000000000000000, 1, 26),
    (10920858587707000000000000000000000000, 1, 16), (79257536954895000000000000000000000, 1, 14),
    (6621276799626900000000000000000000, 2, 14), (6179074685295490000000000, 2, 0), (2556153843603090000000000000000,
    3, 11), (717086496896200000000000000, 4, 7), (224413771342075500000, 23, 48), (500379851593105000, 29, 55),
    (36456189162808000, 31, 57)]

def Fp : List Mono :=
  [(73164856065835000000000000000000000000, 0, 19), (1692758458419250000000000000000000000000, 0, 16),
    (78860192566140000000000000000000000000, 0, 14), (406073149917840000000000000000000000, 0, 12),
    (141595400619020000000000000000000000, 1, 26), (23830696953493500000000000000000000, 2, 16),
    (7239153914260500000, 23, 48), (13167890831397500, 29, 55), (911404729070200, 31, 57)]

def Fn : List Mono :=
  [(422740935845570000000000000000000000000, 0, 18), (1878180183602000000000000000000000000000, 0, 17),
    (478959816939360000000000000000000000000, 0, 15), (8308208599750500000000000000000000000, 0, 13),
    (303531507829370000000000000000000000, 1, 24), (9495034109209500000000000000000000000, 1, 18),
    (16264874385252500000000000000000000000, 1, 17), (10920858587707000000000000000000000000, 1, 16),
    (26419178984965000000000000000000000, 1, 14), (235921605366335000000000000000000000, 2, 20),
    (150008903965130000000000000000000000, 2, 17), (2207092266542300000000000000000000, 2, 14),
    (363474981487970000000000, 2, 0), (15839822422527000000000000000000000, 3, 21),
    (1413539899265600000000000000000000, 3, 17), (426025640600515000000000000000, 3, 11),
    (1121264095400000000000000000000000, 4, 22), (325856114478005000000000000000000, 4, 19),
    (71708649689620000000000000, 4, 7), (202584984300585000000000000000000, 5, 25), (636715087082050000000000000000,
    8, 28), (87124356153170000000000000000, 8, 23), (343810656477655000000, 21, 46), (5973811320035500, 30, 56),
    (46768543646229, 32, 58)]

theorem same_G : sameZ 500000000000000000000000000000000000000 0 1 0 16 region1 Gp Gn = true := by decide +kernel
theorem same_F : sameZ 500000000000000000000000000000000000000 0 0 0 17 region1 Fp Fn = true := by decide +kernel

/-- `z¹⁷ (τ γ_τ - γ)`, up to a factor -/
def eS : E := .sub (.mul (.mono [(1000, 0, 0), (1222, 0, 1)] [] 0 1) (.mono Gp Gn 32 58)) (.mul (.mono [(1000, 0, 0)] [] 0 0) (.mono Fp Fn 32 59))

theorem eS_eval (hv : Liquid p T) : eS.eval (7.1 - p / 16.53) (z T) = 500000000000000000000000000000000000000000 * (z T ^ 17 * (gamma1.s p T / R)) := by
  have z0 := z_pos hv
  have x0 := x_pos hv
  have h := sameZ_eq same_G x0.ne' z0.ne'
  have h' := sameZ_eq same_F x0.ne' z0.ne'
  have e : (z T)⁻¹ = 1386 / T - 1.222 := inv_inv _
  have e3 : z T * (1386 / T - 1.222) = 1 := inv_mul_cancel₀ (by linarith [y_pos hv])
  rw [e] at h h'
  have hg : gamma1.s p T / R = 1386 / T * dpoly region1 0 1 (7.1 - p / 16.53) (1386 / T - 1.222) -
      dpoly region1 0 0 (7.1 - p / 16.53) (1386 / T - 1.222) := by
    rw [Gamma.s, mul_div_cancel_left₀ _ Gamma.R_pos.ne']
    simp only [gamma1]
  simp only [eS, E.eval, evalN_cons', evalN_nil']
  rw [hg, h, h']
  have e4 : 1386 / T = (z T)⁻¹ + 1.222 := by rw [e]; ring
  rw [e4]
  push_cast
  field_simp
  ring

end PyX.Kron.B1
