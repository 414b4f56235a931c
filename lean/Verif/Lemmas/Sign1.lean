import Verif.Lemmas.KronSat
import Verif.Lemmas.Stable

/-!
# Region 1: signs of the derivatives of the Gibbs free energy

With `x = 7.1 - π = 7.1 - p/16.53` and `y = τ - 1.222 = 1386/T - 1.222`, for all `(p, T)` with `Liquid p T`. The
lists of monomials are checked against the table of IAPWS-IF97 by `same`, the limits of the domain against the
saturation equation by `chk1`.
-/

namespace PyX.Kron.R1

open Spec.IF97 PyX

set_option maxRecDepth 20000
set_option Elab.async false

def Gp : List Mono :=
  [(303531507829370000000000000000000000, 0, 34), (9495034109209500000000000000000000000, 0, 40),
   (16264874385252500000000000000000000000, 0, 41), (10920858587707000000000000000000000000, 0, 42),
   (26419178984965000000000000000000000, 0, 44), (471843210732670000000000000000000000, 1, 38),
   (300017807930260000000000000000000000, 1, 41), (4414184533084600000000000000000000, 1, 44),
   (726949962975940000000000, 1, 58), (47519467267581000000000000000000000, 2, 37),
   (4240619697796800000000000000000000, 2, 41), (1278076921801545000000000000000, 2, 47),
   (4485056381600000000000000000000000, 3, 36), (1303424457912020000000000000000000, 3, 39),
   (286834598758480000000000000, 3, 51), (1012924921502925000000000000000000, 4, 33),
   (5093720696656400000000000000000, 7, 30), (696994849225360000000000000000, 7, 35),
   (7220023786030755000000, 20, 12), (179214339601065000, 29, 2), (1496593396679328, 31, 0)]
def Gn : List Mono :=
  [(141595400619020000000000000000000000, 0, 32), (47661393906987000000000000000000000, 1, 42),
   (166500540027991500000, 22, 10), (381868834110527500, 28, 3), (28253546601176200, 30, 1)]

def Ap : List Mono :=
  [(845481871691140000000000000000000000000, 0, 40), (957919633878720000000000000000000000000, 0, 43),
   (99698503197006000000000000000000000000, 0, 45), (16997764438444720000000000000000000000, 1, 34),
   (18990068218419000000000000000000000000, 1, 40), (158515073909790000000000000000000000, 1, 44),
   (2831059264396020000000000000000000000, 2, 38), (13242553599253800000000000000000000, 2, 44),
   (98865194964727840000000000, 2, 58), (316796448450540000000000000000000000, 3, 37),
   (12780769218015450000000000000000, 3, 47), (33637922862000000000000000000000000, 4, 36),
   (1955136686868030000000000000000000, 4, 39), (6453778472065800000000000000, 4, 51),
   (14586118869642120000000000000000000, 5, 33), (84046391494830600000000000000000, 8, 30),
   (3659222958433140000000000000000, 8, 35), (299115271135559850000000, 21, 12), (9319145659255380000, 30, 2),
   (80535432158806338, 32, 0)]
def An : List Mono :=
  [(438989136395010000000000000000000000000, 0, 39), (473161155396840000000000000000000000000, 0, 44),
   (8121462998356800000000000000000000000, 0, 46), (12743586055711800000000000000000000000, 1, 32),
   (7181240682946416000000, 23, 10), (19514814212131095000, 29, 3), (1494703755675128000, 31, 1)]

def Bp : List Mono :=
  [(471843210732670000000000000000000000, 0, 38), (300017807930260000000000000000000000, 0, 41),
   (4414184533084600000000000000000000, 0, 44), (726949962975940000000000, 0, 58),
   (95038934535162000000000000000000000, 1, 37), (8481239395593600000000000000000000, 1, 41),
   (2556153843603090000000000000000, 1, 47), (13455169144800000000000000000000000, 2, 36),
   (3910273373736060000000000000000000, 2, 39), (860503796275440000000000000, 2, 51),
   (4051699686011700000000000000000000, 3, 33), (35656044876594800000000000000000, 6, 30),
   (4878963944577520000000000000000, 6, 35), (144400475720615100000000, 19, 12), (5197215848430885000, 28, 2),
   (46394395297059168, 30, 0)]
def Bn : List Mono :=
  [(47661393906987000000000000000000000, 0, 42), (3663011880615813000000, 21, 10), (10692327355094770000, 27, 3),
   (847606398035286000, 29, 1)]

def Hp : List Mono :=
  [(1274358605571180000000000000000000000, 0, 32), (10920858587707000000000000000000000000, 0, 42),
   (79257536954895000000000000000000000, 0, 44), (13242553599253800000000000000000000, 1, 44),
   (12358149370590980000000000, 1, 58), (7668461530809270000000000000000, 2, 47),
   (2868345987584800000000000000, 3, 51), (5161516740867736500000, 22, 10), (14511015696200045000, 28, 3),
   (1130141864047048000, 30, 1)]
def Hn : List Mono :=
  [(2124720554805590000000000000000000000, 0, 34), (9495034109209500000000000000000000000, 0, 40),
   (1415529632198010000000000000000000000, 1, 38), (47661393906987000000000000000000000, 1, 42),
   (190077869070324000000000000000000000, 2, 37), (22425281908000000000000000000000000, 3, 36),
   (2606848915824040000000000000000000, 3, 39), (8103399372023400000000000000000000, 4, 33),
   (56030927663220400000000000000000, 7, 30), (4181969095352160000000000000000, 7, 35),
   (209380689794891895000000, 20, 12), (6989359244441535000, 29, 2), (61360329263852448, 31, 0)]

def lims : List Lim :=
  [⟨false, 6194783, 1000000, 33, 32⟩, ⟨false, 3142997, 500000, 17, 16⟩, ⟨false, 6367557, 1000000, 35, 32⟩,
   ⟨false, 3220319, 500000, 9, 8⟩, ⟨false, 3253109, 500000, 37, 32⟩, ⟨false, 3282567, 500000, 19, 16⟩,
   ⟨false, 3309057, 500000, 39, 32⟩, ⟨false, 6665789, 1000000, 5, 4⟩, ⟨false, 1677179, 250000, 41, 32⟩,
   ⟨false, 843423, 125000, 21, 16⟩, ⟨false, 6782229, 1000000, 43, 32⟩, ⟨false, 3406819, 500000, 11, 8⟩,
   ⟨false, 1368391, 200000, 45, 32⟩, ⟨false, 6867489, 1000000, 23, 16⟩, ⟨false, 1722629, 250000, 47, 32⟩,
   ⟨false, 6911283, 1000000, 3, 2⟩, ⟨false, 6930013, 1000000, 49, 32⟩, ⟨false, 3473453, 500000, 25, 16⟩,
   ⟨false, 3481071, 500000, 51, 32⟩, ⟨false, 3487941, 500000, 13, 8⟩, ⟨false, 436767, 62500, 53, 32⟩,
   ⟨false, 1399889, 200000, 27, 16⟩, ⟨false, 3504759, 500000, 55, 32⟩, ⟨false, 7018599, 1000000, 7, 4⟩,
   ⟨false, 219587, 31250, 57, 32⟩, ⟨false, 7034161, 1000000, 29, 16⟩, ⟨false, 7040807, 1000000, 59, 32⟩,
   ⟨false, 1761699, 250000, 15, 8⟩, ⟨false, 7052189, 1000000, 61, 32⟩, ⟨false, 7057047, 1000000, 31, 16⟩,
   ⟨false, 353071, 50000, 63, 32⟩, ⟨false, 7065357, 1000000, 2, 1⟩, ⟨false, 7068901, 1000000, 65, 32⟩,
   ⟨false, 7072089, 1000000, 33, 16⟩, ⟨false, 1768739, 250000, 67, 32⟩, ⟨false, 221173, 31250, 17, 8⟩,
   ⟨false, 3539927, 500000, 69, 32⟩, ⟨false, 7081939, 1000000, 35, 16⟩, ⟨false, 1770953, 250000, 71, 32⟩,
   ⟨false, 1417099, 200000, 9, 4⟩, ⟨false, 3543503, 500000, 73, 32⟩, ⟨false, 7088363, 1000000, 37, 16⟩,
   ⟨false, 3544791, 500000, 75, 32⟩, ⟨false, 283627, 40000, 19, 8⟩, ⟨false, 886457, 125000, 77, 32⟩,
   ⟨false, 886567, 125000, 39, 16⟩, ⟨false, 283733, 40000, 79, 32⟩, ⟨false, 443377, 62500, 5, 2⟩,
   ⟨false, 1418933, 200000, 81, 32⟩, ⟨false, 7095233, 1000000, 41, 16⟩, ⟨false, 3547871, 500000, 83, 32⟩,
   ⟨false, 7096197, 1000000, 21, 8⟩, ⟨false, 1774151, 250000, 85, 32⟩, ⟨false, 7096969, 1000000, 43, 16⟩,
   ⟨false, 1419459, 200000, 87, 32⟩, ⟨false, 7097587, 1000000, 11, 4⟩, ⟨false, 887231, 125000, 89, 32⟩,
   ⟨false, 7098081, 1000000, 45, 16⟩, ⟨false, 709829, 100000, 91, 32⟩, ⟨false, 1774619, 250000, 23, 8⟩,
   ⟨false, 3549321, 500000, 93, 32⟩, ⟨false, 709879, 100000, 47, 16⟩, ⟨false, 7098923, 1000000, 95, 32⟩]

def betas : List ℕ :=
  [196678326, 191524894, 186535596, 181697625, 177000761, 172436609, 167998107, 163679192, 159474564, 155379530,
   151389875, 147501777, 143711739, 140016534, 136413168, 132898843, 129470935, 126126971, 122864610, 119681632,
   116575925, 113545470, 110588339, 107702684, 104886728, 102138766, 99457151, 96840298, 94286674, 91794798,
   89363235, 86990595, 84675529, 82416728, 80212920, 78062867, 75965365, 73919242, 71923354, 69976586, 68077852,
   66226088, 64420258, 62659347, 60942366, 59268343, 57636331, 56045399, 54494640, 52983162, 51510091, 50074573,
   48675768, 47312854, 45985025, 44691489, 43431470, 42204207, 41008953, 39844974, 38711552, 37607980, 36533566]

theorem lims_ok : chk1 lims betas = true := by decide +kernel

theorem same_G : same (-500000000000000000000000000000000000000) 1 0 0 41 region1 Gp Gn = true := by decide +kernel
theorem same_A : same (-500000000000000000000000000000000000000) 0 2 0 43 region1 Ap An = true := by decide +kernel
theorem same_B : same (-500000000000000000000000000000000000000) 2 0 0 41 region1 Bp Bn = true := by decide +kernel
theorem same_H : same (-500000000000000000000000000000000000000) 1 1 0 42 region1 Hp Hn = true := by decide +kernel

def e_v : E := .mono Gp Gn 31 58
def e_cp : E := .mono Ap An 32 58
def e_kappa : E := .mono Bp Bn 30 58
def e_t : E := .mono [(1222, 0, 0), (1000, 0, 1)] [] 0 1
def e_c : E := .sub (.mul (.mono [(1000, 0, 1)] [] 0 1) e_v) (.mul e_t (.mono Hp Hn 31 58))
def e_det : E := .sub (.mul (.mono [(1493284, 0, 0), (2444000, 0, 1), (1000000, 0, 2)] [] 0 2) (.mul (.norm e_cp) (.norm e_kappa)))
  (.mul (.norm e_c) (.norm e_c))

variable {π τ : ℝ} (hx : 7.1 - π ≠ 0) (hy : τ - 1.222 ≠ 0)
include hx hy

theorem v_eq : e_v.eval (7.1 - π) (τ - 1.222) = 500000000000000000000000000000000000000 * ((τ - 1.222) ^ 41 * gamma1.gp π τ) := by
  have := same_eq same_G hx hy
  simp only [e_v, E.eval, gamma1]
  rw [this]; push_cast; ring

theorem cp_eq : e_cp.eval (7.1 - π) (τ - 1.222) = -500000000000000000000000000000000000000 * ((τ - 1.222) ^ 43 * gamma1.gtt π τ) := by
  have := same_eq same_A hx hy
  simp only [e_cp, E.eval, gamma1]
  rw [this]; push_cast; ring

theorem kappa_eq : e_kappa.eval (7.1 - π) (τ - 1.222) = -500000000000000000000000000000000000000 * ((τ - 1.222) ^ 41 * gamma1.gpp π τ) := by
  have := same_eq same_B hx hy
  simp only [e_kappa, E.eval, gamma1]
  rw [this]; push_cast; ring

theorem c_eq : e_c.eval (7.1 - π) (τ - 1.222) = 500000000000000000000000000000000000000000 * ((τ - 1.222) ^ 42 * (gamma1.gp π τ - τ * gamma1.gpt π τ)) := by
  have h1 := v_eq hx hy
  have h2 := same_eq same_H hx hy
  simp only [e_c, E.eval, e_t]
  rw [h1, h2]
  simp only [evalN_cons, evalN_nil, gamma1]
  push_cast
  ring

theorem det_eq : e_det.eval (7.1 - π) (τ - 1.222) = 500000000000000000000000000000000000000000 ^ 2 * ((τ - 1.222) ^ 84 *
    (τ ^ 2 * gamma1.gtt π τ * gamma1.gpp π τ - (gamma1.gp π τ - τ * gamma1.gpt π τ) ^ 2)) := by
  have h1 := cp_eq hx hy
  have h2 := kappa_eq hx hy
  have h3 := c_eq hx hy
  simp only [e_det, E.eval] at *
  rw [h1, h2, h3]
  simp only [evalN_cons, evalN_nil]
  push_cast
  ring

omit hx hy

theorem ok_v : e_v.ok = true := by decide +kernel
def tree_v : Tree :=
  .sy (.sy (.sx (.sy .leaf .leaf) (.sy (.sx (.sy (.sx .leaf .leaf) .leaf) (.sy (.sx (.sy (.sx .leaf .leaf) .leaf)
    (.sx (.sy (.sx .leaf .skip) .leaf) .skip)) (.sx .leaf .leaf))) .leaf)) (.sx (.sy .leaf .leaf) (.sy .leaf .leaf)))
    (.sy .leaf .leaf)

theorem check_v : check 10 24 e_v lims tree_v 21 121 20 8 23 8 = true := by decide +kernel

theorem ok_kappa : e_kappa.ok = true := by decide +kernel
def tree_kappa : Tree :=
  .sy (.sy (.sx (.sy (.sx .leaf (.sy .leaf .leaf)) .leaf) (.sy (.sx (.sy (.sx .leaf (.sy (.sx .leaf .leaf) .leaf))
    (.sx .leaf .leaf)) (.sy (.sx (.sy (.sx .leaf (.sy (.sx .leaf (.sy .leaf .leaf)) .leaf)) (.sx .leaf .leaf)) (.sx
    (.sy (.sx (.sx (.sx (.sy .skip .leaf) .skip) .skip) .skip) (.sy .leaf .leaf)) .skip)) (.sx .leaf (.sy (.sx .leaf
    .skip) .leaf)))) (.sx .leaf (.sy (.sx .leaf .leaf) .leaf)))) (.sx (.sy .leaf .leaf) (.sy .leaf .leaf))) (.sy .leaf
    .leaf)

theorem check_kappa : check 10 24 e_kappa lims tree_kappa 21 121 20 8 23 8 = true := by decide +kernel

theorem ok_cp : e_cp.ok = true := by decide +kernel
def tree_cp : Tree :=
  .sy (.sy (.sx (.sy (.sx (.sy .leaf .leaf) (.sy .leaf .leaf)) .leaf) (.sy (.sx (.sy (.sx .leaf (.sy (.sx .leaf
    .leaf) .leaf)) .leaf) (.sy (.sx (.sy (.sx .leaf (.sy .leaf .leaf)) .leaf) (.sx (.sy (.sx (.sx (.sx .leaf .skip)
    .skip) .skip) .leaf) .skip)) (.sx .leaf .leaf))) (.sx .leaf .leaf))) (.sx (.sy .leaf .leaf) (.sy .leaf .leaf)))
    (.sy (.sx (.sy .leaf .leaf) (.sy .leaf .leaf)) .leaf)

theorem check_cp : check 10 24 e_cp lims tree_cp 21 121 20 8 23 8 = true := by decide +kernel

theorem ok_det : e_det.ok = true := by decide +kernel

theorem psat_nonneg (T : ℝ) : 0 ≤ psat T := by simp only [psat]; positivity

/-- what a successful check means -/
theorem of_check {p T : ℝ} (hv : Liquid p T) {mx my : ℕ} (hmx : 1 ≤ mx) (hmy : 1 ≤ my) {e : E} {tree : Tree} (ho : e.ok = true)
    (hc : check mx my e lims tree 21 121 20 8 23 8 = true) : 0 < e.eval (7.1 - p / 16.53) (1386 / T - 1.222) := by
  have hT : 0 < T := by linarith [hv.T0]
  have h1 : 1386 / 623.2 ≤ 1386 / T := div_le_div_of_nonneg_left (by norm_num) hT hv.T1
  have h2 : 1386 / T ≤ 1386 / 273.15 := div_le_div_of_nonneg_left (by norm_num) (by norm_num) hv.T0
  have hp := psat_nonneg T
  refine check_sound hmx hmy ho tree (by norm_num) (by norm_num) hc (chk1_sound lims_ok hv) ?_ ?_ ?_ ?_
  · have := hv.p1
    have h3 : p / 16.53 ≤ 100 / 16.53 := div_le_div_of_nonneg_right this (by norm_num)
    norm_num at h3 ⊢; linarith
  · have h3 : 0 ≤ p / 16.53 := div_nonneg (by linarith [hv.sat]) (by norm_num)
    norm_num at h3 ⊢; linarith
  · norm_num at h1 ⊢; linarith
  · norm_num at h2 ⊢; linarith

theorem y_pos {p T : ℝ} (hv : Liquid p T) : 0 < 1386 / T - 1.222 := by
  have hT : 0 < T := by linarith [hv.T0]
  have h1 : 1386 / 623.2 ≤ 1386 / T := div_le_div_of_nonneg_left (by norm_num) hT hv.T1
  norm_num at h1 ⊢; linarith

theorem x_pos {p T : ℝ} (hv : Liquid p T) : 0 < 7.1 - p / 16.53 := by
  have h3 : p / 16.53 ≤ 100 / 16.53 := div_le_div_of_nonneg_right hv.p1 (by norm_num)
  norm_num at h3 ⊢; linarith

/-- volume, heat capacity and compressibility are positive -/
theorem signs {p T : ℝ} (hv : Liquid p T) : 0 < gamma1.gp (p / 16.53) (1386 / T) ∧
    gamma1.gtt (p / 16.53) (1386 / T) < 0 ∧ gamma1.gpp (p / 16.53) (1386 / T) < 0 := by
  have hy := y_pos hv
  have hx := x_pos hv
  have a1 := of_check hv (by norm_num) (by norm_num) ok_v check_v
  have a2 := of_check hv (by norm_num) (by norm_num) ok_kappa check_kappa
  have a3 := of_check hv (by norm_num) (by norm_num) ok_cp check_cp
  rw [v_eq hx.ne' hy.ne'] at a1
  rw [kappa_eq hx.ne' hy.ne'] at a2
  rw [cp_eq hx.ne' hy.ne'] at a3
  refine ⟨?_, ?_, ?_⟩
  · exact pos_of_mul_pos_right (pos_of_mul_pos_right a1 (by norm_num)) (by positivity)
  · have := pos_of_mul_pos_right (show 0 < 500000000000000000000000000000000000000 * ((1386 / T - 1.222) ^ 43 * -gamma1.gtt (p / 16.53) (1386 / T)) by linarith)
      (by norm_num)
    linarith [pos_of_mul_pos_right this (by positivity)]
  · have := pos_of_mul_pos_right (show 0 < 500000000000000000000000000000000000000 * ((1386 / T - 1.222) ^ 41 * -gamma1.gpp (p / 16.53) (1386 / T)) by linarith)
      (by norm_num)
    linarith [pos_of_mul_pos_right this (by positivity)]

end PyX.Kron.R1
