import Verif.Lemmas.Sign2
import Verif.Lemmas.Sign5
import Verif.Lemmas.Stable

/-!
# Steam above 1073.15 K

The volume of region 5 increases with temperature, up to 50 MPa. At 1080 K it exceeds that of region 2 at 1073.15 K: the compressibility
factor is above `0.9997 - 0.00177 p` there and below `1.0003 - 0.00167 p` here.
-/

namespace PyX.Kron

open Spec Spec.IF97 Kron

theorem ok_c5 : R5.e_c.ok = true := by decide +kernel
theorem check_c5 : check 4 10 R5.e_c [] .leaf 0 50 1 4399 5201 10000 = true := by decide +kernel

def eZ5 : E := .sub (.add R5.e_v (.mono [(88500000000000000, 1, 0)] [] 3 9)) (.mono [(49985000000000000000, 0, 0)] [] 3 9)
theorem ok_z5 : eZ5.ok = true := by decide +kernel
def tree_z5 : Tree := .sx (.sx (.sx .leaf .leaf) .leaf) .leaf
theorem check_z5 : check 4 10 eZ5 [] tree_z5 0 50 1 9259 1 10000 = true := by decide +kernel

def eZ2 : E := .sub (.mono [(1000300000000000000000000000000000000000000, 0, 0)] [(1670000000000000000000000000000000000000, 1, 0)] 24 58) R2.e_v
theorem ok_z2 : eZ2.ok = true := by decide +kernel
def tree_z2 : Tree := .sx (.sx .leaf .leaf) (.sx .leaf .leaf)
theorem check_z2 : check 6 12 eZ2 [] tree_z2 0 50 1 31 1 10000 = true := by decide +kernel

variable {p T : ℝ}

theorem R5.expand (h0 : 0 < p) (h1 : p ≤ 50) (h2 : 1073.15 ≤ T) (h3 : T ≤ 2273.15) :
    0 < gamma5.gp p (1000 / T) - 1000 / T * gamma5.gpt p (1000 / T) := by
  have hT : 0 < T := by linarith
  have a1 : 1000 / 2273.15 ≤ 1000 / T := div_le_div_of_nonneg_left (by norm_num) hT h3
  have a2 : 1000 / T ≤ 1000 / 1073.15 := div_le_div_of_nonneg_left (by norm_num) (by norm_num) h2
  have h : 0 < R5.e_c.eval p (1000 / T) := by
    refine check_sound (by norm_num) (by norm_num) ok_c5 .leaf (by norm_num) (by norm_num) check_c5 (fun l hl => by cases hl) ?_ ?_ ?_ ?_
    all_goals norm_num at a1 a2 ⊢
    all_goals linarith
  rw [R5.c_eq h0.ne' (by positivity)] at h
  exact pos_of_mul_pos_right (pos_of_mul_pos_right h (by norm_num)) h0.le

theorem v5_1080 (h0 : 0 < p) (h1 : p ≤ 50) : R * 1080 * (0.9997 - 0.00177 * p) < 1000 * (p * gamma5.v p 1080) := by
  have h : 0 < eZ5.eval p (1000 / 1080) := by
    refine check_sound (by norm_num) (by norm_num) ok_z5 tree_z5 (by norm_num) (by norm_num) check_z5 (fun l hl => by cases hl) ?_ ?_ ?_ ?_
    all_goals norm_num
    all_goals linarith
  simp only [eZ5, E.eval, R5.v_eq h0.ne' (show (1000 : ℝ) / 1080 ≠ 0 by norm_num), evalN_cons, evalN_nil] at h
  have := Gamma.R_pos
  simp only [Gamma.v, show gamma5.ps = 1 from rfl, show gamma5.Ts = 1000 from rfl, div_one]
  push_cast at h
  have k : 0.9997 - 0.00177 * p < p * gamma5.gp p (1000 / 1080) := by linarith
  have := mul_lt_mul_of_pos_left k (show 0 < R * 1080 by linarith)
  linarith

theorem v2_1073 (h0 : 0 < p) (h1 : p ≤ 50) : 1000 * (p * gamma2.v p 1073.15) < R * 1073.15 * (1.0003 - 0.00167 * p) := by
  have h : 0 < eZ2.eval p (540 / 1073.15 - 1 / 2) := by
    refine check_sound (by norm_num) (by norm_num) ok_z2 tree_z2 (by norm_num) (by norm_num) check_z2 (fun l hl => by cases hl) ?_ ?_ ?_ ?_
    all_goals norm_num
    all_goals linarith
  have e0 := R2.v_eq h0.ne' (show (540 : ℝ) / 1073.15 - 1 / 2 ≠ 0 by norm_num)
  rw [show (540 : ℝ) / 1073.15 - 1 / 2 + 1 / 2 = 540 / 1073.15 by ring] at e0
  simp only [eZ2, E.eval, e0, evalN_cons, evalN_nil] at h
  have := Gamma.R_pos
  simp only [Gamma.v, show gamma2.ps = 1 from rfl, show gamma2.Ts = 540 from rfl, div_one]
  push_cast at h
  have k : p * gamma2.gp p (540 / 1073.15) < 1.0003 - 0.00167 * p := by linarith
  have := mul_lt_mul_of_pos_left k (show 0 < R * 1073.15 by linarith)
  linarith

/-- steam at 1080 K by the equation of region 5 takes more room than at 1073.15 K by that of region 2 -/
theorem v2_lt_v5 (h0 : 0 < p) (h1 : p ≤ 50) : gamma2.v p 1073.15 < gamma5.v p 1080 := by
  have a := v5_1080 h0 h1
  have b := v2_1073 h0 h1
  have : p * gamma2.v p 1073.15 < p * gamma5.v p 1080 := by
    norm_num [R] at a b ⊢
    linarith
  exact lt_of_mul_lt_mul_left this h0.le

end PyX.Kron
