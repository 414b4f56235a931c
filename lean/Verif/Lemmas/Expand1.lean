import Verif.Lemmas.Sign1

/-!
# The liquid expands when heated

`γ_π - τ γ_πτ`, which has the sign of the thermal expansion, is larger than `3e-4` above 278 K; also where `T1_prho` extends the
equation of region 1 beyond 623.15 K. Below 276.15 K and 4 MPa it is negative.
-/

namespace PyX.Kron.R1

open Spec Spec.IF97 Kron

def e_slope : E := .sub e_c (.mono [(150000000000000000000000000000000000000, 0, 42)] [] 31 59)
theorem ok_slope : e_slope.ok = true := by decide +kernel
def tree_slope : Tree :=
  .sy (.sy (.sy (.sx (.sy (.sx (.sy (.sx .leaf (.sy .leaf .leaf)) .leaf) (.sy (.sx (.sx (.sx .leaf .skip)
    .skip) .skip) .leaf)) .leaf) (.sx (.sy .skip .leaf) .skip)) (.sx (.sy .leaf .leaf) (.sy .leaf .leaf)))
    (.sy .leaf .leaf)) (.sy (.sy .leaf .leaf) (.sy (.sx (.sy .leaf .leaf) (.sy .leaf .leaf)) (.sx (.sy .leaf
    (.sx (.sy .leaf .leaf) (.sy .leaf .leaf))) (.sy .leaf (.sx (.sy .leaf .leaf) (.sy .leaf (.sx .leaf (.sy
    .leaf .leaf))))))))
theorem check_slope : check 8 18 e_slope lims tree_slope 61 10 10 200 553 200 = true := by decide +kernel

def tree_slope' : Tree :=
  .sy (.sy (.sx (.sy (.sx (.sy .leaf .leaf) (.sy .leaf .leaf)) (.sx (.sy .leaf .leaf) (.sy .leaf .leaf))) (.sy
    (.sx (.sy (.sx (.sy (.sx .leaf .leaf) .leaf) (.sy (.sx .leaf .leaf) (.sx .leaf .leaf))) (.sx .leaf .leaf))
    (.sy (.sx (.sy (.sx (.sy (.sx .leaf .leaf) .leaf) (.sy (.sx .leaf .leaf) .leaf)) (.sx .leaf .leaf)) (.sy
    (.sx (.sy (.sx (.sy .leaf .leaf) (.sy (.sx .leaf .leaf) .leaf)) (.sx .leaf .leaf)) (.sy (.sx (.sy (.sx
    .leaf .leaf) .leaf) (.sy (.sx .leaf .leaf) (.sx .leaf .leaf))) (.sx (.sy .leaf .leaf) (.sy .leaf .leaf))))
    (.sx .leaf (.sy (.sx .leaf .leaf) .leaf)))) (.sx .leaf (.sy (.sx .leaf .leaf) .leaf)))) (.sx (.sy .leaf
    .leaf) (.sy (.sx .leaf .leaf) .leaf)))) (.sx (.sy (.sx (.sy .leaf .leaf) (.sy .leaf .leaf)) .leaf) (.sy
    (.sx (.sy .leaf .leaf) (.sy .leaf .leaf)) .leaf))) (.sy (.sx (.sy .leaf (.sx .leaf .leaf)) (.sy .leaf (.sx
    .leaf .leaf))) (.sx (.sy (.sx (.sy .leaf .leaf) (.sy .leaf .leaf)) (.sx (.sy .leaf .leaf) (.sy .leaf (.sx
    .leaf .leaf)))) (.sy (.sx (.sy .leaf .leaf) (.sy .leaf .leaf)) (.sx (.sy .leaf (.sx .leaf .leaf)) (.sy
    (.sx .leaf .leaf) (.sx (.sy .leaf .leaf) (.sy .leaf .leaf)))))))
theorem check_slope' : check 8 18 e_slope [] tree_slope' 21 102 20 181 573 200 = true := by decide +kernel

def e_shrink : E := .sub (.mul e_t (.mono Hp Hn 31 58)) (.mul (.mono [(1000, 0, 1)] [] 0 1) e_v)
theorem ok_shrink : e_shrink.ok = true := by decide +kernel
theorem check_shrink : check 8 18 e_shrink [] .leaf 6858 242 1000 3796 57 1000 = true := by decide +kernel

variable {p T : ℝ}

theorem slope_eq {x y : ℝ} (hx : 7.1 - x ≠ 0) (hy : y - 1.222 ≠ 0) (h : 0 < e_slope.eval (7.1 - x) (y - 1.222)) (hp : 0 < y - 1.222) :
    3e-4 < gamma1.gp x y - y * gamma1.gpt x y := by
  have h3 := c_eq hx hy
  simp only [e_slope, E.eval] at h
  rw [h3] at h
  simp only [evalN_cons, evalN_nil] at h
  have k : 0 < (y - 1.222) ^ 42 := by positivity
  push_cast at h
  by_contra hc
  nlinarith

theorem slope_low (hv : Liquid p T) (h1 : p ≤ 16.53) (hT : 277.93 ≤ T) :
    3e-4 < gamma1.gp (p / 16.53) (1386 / T) - 1386 / T * gamma1.gpt (p / 16.53) (1386 / T) := by
  have hT0 : 0 < T := by linarith
  have a1 : 1386 / 623.2 ≤ 1386 / T := div_le_div_of_nonneg_left (by norm_num) hT0 hv.T1
  have a2 : 1386 / T ≤ 1386 / 277.93 := div_le_div_of_nonneg_left (by norm_num) (by norm_num) hT
  have b1 : 0 ≤ p / 16.53 := div_nonneg (by linarith [hv.sat, psat_nonneg T]) (by norm_num)
  have b2 : p / 16.53 ≤ 1 := (div_le_one (by norm_num)).2 h1
  refine slope_eq (x_pos hv).ne' (y_pos hv).ne' (check_sound (by norm_num) (by norm_num) ok_slope tree_slope (by norm_num) (by norm_num)
    check_slope (chk1_sound lims_ok hv) ?_ ?_ ?_ ?_) (y_pos hv) <;> norm_num at a1 a2 b1 b2 ⊢ <;> linarith

theorem slope_high (h0 : 16.5 ≤ p) (h1 : p ≤ 100) (hT : 277.93 ≤ T) (hT' : T ≤ 650.2) :
    3e-4 < gamma1.gp (p / 16.53) (1386 / T) - 1386 / T * gamma1.gpt (p / 16.53) (1386 / T) := by
  have hT0 : 0 < T := by linarith
  have a1 : 1386 / 650.2 ≤ 1386 / T := div_le_div_of_nonneg_left (by norm_num) hT0 hT'
  have a2 : 1386 / T ≤ 1386 / 277.93 := div_le_div_of_nonneg_left (by norm_num) (by norm_num) hT
  have b1 : 16.5 / 16.53 ≤ p / 16.53 := div_le_div_of_nonneg_right h0 (by norm_num)
  have b2 : p / 16.53 ≤ 100 / 16.53 := div_le_div_of_nonneg_right h1 (by norm_num)
  have hy : 0 < 1386 / T - 1.222 := by norm_num at a1 ⊢; linarith
  have hx : 7.1 - p / 16.53 ≠ 0 := by norm_num at b2 ⊢; intro h; linarith
  refine slope_eq hx hy.ne' (check_sound (by norm_num) (by norm_num) ok_slope tree_slope' (by norm_num) (by norm_num)
    check_slope' (by simp) ?_ ?_ ?_ ?_) hy <;> norm_num at a1 a2 b1 b2 ⊢ <;> linarith

theorem shrink (h0 : 0 ≤ p) (h1 : p ≤ 4) (hT : 273.15 ≤ T) (hT' : T ≤ 276.15) :
    gamma1.gp (p / 16.53) (1386 / T) - 1386 / T * gamma1.gpt (p / 16.53) (1386 / T) < 0 := by
  have hT0 : 0 < T := by linarith
  have a1 : 1386 / 276.15 ≤ 1386 / T := div_le_div_of_nonneg_left (by norm_num) hT0 hT'
  have a2 : 1386 / T ≤ 1386 / 273.15 := div_le_div_of_nonneg_left (by norm_num) (by norm_num) hT
  have b1 : 0 ≤ p / 16.53 := div_nonneg h0 (by norm_num)
  have b2 : p / 16.53 ≤ 4 / 16.53 := div_le_div_of_nonneg_right h1 (by norm_num)
  have hy : 0 < 1386 / T - 1.222 := by norm_num at a1 ⊢; linarith
  have hx : 7.1 - p / 16.53 ≠ 0 := by norm_num at b2 ⊢; intro h; linarith
  have k : 0 < (1386 / T - 1.222) ^ 42 := by positivity
  have h : 0 < e_shrink.eval (7.1 - p / 16.53) (1386 / T - 1.222) := by
    refine check_sound (by norm_num) (by norm_num) ok_shrink .leaf (by norm_num) (by norm_num) check_shrink (by simp) ?_ ?_ ?_ ?_ <;>
      norm_num at a1 a2 b1 b2 ⊢ <;> linarith
  have h3 := c_eq hx hy.ne'
  have h4 : e_shrink.eval (7.1 - p / 16.53) (1386 / T - 1.222) = -e_c.eval (7.1 - p / 16.53) (1386 / T - 1.222) := by
    simp only [e_shrink, e_c, E.eval]; ring
  rw [h4, h3] at h
  by_contra hc
  nlinarith

end PyX.Kron.R1
