import Verif.Lemmas.Sign1
import Verif.Lemmas.Sign2
import Verif.Lemmas.Stable

/-!
# Bounds on specific volumes

Water at 10 °C takes more room than at 0 °C, up to 100 MPa: a polynomial `sep` in `7.1 - p/16.53` lies between the two volumes.
Above 16.5 MPa the liquid at 623.15 K is denser than 500 kg/m³, and steam is not.
-/

namespace PyX.Kron

open Spec Spec.IF97 Kron

/-- `D · 100 · y^41` times the polynomial between the volumes, `D = 5e38` -/
def eSep : E := .mono [(1703800335000000000000000000000000000000000, 0, 41), (10320595000000000000000000000000000000000, 1, 41), (227560000000000000000000000000000000000, 2, 41), (7700000000000000000000000000000000000, 3, 41)] [(30000000000000000000000000000000000, 4, 41)] 31 58

def eSep0 : E := .sub eSep (.mul (.mono [(27315, 0, 0)] [] 0 0) R1.e_v)
def eSep1 : E := .sub (.mul (.mono [(28315, 0, 0)] [] 0 0) R1.e_v) eSep
def eV273 : E := .sub (.mono [(131000000000000000000000000000000000000, 0, 41)] [] 31 58) R1.e_v
def eV623 : E := .sub (.mono [(57450000000000000000000000000000000000, 0, 41)] [] 31 58) R1.e_v
def eV23 : E := .sub (.mul (.mono [(24922404, 0, 0)] [] 0 0) R2.e_v) (.mono [(200000000000000000000000000000000000000000000000, 1, 1), (100000000000000000000000000000000000000000000000, 1, 0)] [] 24 58)

theorem ok_sep0 : eSep0.ok = true := by decide +kernel
theorem ok_sep1 : eSep1.ok = true := by decide +kernel
theorem ok_v273 : eV273.ok = true := by decide +kernel
theorem ok_v623 : eV623.ok = true := by decide +kernel
theorem ok_v23 : eV23.ok = true := by decide +kernel

theorem check_sep0 : check 12 3 eSep0 [] .leaf 105 605 100 3852135 1 1000000 = true := by decide +kernel
theorem check_sep1 : check 12 3 eSep1 [] .leaf 105 605 100 3672932 1 1000000 = true := by decide +kernel
theorem check_v273 : check 6 6 eV273 [] .leaf 105 605 100 3852 1 1000 = true := by decide +kernel
def tree_v623 : Tree :=
  .sx .leaf (.sx (.sx .leaf .leaf) (.sx (.sx .leaf .leaf) (.sx (.sx .leaf .leaf) (.sx .leaf .leaf))))
theorem check_v623 : check 6 6 eV623 [] tree_v623 105 510 100 1002 1 1000 = true := by decide +kernel
def tree_v23 : Tree :=
  .sx (.sy (.sx .leaf (.sy .leaf .leaf)) (.sx (.sy (.sx .leaf (.sy .leaf (.sx .leaf (.sy .leaf (.sx .leaf (.sx
    (.sx (.sx .leaf .skip) .skip) .skip)))))) (.sx (.sy (.sx .leaf (.sy .leaf (.sx .leaf (.sx (.sy .leaf
    .skip) .skip)))) (.sx (.sy (.sx .leaf (.sy .leaf (.sx .leaf .skip))) (.sx (.sy (.sx .leaf .leaf) (.sx
    .leaf .skip)) .skip)) .skip)) (.sx (.sx (.sy (.sy (.sy .leaf .skip) .skip) .skip) .skip) .skip))) (.sy
    (.sx (.sy (.sx .leaf (.sy .leaf .leaf)) (.sx (.sy (.sx .leaf (.sy .leaf .skip)) .skip) .skip)) (.sy (.sx
    (.sy .leaf (.sx (.sy .leaf .skip) (.sx (.sy .leaf .skip) .skip))) (.sy .leaf .skip)) .skip)) .skip))) (.sy
    (.sx (.sy .leaf (.sx (.sy .leaf (.sx .leaf (.sy .leaf .leaf))) (.sy .leaf (.sx (.sy .leaf (.sx .leaf (.sy
    .leaf .skip))) (.sy .leaf (.sx (.sy .leaf .skip) .skip)))))) (.sy .leaf (.sx (.sy .leaf (.sx (.sy .leaf
    .skip) (.sy .leaf .skip))) (.sy (.sx .leaf (.sy .leaf .leaf)) (.sx (.sx (.sy .leaf .skip) .skip)
    .skip))))) (.sx (.sx (.sx (.sy (.sy (.sy (.sx (.sy .leaf .skip) (.sx (.sy .leaf .skip) .skip)) .skip)
    .skip) .skip) .skip) .skip) .skip))
theorem check_v23 : check 6 12 eV23 R2.lims tree_v23 165 835 10 0 37 100 = true := by decide +kernel

/-- a certificate at a fixed temperature -/
theorem at_temp {e : E} {tree : Tree} {mx my : ℕ} (hmx : 1 ≤ mx) (hmy : 1 ≤ my) (ho : e.ok = true) {b c C : ℕ}
    (hc : check mx my e [] tree 105 b 100 c 1 C = true) (hC : 0 < C) {p y : ℝ} (h1 : p ≤ 100)
    (h2 : 7.1 - p / 16.53 ≤ (105 + b) / 100) (h3 : (c : ℝ) / C ≤ y) (h4 : y ≤ ((c : ℝ) + 1) / C) : 0 < e.eval (7.1 - p / 16.53) y := by
  have b2 : p / 16.53 ≤ 100 / 16.53 := div_le_div_of_nonneg_right h1 (by norm_num)
  refine check_sound hmx hmy ho tree (by norm_num) hC hc (by simp) ?_ (by push_cast; exact h2) h3 (by push_cast; exact h4)
  norm_num at b2 ⊢; linarith

variable {p T : ℝ}

private theorem x_ne (h1 : p ≤ 100) : 7.1 - p / 16.53 ≠ 0 := by
  have b2 : p / 16.53 ≤ 100 / 16.53 := div_le_div_of_nonneg_right h1 (by norm_num)
  norm_num at b2 ⊢; intro h; linarith

private theorem x_le (h0 : 0 ≤ p) : 7.1 - p / 16.53 ≤ 7.1 := by
  have : 0 ≤ p / 16.53 := div_nonneg h0 (by norm_num)
  linarith

/-- water at 10 °C takes more room than at 0 °C -/
theorem v1_273_lt (h0 : 0 ≤ p) (h1 : p ≤ 100) : gamma1.v p 273.15 < gamma1.v p 283.15 := by
  have a0 := at_temp (by norm_num) (by norm_num) ok_sep0 check_sep0 (by norm_num) (y := 1386 / 273.15 - 1.222) h1
    (by have := x_le h0; norm_num at this ⊢; linarith) (by norm_num) (by norm_num)
  have a1 := at_temp (by norm_num) (by norm_num) ok_sep1 check_sep1 (by norm_num) (y := 1386 / 283.15 - 1.222) h1
    (by have := x_le h0; norm_num at this ⊢; linarith) (by norm_num) (by norm_num)
  have e0 := R1.v_eq (π := p / 16.53) (τ := 1386 / 273.15) (x_ne h1) (by norm_num)
  have e1 := R1.v_eq (π := p / 16.53) (τ := 1386 / 283.15) (x_ne h1) (by norm_num)
  simp only [eSep0, eSep1, E.eval, e0, e1, evalN_cons, evalN_nil, eSep] at a0 a1
  generalize 7.1 - p / 16.53 = x at *
  have k0 : (0 : ℝ) < (1386 / 273.15 - 1.222) ^ 41 := by norm_num
  have k1 : (0 : ℝ) < (1386 / 283.15 - 1.222) ^ 41 := by norm_num
  simp only [Gamma.v]
  have hp : gamma1.ps = 16.53 := rfl
  have hT : gamma1.Ts = 1386 := rfl
  rw [hp, hT]
  generalize gamma1.gp (p / 16.53) (1386 / 273.15) = g0 at *
  generalize gamma1.gp (p / 16.53) (1386 / 283.15) = g1 at *
  have b0 : 273.15 * g0 < (34.0760067 + 0.2064119 * x + 0.0045512 * x ^ 2 + 0.000154 * x ^ 3 - 0.0000006 * x ^ 4) := by
    generalize ((1386 : ℝ) / 273.15 - 1.222) ^ 41 = w at *
    push_cast at a0
    by_contra hc
    nlinarith
  have b1 : (34.0760067 + 0.2064119 * x + 0.0045512 * x ^ 2 + 0.000154 * x ^ 3 - 0.0000006 * x ^ 4) < 283.15 * g1 := by
    generalize ((1386 : ℝ) / 283.15 - 1.222) ^ 41 = w at *
    push_cast at a1
    by_contra hc
    nlinarith
  rw [div_lt_div_iff_of_pos_right (by norm_num)]
  have := Gamma.R_pos
  nlinarith

theorem v1_cold (h0 : 0 ≤ p) (h1 : p ≤ 100) : gamma1.v p 273.15 < 0.002 := by
  have a0 := at_temp (by norm_num) (by norm_num) ok_v273 check_v273 (by norm_num) (y := 1386 / 273.15 - 1.222) h1
    (by have := x_le h0; norm_num at this ⊢; linarith) (by norm_num) (by norm_num)
  have e0 := R1.v_eq (π := p / 16.53) (τ := 1386 / 273.15) (x_ne h1) (by norm_num)
  simp only [eV273, E.eval, e0, evalN_cons, evalN_nil] at a0
  have k0 : (0 : ℝ) < (1386 / 273.15 - 1.222) ^ 41 := by norm_num
  have hp : gamma1.ps = 16.53 := rfl
  have hT : gamma1.Ts = 1386 := rfl
  simp only [Gamma.v, hp, hT]
  generalize gamma1.gp (p / 16.53) (1386 / 273.15) = g0 at *
  have b0 : g0 < 0.262 := by
    generalize ((1386 : ℝ) / 273.15 - 1.222) ^ 41 = w at *
    push_cast at a0
    by_contra hc
    nlinarith
  rw [div_lt_iff₀ (by norm_num)]
  norm_num [R] at b0 ⊢
  linarith

theorem v1_623 (h0 : 16.5 ≤ p) (h1 : p ≤ 100) : gamma1.v p 623.15 < 0.002 := by
  have hx : 16.5 / 16.53 ≤ p / 16.53 := div_le_div_of_nonneg_right h0 (by norm_num)
  have a0 := at_temp (by norm_num) (by norm_num) ok_v623 check_v623 (by norm_num) (y := 1386 / 623.15 - 1.222) h1
    (by norm_num at hx ⊢; linarith) (by norm_num) (by norm_num)
  have e0 := R1.v_eq (π := p / 16.53) (τ := 1386 / 623.15) (x_ne h1) (by norm_num)
  simp only [eV623, E.eval, e0, evalN_cons, evalN_nil] at a0
  have k0 : (0 : ℝ) < (1386 / 623.15 - 1.222) ^ 41 := by norm_num
  have hp : gamma1.ps = 16.53 := rfl
  have hT : gamma1.Ts = 1386 := rfl
  simp only [Gamma.v, hp, hT]
  generalize gamma1.gp (p / 16.53) (1386 / 623.15) = g0 at *
  have b0 : g0 < 0.1149 := by
    generalize ((1386 : ℝ) / 623.15 - 1.222) ^ 41 = w at *
    push_cast at a0
    by_contra hc
    nlinarith
  rw [div_lt_iff₀ (by norm_num)]
  norm_num [R] at b0 ⊢
  linarith

theorem v2_gt (hv : Vapour p T) (h0 : 16.5 ≤ p) (hT : 623.15 ≤ T) : 0.002 < gamma2.v p T := by
  have hT0 : 0 < T := by linarith
  have a1 : 540 / 1073.15 ≤ 540 / T := div_le_div_of_nonneg_left (by norm_num) hT0 hv.T1
  have a2 : 540 / T ≤ 540 / 623.15 := div_le_div_of_nonneg_left (by norm_num) (by norm_num) hT
  have h : 0 < eV23.eval p (540 / T - 1 / 2) := by
    refine check_sound (by norm_num) (by norm_num) ok_v23 tree_v23 (by norm_num) (by norm_num) check_v23 (chk2_sound R2.lims_ok hv) ?_ ?_ ?_ ?_
    · norm_num at h0 ⊢; linarith
    · have := hv.p1; norm_num; linarith
    · norm_num at a1 ⊢; linarith
    · norm_num at a2 ⊢; linarith
  have e0 := R2.v_eq hv.p0.ne' (R2.y_pos hv).ne'
  have e : 540 / T - 1 / 2 + 1 / 2 = 540 / T := by ring
  rw [e] at e0
  simp only [eV23, E.eval, e0, evalN_cons, evalN_nil] at h
  have hp : gamma2.ps = 1 := rfl
  have hT' : gamma2.Ts = 540 := rfl
  simp only [Gamma.v, hp, hT', div_one]
  have t0 : T * (540 / T) = 540 := by field_simp
  generalize 540 / T = τ at *
  generalize gamma2.gp p τ = g at *
  have hp0 := hv.p0
  have k : 0 < p * (249.22404 * g - 2 * τ) := by push_cast at h; nlinarith
  have k' : 0 < 249.22404 * g - 2 * τ := pos_of_mul_pos_right k hp0.le
  rw [lt_div_iff₀ (by norm_num)]
  have : 0 < T * (249.22404 * g - 2 * τ) := mul_pos hT0 k'
  norm_num [R] at *
  linarith

end PyX.Kron
