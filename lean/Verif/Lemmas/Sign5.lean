import Verif.Lemmas.KronTerms
import Verif.Lemmas.Stable

/-!
# Region 5: signs of the derivatives of the Gibbs free energy

With `x = π = p` and `y = τ = 1000/T`, on `0 < p ≤ 50`, `1041.7 K ≤ T ≤ 2272.7 K` and beyond: `0 < x ≤ 50`,
`0.44 - 0.0001 ≤ y ≤ 0.96`. The lists of monomials are checked against the tables of IAPWS-IF97 by `same`.
-/

namespace PyX.Kron.R5

open Spec.IF97 PyX

set_option maxRecDepth 20000
set_option Elab.async false

def Gp : List Mono :=
  [(108873393572855000, 1, 1), (19378842434676, 3, 3)]
def Gn : List Mono :=
  [(6281591794796000, 1, 0), (229714104499550000, 1, 3), (397248283595690, 2, 9)]

def Bp : List Mono :=
  [(397248283595690, 2, 9)]
def Bn : List Mono :=
  [(38757684869352, 3, 3)]

def Hp : List Mono :=
  [(108873393572855000, 1, 1), (58136527304028, 3, 3)]
def Hn : List Mono :=
  [(689142313498650000, 1, 3), (3575234552361210, 2, 9)]

def Ip : List Mono :=
  [(14883089360079600000, 0, 0), (311613182139250000000, 0, 2), (32961626538917000000, 0, 5)]
def In : List Mono :=
  [(110704604940999000000, 0, 1)]

def Ap : List Mono :=
  [(1378284626997300000, 1, 6), (14300938209444840, 2, 12)]
def An : List Mono :=
  [(38757684869352, 3, 6)]

theorem same_G : same 50000000000000000000 1 0 1 0 region5 Gp Gn = true := by decide +kernel
theorem same_B : same (-50000000000000000000) 2 0 2 0 region5 Bp Bn = true := by decide +kernel
theorem same_H : same 50000000000000000000 1 1 1 1 region5 Hp Hn = true := by decide +kernel
theorem same_I : same (-50000000000000000000) 0 2 0 5 region5Ideal Ip In = true := by decide +kernel
theorem same_A : same (-50000000000000000000) 0 2 0 5 region5 Ap An = true := by decide +kernel

def e_v : E := .mono ((50000000000000000000, 0, 0) :: Gp) Gn 3 9
def e_kappa : E := .mono ((50000000000000000000, 0, 0) :: Bp) Bn 3 9
def e_cp : E := .add (.mono Ip In 3 12) (.mono Ap An 3 12)
def e_c : E := .sub e_v (.mono Hp Hn 3 9)
def e_det : E := .sub (.mul (.norm e_cp) (.norm e_kappa)) (.mul (.mono [(1, 0, 3)] [] 0 3) (.mul (.norm e_c) (.norm e_c)))

variable {x y : ℝ} (hx : x ≠ 0) (hy : y ≠ 0)
include hx hy

theorem v_eq : e_v.eval x y = 50000000000000000000 * (x * gamma5.gp x y) := by
  have := same_eq same_G hx hy
  simp only [e_v, E.eval, evalN_cons, gamma5]
  push_cast at this ⊢
  have h1 : x * (1 / x) = 1 := by field_simp
  linear_combination this - 50000000000000000000 * h1

theorem kappa_eq : e_kappa.eval x y = -50000000000000000000 * (x ^ 2 * gamma5.gpp x y) := by
  have := same_eq same_B hx hy
  simp only [e_kappa, E.eval, evalN_cons, gamma5]
  push_cast at this ⊢
  have h1 : x ^ 2 * (-1 / x ^ 2) = -1 := by field_simp
  linear_combination this + 50000000000000000000 * h1

theorem cp_eq : e_cp.eval x y = -50000000000000000000 * (y ^ 5 * gamma5.gtt x y) := by
  have h1 := same_eq same_I hx hy
  have h2 := same_eq same_A hx hy
  have h3 : dpoly region5Ideal 0 2 x y = dpoly region5Ideal 0 2 1 y := by
    simp [dpoly, Term.d, region5Ideal]
  rw [h3] at h1
  simp only [e_cp, E.eval, gamma5]
  push_cast at h1 h2 ⊢
  linear_combination h1 + h2

theorem c_eq : e_c.eval x y = 50000000000000000000 * (x * (gamma5.gp x y - y * gamma5.gpt x y)) := by
  have h1 := v_eq hx hy
  have h2 := same_eq same_H hx hy
  simp only [e_c, E.eval]
  rw [h1]
  simp only [gamma5] at *
  push_cast at h2 ⊢
  linear_combination -h2

theorem det_eq : e_det.eval x y = 50000000000000000000 ^ 2 * (x ^ 2 * y ^ 3 *
    (y ^ 2 * gamma5.gtt x y * gamma5.gpp x y - (gamma5.gp x y - y * gamma5.gpt x y) ^ 2)) := by
  have h1 := cp_eq hx hy
  have h2 := kappa_eq hx hy
  have h3 := c_eq hx hy
  simp only [e_det, E.eval] at *
  rw [h1, h2, h3]
  simp only [evalN_cons, evalN_nil]
  push_cast
  ring

omit hx hy

theorem ok_v : e_v.ok = true := by decide +kernel
def tree_v : Tree :=
  .leaf

theorem check_v : check 4 10 e_v [] tree_v 0 50 1 4399 5201 10000 = true := by decide +kernel

theorem ok_kappa : e_kappa.ok = true := by decide +kernel
def tree_kappa : Tree :=
  .leaf

theorem check_kappa : check 4 10 e_kappa [] tree_kappa 0 50 1 4399 5201 10000 = true := by decide +kernel

theorem ok_cp : e_cp.ok = true := by decide +kernel
def tree_cp : Tree :=
  .leaf

theorem check_cp : check 4 10 e_cp [] tree_cp 0 50 1 4399 5201 10000 = true := by decide +kernel

theorem ok_det : e_det.ok = true := by decide +kernel
def tree_det : Tree :=
  .leaf

theorem check_det : check 4 10 e_det [] tree_det 0 50 1 4399 5201 10000 = true := by decide +kernel

/-- region 5 is stable -/
theorem stable (h0 : 0 < x) (h1 : x ≤ 50) (h2 : 0.44 ≤ y + 0.0001) (h3 : y ≤ 0.96) : gamma5.Stable x y := by
  have hy0 : 0 < y := by linarith
  have go : ∀ {e : E} {tree : Tree}, e.ok = true → check 4 10 e [] tree 0 50 1 4399 5201 10000 = true → 0 < e.eval x y := by
    intro e tree ho hc
    refine check_sound (by norm_num) (by norm_num) ho tree (by norm_num) (by norm_num) hc (fun l hl => by cases hl) ?_ ?_ ?_ ?_
    all_goals norm_num at h2 h3 ⊢
    all_goals linarith
  have a1 := go ok_v check_v
  have a2 := go ok_kappa check_kappa
  have a3 := go ok_cp check_cp
  have a4 := go ok_det check_det
  rw [v_eq h0.ne' hy0.ne'] at a1
  rw [kappa_eq h0.ne' hy0.ne'] at a2
  rw [cp_eq h0.ne' hy0.ne'] at a3
  rw [det_eq h0.ne' hy0.ne'] at a4
  refine ⟨?_, ?_, ?_, ?_⟩
  · exact pos_of_mul_pos_right (pos_of_mul_pos_right a1 (by norm_num)) h0.le
  · have := pos_of_mul_pos_right (show 0 < 50000000000000000000 * (y ^ 5 * -gamma5.gtt x y) by linarith) (by norm_num)
    linarith [pos_of_mul_pos_right this (by positivity)]
  · have := pos_of_mul_pos_right (show 0 < 50000000000000000000 * (x ^ 2 * -gamma5.gpp x y) by linarith) (by norm_num)
    linarith [pos_of_mul_pos_right this (by positivity)]
  · have := pos_of_mul_pos_right (pos_of_mul_pos_right a4 (by norm_num)) (by positivity)
    linarith

end PyX.Kron.R5
