import Verif.Lemmas.CellsData
import Verif.Props.Phases

/-!
# Regions 2 and 5 on the isotherm 1073.15 K
-/

namespace PyX.Kron

open Spec.IF97 PyX

set_option maxRecDepth 20000

variable {p T : ℝ}

/-- a polynomial of `p`, in units of `10⁻¹³` -/
noncomputable def cub (P N : List Mono) (p : ℝ) : ℝ := (evalN P p 0 - evalN N p 0) / 10000000000000

theorem evalN_flat {l : List Mono} (h : ∀ m ∈ l, m.2.2 = 0) (x y : ℝ) : evalN l x y = evalN l x 0 := by
  induction l with
  | nil => rfl
  | cons m l ih =>
    obtain ⟨n, I, J⟩ := m
    have hJ : J = 0 := h (n, I, J) (by simp)
    subst hJ
    rw [evalN_cons', evalN_cons', ih fun m hm => h m (by simp [hm])]
    simp

/-- an upper and a lower bound of the enthalpy, up to a factor -/
def qHup (P N : List Mono) : E := .sub (.mul (.mono P N 3 0) (.mono den2 [] 21 63)) (.mul (cst 20000000000000000) B2.qh.n)
def qHlo (P N : List Mono) : E := .sub (.mul (cst 20000000000000000) B2.qh.n) (.mul (.mono P N 3 0) (.mono den2 [] 21 63))

/-- of `s/R + ln p` -/
def qSup (P N : List Mono) : E := .sub (.mul (.mul (cst 200000000000000000000000000000) (.mono P N 3 0)) (.mono B2.l5 [] 21 63)) B2.eS
def qSlo (P N : List Mono) : E := .sub B2.eS (.mul (.mul (cst 200000000000000000000000000000) (.mono P N 3 0)) (.mono B2.l5 [] 21 63))

/-- of `p γ_π` -/
def qVup (P N : List Mono) : E := .sub (.mul (cst 100000000000000000000000000000) (.mono P N 24 58)) R2.e_v
def qVlo (P N : List Mono) : E := .sub R2.e_v (.mul (cst 100000000000000000000000000000) (.mono P N 24 58))

theorem flat_eval {P N : List Mono} {a b : ℕ} (hP : ∀ m ∈ P, m.2.2 = 0) (hN : ∀ m ∈ N, m.2.2 = 0) (x y : ℝ) :
    (E.mono P N a b).eval x y = 10000000000000 * cub P N x := by
  simp only [E.eval, cub]
  rw [evalN_flat hP, evalN_flat hN]
  ring

variable {P N : List Mono} (hP : ∀ m ∈ P, m.2.2 = 0) (hN : ∀ m ∈ N, m.2.2 = 0)
include hP hN

theorem hup (hv : Vapour p T) (h : 0 < (qHup P N).eval p (540 / T - 1 / 2)) : gamma2.h p T < cub P N p := by
  have e : (qHup P N).eval p (540 / T - 1 / 2) = evalN den2 p (540 / T - 1 / 2) * (10000000000000 * (cub P N p - gamma2.h p T)) := by
    have := flat_eval (a := 3) (b := 0) hP hN p (540 / T - 1 / 2)
    simp only [qHup, E.eval, eval_cst, qh2_n hv] at this ⊢
    rw [this]
    simp only [evalN_nil']
    push_cast
    ring
  rw [e] at h
  have := pos_of_mul_pos_right h (den2_pos p (B2.y_pos hv)).le
  linarith

theorem hlo (hv : Vapour p T) (h : 0 < (qHlo P N).eval p (540 / T - 1 / 2)) : cub P N p < gamma2.h p T := by
  have e : (qHlo P N).eval p (540 / T - 1 / 2) = evalN den2 p (540 / T - 1 / 2) * (10000000000000 * (gamma2.h p T - cub P N p)) := by
    have := flat_eval (a := 3) (b := 0) hP hN p (540 / T - 1 / 2)
    simp only [qHlo, E.eval, eval_cst, qh2_n hv] at this ⊢
    rw [this]
    simp only [evalN_nil']
    push_cast
    ring
  rw [e] at h
  have := pos_of_mul_pos_right h (den2_pos p (B2.y_pos hv)).le
  linarith

theorem sup (hv : Vapour p T) (h : 0 < (qSup P N).eval p (540 / T - 1 / 2)) : gamma2.s p T / R + Real.log p < cub P N p := by
  have y0 := B2.y_pos hv
  have e : (qSup P N).eval p (540 / T - 1 / 2) = 2000000000000000000000000000000000000000000 * ((2 * (540 / T - 1 / 2) + 1) ^ 5 *
      (cub P N p - (gamma2.s p T / R + Real.log p))) := by
    have := flat_eval (a := 3) (b := 0) hP hN p (540 / T - 1 / 2)
    simp only [qSup, E.eval, eval_cst, B2.eS_eval hv, B2.l5_eq] at this ⊢
    rw [this]
    simp only [evalN_nil']
    push_cast
    ring
  rw [e] at h
  have := pos_of_mul_pos_right (pos_of_mul_pos_right h (by norm_num)) (by positivity)
  linarith

theorem slo (hv : Vapour p T) (h : 0 < (qSlo P N).eval p (540 / T - 1 / 2)) : cub P N p < gamma2.s p T / R + Real.log p := by
  have y0 := B2.y_pos hv
  have e : (qSlo P N).eval p (540 / T - 1 / 2) = 2000000000000000000000000000000000000000000 * ((2 * (540 / T - 1 / 2) + 1) ^ 5 *
      (gamma2.s p T / R + Real.log p - cub P N p)) := by
    have := flat_eval (a := 3) (b := 0) hP hN p (540 / T - 1 / 2)
    simp only [qSlo, E.eval, eval_cst, B2.eS_eval hv, B2.l5_eq] at this ⊢
    rw [this]
    simp only [evalN_nil']
    push_cast
    ring
  rw [e] at h
  have := pos_of_mul_pos_right (pos_of_mul_pos_right h (by norm_num)) (by positivity)
  linarith

theorem vup (hv : Vapour p T) (h : 0 < (qVup P N).eval p (540 / T - 1 / 2)) : p * gamma2.gp p (540 / T) < cub P N p := by
  have y0 := B2.y_pos hv
  have e := R2.v_eq hv.p0.ne' y0.ne'
  have e1 : 540 / T - 1 / 2 + 1 / 2 = 540 / T := by ring
  rw [e1] at e
  have := flat_eval (a := 24) (b := 58) hP hN p (540 / T - 1 / 2)
  simp only [qVup, E.eval, eval_cst] at this h
  rw [this, show R2.e_v.eval p (540 / T - 1 / 2) = _ from e] at h
  push_cast at h
  linarith

theorem vlo (hv : Vapour p T) (h : 0 < (qVlo P N).eval p (540 / T - 1 / 2)) : cub P N p < p * gamma2.gp p (540 / T) := by
  have y0 := B2.y_pos hv
  have e := R2.v_eq hv.p0.ne' y0.ne'
  have e1 : 540 / T - 1 / 2 + 1 / 2 = 540 / T := by ring
  rw [e1] at e
  have := flat_eval (a := 24) (b := 58) hP hN p (540 / T - 1 / 2)
  simp only [qVlo, E.eval, eval_cst] at this h
  rw [this, show R2.e_v.eval p (540 / T - 1 / 2) = _ from e] at h
  push_cast at h
  linarith

omit hP hN

def hUP : List Mono := [(41607062903082629, 0, 0), (1553220591, 3, 0)]
def hUN : List Mono := [(45185402587932, 1, 0), (93803117369, 2, 0)]
def hUBars : List Bar :=
  [⟨0, 250, 107315, 107315, ⟨0, 250, 100, 137, 0, 42926⟩⟩,
   ⟨250, 500, 107315, 107315, ⟨250, 250, 100, 137, 0, 42926⟩⟩,
   ⟨500, 750, 107315, 107315, ⟨500, 250, 100, 137, 0, 42926⟩⟩,
   ⟨750, 1001, 107315, 107315, ⟨750, 251, 100, 137, 0, 42926⟩⟩]

theorem hU_chain : chainP 0 hUBars 1001 = true := by decide +kernel

theorem hU_ok : barsI 107315 (qHup hUP hUN) hUBars = true := by decide +kernel

theorem hU (h0 : 0 < p) (h2 : p ≤ 10) :
    gamma2.h p 1073.15 < (4160.7062903082629) * p ^ 0 + (-4.5185402587932) * p ^ 1 + (-0.0093803117369) * p ^ 2 + (0.0001553220591) * p ^ 3 := by
  have := hup (P := hUP) (N := hUN) (by simp [hUP]) (by simp [hUN]) (vapour_1073 h0 (by linarith))
    (barsI_sound hU_chain hU_ok (by norm_num) (by norm_num; linarith) (by norm_num; linarith))
  refine lt_of_lt_of_le this (le_of_eq ?_)
  simp only [cub, hUP, hUN, evalN_cons', evalN_nil']
  push_cast
  ring

def hLP : List Mono := [(41606562903082629, 0, 0), (1553220591, 3, 0)]
def hLN : List Mono := [(45185402587932, 1, 0), (93803117369, 2, 0)]
def hLBars : List Bar :=
  [⟨0, 250, 107315, 107315, ⟨0, 250, 100, 137, 0, 42926⟩⟩,
   ⟨250, 500, 107315, 107315, ⟨250, 250, 100, 137, 0, 42926⟩⟩,
   ⟨500, 750, 107315, 107315, ⟨500, 250, 100, 137, 0, 42926⟩⟩,
   ⟨750, 1001, 107315, 107315, ⟨750, 251, 100, 137, 0, 42926⟩⟩]

theorem hL_chain : chainP 0 hLBars 1001 = true := by decide +kernel

theorem hL_ok : barsI 107315 (qHlo hLP hLN) hLBars = true := by decide +kernel

theorem hL (h0 : 0 < p) (h2 : p ≤ 10) :
    (4160.6562903082629) * p ^ 0 + (-4.5185402587932) * p ^ 1 + (-0.0093803117369) * p ^ 2 + (0.0001553220591) * p ^ 3 < gamma2.h p 1073.15 := by
  have := hlo (P := hLP) (N := hLN) (by simp [hLP]) (by simp [hLN]) (vapour_1073 h0 (by linarith))
    (barsI_sound hL_chain hL_ok (by norm_num) (by norm_num; linarith) (by norm_num; linarith))
  refine lt_of_le_of_lt (le_of_eq ?_) this
  simp only [cub, hLP, hLN, evalN_cons', evalN_nil']
  push_cast
  ring

def sUP : List Mono := [(184297289980112, 0, 0), (2090669, 3, 0)]
def sUN : List Mono := [(73091180586, 1, 0), (168348072, 2, 0)]
def sUBars : List Bar :=
  [⟨0, 250, 107315, 107315, ⟨0, 250, 100, 137, 0, 42926⟩⟩,
   ⟨250, 500, 107315, 107315, ⟨250, 250, 100, 137, 0, 42926⟩⟩,
   ⟨500, 750, 107315, 107315, ⟨500, 250, 100, 137, 0, 42926⟩⟩,
   ⟨750, 1001, 107315, 107315, ⟨750, 251, 100, 137, 0, 42926⟩⟩]

theorem sU_chain : chainP 0 sUBars 1001 = true := by decide +kernel

theorem sU_ok : barsI 107315 (qSup sUP sUN) sUBars = true := by decide +kernel

theorem sU (h0 : 0 < p) (h2 : p ≤ 10) :
    gamma2.s p 1073.15 / R + Real.log p < (18.4297289980112) * p ^ 0 + (-0.0073091180586) * p ^ 1 + (-0.0000168348072) * p ^ 2 + (0.0000002090669) * p ^ 3 := by
  have := sup (P := sUP) (N := sUN) (by simp [sUP]) (by simp [sUN]) (vapour_1073 h0 (by linarith))
    (barsI_sound sU_chain sU_ok (by norm_num) (by norm_num; linarith) (by norm_num; linarith))
  refine lt_of_lt_of_le this (le_of_eq ?_)
  simp only [cub, sUP, sUN, evalN_cons', evalN_nil']
  push_cast
  ring

def sLP : List Mono := [(184295129980112, 0, 0), (2090669, 3, 0)]
def sLN : List Mono := [(73091180586, 1, 0), (168348072, 2, 0)]
def sLBars : List Bar :=
  [⟨0, 250, 107315, 107315, ⟨0, 250, 100, 137, 0, 42926⟩⟩,
   ⟨250, 500, 107315, 107315, ⟨250, 250, 100, 137, 0, 42926⟩⟩,
   ⟨500, 750, 107315, 107315, ⟨500, 250, 100, 137, 0, 42926⟩⟩,
   ⟨750, 1001, 107315, 107315, ⟨750, 251, 100, 137, 0, 42926⟩⟩]

theorem sL_chain : chainP 0 sLBars 1001 = true := by decide +kernel

theorem sL_ok : barsI 107315 (qSlo sLP sLN) sLBars = true := by decide +kernel

theorem sL (h0 : 0 < p) (h2 : p ≤ 10) :
    (18.4295129980112) * p ^ 0 + (-0.0073091180586) * p ^ 1 + (-0.0000168348072) * p ^ 2 + (0.0000002090669) * p ^ 3 < gamma2.s p 1073.15 / R + Real.log p := by
  have := slo (P := sLP) (N := sLN) (by simp [sLP]) (by simp [sLN]) (vapour_1073 h0 (by linarith))
    (barsI_sound sL_chain sL_ok (by norm_num) (by norm_num; linarith) (by norm_num; linarith))
  refine lt_of_le_of_lt (le_of_eq ?_) this
  simp only [cub, sLP, sLN, evalN_cons', evalN_nil']
  push_cast
  ring

def vUP : List Mono := [(10000250000000, 0, 0), (3136082, 3, 0)]
def vUN : List Mono := [(18140087819, 1, 0), (42088070, 2, 0)]
def vUBars : List Bar :=
  [⟨0, 250, 107315, 107315, ⟨0, 250, 100, 137, 0, 42926⟩⟩,
   ⟨250, 500, 107315, 107315, ⟨250, 250, 100, 137, 0, 42926⟩⟩,
   ⟨500, 750, 107315, 107315, ⟨500, 250, 100, 137, 0, 42926⟩⟩,
   ⟨750, 1001, 107315, 107315, ⟨750, 251, 100, 137, 0, 42926⟩⟩]

theorem vU_chain : chainP 0 vUBars 1001 = true := by decide +kernel

theorem vU_ok : barsI 107315 (qVup vUP vUN) vUBars = true := by decide +kernel

theorem vU (h0 : 0 < p) (h2 : p ≤ 10) :
    p * gamma2.gp p (540 / 1073.15) < (1.0000250000000) * p ^ 0 + (-0.0018140087819) * p ^ 1 + (-0.0000042088070) * p ^ 2 + (0.0000003136082) * p ^ 3 := by
  have := vup (P := vUP) (N := vUN) (by simp [vUP]) (by simp [vUN]) (vapour_1073 h0 (by linarith))
    (barsI_sound vU_chain vU_ok (by norm_num) (by norm_num; linarith) (by norm_num; linarith))
  refine lt_of_lt_of_le this (le_of_eq ?_)
  simp only [cub, vUP, vUN, evalN_cons', evalN_nil']
  push_cast
  ring

def vLP : List Mono := [(9999750000000, 0, 0), (3135925, 3, 0)]
def vLN : List Mono := [(18139180837, 1, 0), (42085966, 2, 0)]
def vLBars : List Bar :=
  [⟨0, 50, 107315, 107315, ⟨0, 50, 100, 137, 0, 42926⟩⟩,
   ⟨50, 100, 107315, 107315, ⟨50, 50, 100, 137, 0, 42926⟩⟩,
   ⟨100, 150, 107315, 107315, ⟨100, 50, 100, 137, 0, 42926⟩⟩,
   ⟨150, 200, 107315, 107315, ⟨150, 50, 100, 137, 0, 42926⟩⟩,
   ⟨200, 250, 107315, 107315, ⟨200, 50, 100, 137, 0, 42926⟩⟩,
   ⟨250, 300, 107315, 107315, ⟨250, 50, 100, 137, 0, 42926⟩⟩,
   ⟨300, 350, 107315, 107315, ⟨300, 50, 100, 137, 0, 42926⟩⟩,
   ⟨350, 400, 107315, 107315, ⟨350, 50, 100, 137, 0, 42926⟩⟩,
   ⟨400, 450, 107315, 107315, ⟨400, 50, 100, 137, 0, 42926⟩⟩,
   ⟨450, 500, 107315, 107315, ⟨450, 50, 100, 137, 0, 42926⟩⟩,
   ⟨500, 550, 107315, 107315, ⟨500, 50, 100, 137, 0, 42926⟩⟩,
   ⟨550, 600, 107315, 107315, ⟨550, 50, 100, 137, 0, 42926⟩⟩,
   ⟨600, 650, 107315, 107315, ⟨600, 50, 100, 137, 0, 42926⟩⟩,
   ⟨650, 700, 107315, 107315, ⟨650, 50, 100, 137, 0, 42926⟩⟩,
   ⟨700, 750, 107315, 107315, ⟨700, 50, 100, 137, 0, 42926⟩⟩,
   ⟨750, 800, 107315, 107315, ⟨750, 50, 100, 137, 0, 42926⟩⟩,
   ⟨800, 850, 107315, 107315, ⟨800, 50, 100, 137, 0, 42926⟩⟩,
   ⟨850, 900, 107315, 107315, ⟨850, 50, 100, 137, 0, 42926⟩⟩,
   ⟨900, 950, 107315, 107315, ⟨900, 50, 100, 137, 0, 42926⟩⟩,
   ⟨950, 1001, 107315, 107315, ⟨950, 51, 100, 137, 0, 42926⟩⟩]

theorem vL_chain : chainP 0 vLBars 1001 = true := by decide +kernel

theorem vL_ok : barsI 107315 (qVlo vLP vLN) vLBars = true := by decide +kernel

theorem vL (h0 : 0 < p) (h2 : p ≤ 10) :
    (0.9999750000000) * p ^ 0 + (-0.0018139180837) * p ^ 1 + (-0.0000042085966) * p ^ 2 + (0.0000003135925) * p ^ 3 < p * gamma2.gp p (540 / 1073.15) := by
  have := vlo (P := vLP) (N := vLN) (by simp [vLP]) (by simp [vLN]) (vapour_1073 h0 (by linarith))
    (barsI_sound vL_chain vL_ok (by norm_num) (by norm_num; linarith) (by norm_num; linarith))
  refine lt_of_le_of_lt (le_of_eq ?_) this
  simp only [cub, vLP, vLN, evalN_cons', evalN_nil']
  push_cast
  ring

def hJP : List Mono := [(41586812903082629, 0, 0), (1553220591, 3, 0)]
def hJN : List Mono := [(45185402587932, 1, 0), (93803117369, 2, 0)]
def hJBars : List Bar :=
  [⟨4000, 4250, 107315, 107315, ⟨4000, 250, 100, 137, 0, 42926⟩⟩,
   ⟨4250, 4500, 107315, 107315, ⟨4250, 250, 100, 137, 0, 42926⟩⟩,
   ⟨4500, 4750, 107315, 107315, ⟨4500, 250, 100, 137, 0, 42926⟩⟩,
   ⟨4750, 5001, 107315, 107315, ⟨4750, 251, 100, 137, 0, 42926⟩⟩]

theorem hJ_chain : chainP 4000 hJBars 5001 = true := by decide +kernel

theorem hJ_ok : barsI 107315 (qHup hJP hJN) hJBars = true := by decide +kernel

theorem hJ (h0 : 0 < p) (h1 : 40 ≤ p) (h2 : p ≤ 50) :
    gamma2.h p 1073.15 < (4158.6812903082629) * p ^ 0 + (-4.5185402587932) * p ^ 1 + (-0.0093803117369) * p ^ 2 + (0.0001553220591) * p ^ 3 := by
  have := hup (P := hJP) (N := hJN) (by simp [hJP]) (by simp [hJN]) (vapour_1073 h0 (by linarith))
    (barsI_sound hJ_chain hJ_ok (by norm_num) (by norm_num; linarith) (by norm_num; linarith))
  refine lt_of_lt_of_le this (le_of_eq ?_)
  simp only [cub, hJP, hJN, evalN_cons', evalN_nil']
  push_cast
  ring

def vJP : List Mono := [(9900990099010, 0, 0), (3104954, 3, 0)]
def vJN : List Mono := [(17960033988, 1, 0), (41670315, 2, 0)]
def vJBars : List Bar :=
  [⟨4000, 4250, 107315, 107315, ⟨4000, 250, 100, 137, 0, 42926⟩⟩,
   ⟨4250, 4500, 107315, 107315, ⟨4250, 250, 100, 137, 0, 42926⟩⟩,
   ⟨4500, 4750, 107315, 107315, ⟨4500, 250, 100, 137, 0, 42926⟩⟩,
   ⟨4750, 5001, 107315, 107315, ⟨4750, 251, 100, 137, 0, 42926⟩⟩]

theorem vJ_chain : chainP 4000 vJBars 5001 = true := by decide +kernel

theorem vJ_ok : barsI 107315 (qVup vJP vJN) vJBars = true := by decide +kernel

theorem vJ (h0 : 0 < p) (h1 : 40 ≤ p) (h2 : p ≤ 50) :
    p * gamma2.gp p (540 / 1073.15) < (0.9900990099010) * p ^ 0 + (-0.0017960033988) * p ^ 1 + (-0.0000041670315) * p ^ 2 + (0.0000003104954) * p ^ 3 := by
  have := vup (P := vJP) (N := vJN) (by simp [vJP]) (by simp [vJN]) (vapour_1073 h0 (by linarith))
    (barsI_sound vJ_chain vJ_ok (by norm_num) (by norm_num; linarith) (by norm_num; linarith))
  refine lt_of_lt_of_le this (le_of_eq ?_)
  simp only [cub, vJP, vJN, evalN_cons', evalN_nil']
  push_cast
  ring

theorem h5_cub (h0 : 0 < p) (h1 : p ≤ 50) : |gamma5.h p 1073.15 - ((4160.6812903082629) * p ^ 0 + (-4.5185402587932) * p ^ 1 + (-0.0093803117369) * p ^ 2 + (0.0001553220591) * p ^ 3)| ≤ 1e-7 := by
  have h2 : p ^ 2 ≤ 2500 := by nlinarith
  have h3 : p ^ 3 ≤ 125000 := by nlinarith [pow_pos h0 2]
  have h4 := pow_pos h0 2
  have h5 := pow_pos h0 3
  rw [abs_le]
  simp only [Gamma.h, gamma5, dpoly, region5, region5Ideal, Term.d, List.map_cons, List.map_nil, List.sum_cons, List.sum_nil, R, ff]
  constructor
  all_goals field_simp
  all_goals norm_num
  all_goals nlinarith

theorem s5_cub (h0 : 0 < p) (h1 : p ≤ 50) : |gamma5.s p 1073.15 / R + Real.log p - ((18.4296209980112) * p ^ 0 + (-0.0073091180586) * p ^ 1 + (-0.0000168348072) * p ^ 2 + (0.0000002090669) * p ^ 3)| ≤ 1e-7 := by
  rw [Gamma.s, mul_div_cancel_left₀ _ Gamma.R_pos.ne']
  have h2 : p ^ 2 ≤ 2500 := by nlinarith
  have h3 : p ^ 3 ≤ 125000 := by nlinarith [pow_pos h0 2]
  have h4 := pow_pos h0 2
  have h5 := pow_pos h0 3
  rw [abs_le]
  simp only [gamma5, dpoly, region5, region5Ideal, Term.d, List.map_cons, List.map_nil, List.sum_cons, List.sum_nil, ff]
  constructor
  all_goals field_simp
  all_goals norm_num
  all_goals nlinarith

theorem v5_cub (h0 : 0 < p) (h1 : p ≤ 50) : |p * gamma5.gp p (1000 / 1073.15) - ((1.0000000000000) * p ^ 0 + (-0.0018139634328) * p ^ 1 + (-0.0000042087018) * p ^ 2 + (0.0000003136003) * p ^ 3)| ≤ 1e-7 := by
  have h2 : p ^ 2 ≤ 2500 := by nlinarith
  have h3 : p ^ 3 ≤ 125000 := by nlinarith [pow_pos h0 2]
  have h4 := pow_pos h0 2
  have h5 := pow_pos h0 3
  rw [abs_le]
  simp only [gamma5, dpoly, region5, region5Ideal, Term.d, List.map_cons, List.map_nil, List.sum_cons, List.sum_nil, ff]
  constructor
  all_goals field_simp
  all_goals norm_num
  all_goals nlinarith

end PyX.Kron
