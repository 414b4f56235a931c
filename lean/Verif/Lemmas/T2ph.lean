import Verif.Lemmas.T2aCheck
import Verif.Lemmas.T2bCheck
import Verif.Lemmas.T2cCheck

/-!
# Temperature from pressure and enthalpy in region 2: the accuracy
-/

namespace PyX.Kron

variable {p T : ℝ}

/-- where subregions 2b and 2c meet -/
noncomputable def b2bc (h : ℝ) : ℝ := 905.84278514723 - 0.67955786399241 * h + 1.2809002730136e-04 * h ^ 2

namespace B2

theorem rectA (hv : Vapour p T) (h : p ≤ 4) : InRect 2 2 1 3 3 4 p (540 / T - 1 / 2) := by
  have hT : 0 < T := by linarith [hv.T0]
  have y0 := y_pos hv
  have y1 : 540 / T ≤ 2 := by rw [div_le_iff₀ hT]; linarith [hv.T0]
  have p0 := hv.p0
  refine ⟨?_, ?_⟩ <;> rw [abs_le] <;> push_cast <;> constructor <;> linarith

theorem rectB (hv : Vapour p T) (h : 4 ≤ p) : InRect 52 48 1 3 3 8 p (540 / T - 1 / 2) := by
  have hT : 0 < T := by linarith [hv.T0]
  have y0 := y_pos hv
  have T1 : 432 ≤ T := by
    by_contra hc
    rw [not_le] at hc
    have := hv.sat (by linarith)
    have h1 := psat_le (T := T) (Tk := 432) (β := 1) (by linarith [hv.T0]) (by norm_num; linarith) (by norm_num) (by norm_num)
      (by norm_num [eqQ, thQ])
    norm_num at h1
    linarith
  have y1 : 540 / T ≤ 5 / 4 := by rw [div_le_iff₀ hT]; linarith
  have p1 := hv.p1
  refine ⟨?_, ?_⟩ <;> rw [abs_le] <;> push_cast <;> constructor <;> linarith

end B2

theorem T2a.accurate (hv : Vapour p T) (hp : p ≤ 4) : |dpoly T2a.table 0 0 p (gamma2.h p T / 2000 - 2.1) - T| ≤ 0.03 := by
  have h := checkC_sound (x := p) (y := 540 / T - 1 / 2) (by norm_num) (by norm_num) (by norm_num) (by norm_num) T2a.tree
    (by norm_num) (by norm_num) (by norm_num) (by norm_num) T2a.checked (chk2_sound T2a.lims_ok hv)
    (fun e he => absurd he (by simp [T2a.job])) (B2.rectA hv hp)
  simp only [T2a.job, Job.v1, Job.v2, Lg.coef, CharP.cast_eq_zero, zero_div, mul_zero, zero_mul, add_zero, pow_zero, mul_one] at h
  rw [B2.qp_eval, B2.qha_eval hv, T2a.qB_eval, B2.qT_eval hv] at h
  norm_num at h ⊢
  exact h

theorem T2b.accurate (hv : Vapour p T) (hp : 4 ≤ p) (hb : p ≤ b2bc (gamma2.h p T)) :
    |dpoly T2b.table 0 0 (p - 2) (gamma2.h p T / 2000 - 2.6) - T| ≤ 0.03 := by
  have h := checkC_sound (x := p) (y := 540 / T - 1 / 2) (by norm_num) (by norm_num) (by norm_num) (by norm_num) T2b.tree
    (by norm_num) (by norm_num) (by norm_num) (by norm_num) T2b.checked (chk2_sound T2b.lims_ok hv)
    (fun e he => by
      simp only [T2b.job, List.mem_singleton] at he
      subst he
      simp only [T2b.job, Job.u1, Job.u2, Lg.coef, CharP.cast_eq_zero, zero_div, mul_zero, zero_mul, add_zero]
      rw [B2.qp_eval, B2.qh_eval hv, T2b.side_eval]
      rw [b2bc] at hb
      refine mul_nonneg (by norm_num) ?_
      rw [mul_div_cancel₀ _ (by norm_num)]
      linarith) (B2.rectB hv hp)
  simp only [T2b.job, Job.v1, Job.v2, Lg.coef, CharP.cast_eq_zero, zero_div, mul_zero, zero_mul, add_zero, pow_zero, mul_one] at h
  rw [T2b.q1_eval, B2.qhb_eval hv, T2b.qB_eval, B2.qT_eval hv] at h
  norm_num at h ⊢
  exact h

theorem T2c.accurate (hv : Vapour p T) (hp : 4 ≤ p) (hb : b2bc (gamma2.h p T) ≤ p) :
    |dpoly T2c.table 0 0 (p + 25) (gamma2.h p T / 2000 - 1.8) - T| ≤ 0.04 := by
  have h := checkC_sound (x := p) (y := 540 / T - 1 / 2) (by norm_num) (by norm_num) (by norm_num) (by norm_num) T2c.tree
    (by norm_num) (by norm_num) (by norm_num) (by norm_num) T2c.checked (chk2_sound T2c.lims_ok hv)
    (fun e he => by
      simp only [T2c.job, List.mem_singleton] at he
      subst he
      simp only [T2c.job, Job.u1, Job.u2, Lg.coef, CharP.cast_eq_zero, zero_div, mul_zero, zero_mul, add_zero]
      rw [B2.qp_eval, B2.qh_eval hv, T2c.side_eval]
      rw [b2bc] at hb
      refine mul_nonneg (by norm_num) ?_
      rw [mul_div_cancel₀ _ (by norm_num)]
      linarith) (B2.rectB hv hp)
  simp only [T2c.job, Job.v1, Job.v2, Lg.coef, CharP.cast_eq_zero, zero_div, mul_zero, zero_mul, add_zero, pow_zero, mul_one] at h
  rw [T2c.q1_eval, B2.qhc_eval hv, T2c.qB_eval (by linarith), B2.qT_eval hv] at h
  norm_num at h ⊢
  exact h

end PyX.Kron
