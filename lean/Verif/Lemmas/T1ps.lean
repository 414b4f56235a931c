import Verif.Lemmas.T1psCheck

/-!
# Temperature from pressure and entropy in region 1: the accuracy
-/

namespace PyX.Kron.T1ps

/-- the backward equation is within 25 mK of the basic equation -/
theorem accurate {p T : ℝ} (hv : Liquid p T) (h1 : T ≤ 623.16) :
    |dpoly table 0 0 p (gamma1.s p T + 2) - T| ≤ 0.025 := by
  have h := checkC_sound (x := 7.1 - p / 16.53) (y := B1.z T) (by norm_num) (by norm_num) (by norm_num) (by norm_num) tree
    (by norm_num) (by norm_num) (by norm_num) (by norm_num) checked (B1.zlims_hold hv (by linarith [B1.y_pos hv]))
    (fun e he => absurd he (by simp [job])) (B1.rect' hv h1)
  simp only [job, Job.v1, Job.v2, Lg.coef, CharP.cast_eq_zero, zero_div, mul_zero, zero_mul, add_zero, pow_zero, mul_one] at h
  rw [B1.qp_eval, qs_eval hv, qB_eval, B1.qT_eval hv] at h
  norm_num at h ⊢
  exact h

end PyX.Kron.T1ps
