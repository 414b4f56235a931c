import Verif.Lemmas.S2aCheck
import Verif.Lemmas.S2bCheck
import Verif.Lemmas.S2cCheck
import Verif.Lemmas.T2ph

/-!
# Temperature from pressure and entropy in region 2: the accuracy
-/

namespace PyX.Kron

open Spec.IF97

variable {p T x : ℝ}

theorem B2.rectS (hv : Vapour p T) (h0 : 0.000611 ≤ p) (h : p ≤ 4) (hx : 0 < x) (h4 : x ^ 4 = p) :
    InRect 51 41 64 3 3 4 x (540 / T - 1 / 2) := by
  obtain ⟨-, r⟩ := B2.rectA hv h
  refine ⟨?_, r⟩
  have x0 : 0.15625 ≤ x := by
    by_contra hc
    rw [not_le] at hc
    have := pow_lt_pow_left₀ hc hx.le (n := 4) (by norm_num)
    rw [h4] at this
    norm_num at this h0
    linarith
  have x1 : x ≤ 1.4375 := by
    by_contra hc
    rw [not_le] at hc
    have := pow_lt_pow_left₀ hc (by norm_num) (n := 4) (by norm_num)
    rw [h4] at this
    norm_num at this h
    linarith
  rw [abs_le]
  push_cast
  constructor <;> linarith

theorem S2a.accurate (hv : Vapour p T) (h0 : 0.000611 ≤ p) (hp : p ≤ 4) (hx : 0 < x) (h4 : x ^ 4 = p) :
    gamma2.s p T / 2 - 2 ≠ 0 ∧ |dpoly S2a.table 0 0 x (gamma2.s p T / 2 - 2) - T| ≤ 0.03 := by
  have hl : ∀ l ∈ S2a.lims, l.Holds x (540 / T - 1 / 2) := by
    refine limPow_holds (k := 4) (by norm_num) hx.le ?_
    rw [h4]
    exact chk2_sound S2a.lims_ok hv
  have h := checkC_sound (x := x) (y := 540 / T - 1 / 2) (by norm_num) (by norm_num) (by norm_num) (by norm_num) S2a.tree
    (by norm_num) (by norm_num) (by norm_num) (by norm_num) S2a.checked hl
    (fun e he => absurd he (by simp [S2a.job])) (B2.rectS hv h0 hp hx h4)
  have e : gamma2.s p T / 2 - 2 + R / 2 * Real.log p + (Lg.mk true 230763 250000).coef * Real.log x = gamma2.s p T / 2 - 2 := by
    rw [← h4, Real.log_pow]
    norm_num [Lg.coef, R]
    ring
  simp only [S2a.job, Job.v1, Job.v2, pow_zero, mul_one] at h
  rw [B2.qp_eval, B2.qsa_eval hv h4, e, B2.qT_eval hv] at h
  have hy : gamma2.s p T / 2 - 2 ≠ 0 := by
    intro hy
    rw [hy] at h
    simp only [S2a.qB, Quot.eval, E.eval, evalN_cons', evalN_nil'] at h
    norm_num at h
    rw [abs_of_pos (by linarith [hv.T0])] at h
    linarith [hv.T0]
  refine ⟨hy, ?_⟩
  rw [S2a.qB_eval hx hy] at h
  norm_num at h ⊢
  exact h

theorem S2b.accurate (hv : Vapour p T) (hp : 4 ≤ p) (hs : 5.85 ≤ gamma2.s p T) :
    |dpoly S2b.table 0 0 p (10 - gamma2.s p T / 0.7853) - T| ≤ 0.03 := by
  have e : 10 - gamma2.s p T / 0.7853 - R / 0.7853 * Real.log p + S2b.job.lg.coef * Real.log p = 10 - gamma2.s p T / 0.7853 := by
    norm_num [Lg.coef, R, S2b.job]
  have h := checkC_sound (x := p) (y := 540 / T - 1 / 2) (by norm_num) (by norm_num) (by norm_num) (by norm_num) S2b.tree
    (by norm_num) (by norm_num) (by norm_num) (by norm_num) S2b.checked (chk2_sound S2b.lims_ok hv)
    (fun e' he => by
      simp only [S2b.job, List.mem_singleton] at he
      subst he
      simp only [Job.u1, Job.u2]
      rw [show S2b.job.cl = S2b.job.lg from rfl, show S2b.job.c2 = B2.qsb from rfl, B2.qsb_eval hv, e, S2b.side_eval]
      exact mul_nonneg (by norm_num) (by linarith)) (B2.rectB hv hp)
  simp only [Job.v1, Job.v2] at h
  rw [show S2b.job.f2 = B2.qsb from rfl, B2.qsb_eval hv, e] at h
  simp only [S2b.job, pow_zero, mul_one] at h
  rw [B2.qp_eval, S2b.qB_eval hv.p0, B2.qT_eval hv] at h
  norm_num at h ⊢
  exact h

theorem S2c.accurate (hv : Vapour p T) (hp : 4 ≤ p) (hs : gamma2.s p T ≤ 5.85) :
    |dpoly S2c.table 0 0 p (2 - gamma2.s p T / 2.9251) - T| ≤ 0.04 := by
  have e : gamma2.s p T / 2.9251 + R / 2.9251 * Real.log p + S2c.job.lg.coef * Real.log p = gamma2.s p T / 2.9251 := by
    norm_num [Lg.coef, R, S2c.job]
  have h := checkC_sound (x := p) (y := 540 / T - 1 / 2) (by norm_num) (by norm_num) (by norm_num) (by norm_num) S2c.tree
    (by norm_num) (by norm_num) (by norm_num) (by norm_num) S2c.checked (chk2_sound S2c.lims_ok hv)
    (fun e' he => by
      simp only [S2c.job, List.mem_singleton] at he
      subst he
      simp only [Job.u1, Job.u2]
      rw [show S2c.job.cl = S2c.job.lg from rfl, show S2c.job.c2 = B2.qsc from rfl, B2.qsc_eval hv, e, S2c.side_eval]
      exact mul_nonneg (by norm_num) (by linarith)) (B2.rectB hv hp)
  simp only [Job.v1, Job.v2] at h
  rw [show S2c.job.f2 = B2.qsc from rfl, B2.qsc_eval hv, e] at h
  simp only [S2c.job, pow_zero, mul_one] at h
  rw [B2.qp_eval, S2c.qB_eval hv.p0, B2.qT_eval hv] at h
  norm_num at h ⊢
  exact h

end PyX.Kron
