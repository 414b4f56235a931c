import Verif.Lemmas.Fluid
import Verif.Lemmas.V3aCheck
import Verif.Lemmas.V3bCheck

/-!
# Volume from pressure and enthalpy in region 3: the accuracy
-/

namespace PyX.Kron

variable {ρ T : ℝ}

theorem V3a.raw (h : Fluid ρ T) (hs : h3 ρ T ≤ B3.h3ab (p3 ρ T)) :
    |V3a.job.B.eval (V3a.job.v1 (ρ / 322) (647.096 / T)) (V3a.job.v2 (ρ / 322) (647.096 / T)) -
      V3a.job.g.eval (ρ / 322) (647.096 / T)| ≤ 1 / 9016 * cond true (1 / (ρ / 322)) 1 := by
  rcases le_or_gt 647.096 T with hT | hT
  · have r := checkR_sound (x := ρ / 322) (y := 647.096 / T) rfl (by norm_num) (by norm_num) (by norm_num) (by norm_num) V3a.tree0
        (by norm_num) (by norm_num) (by norm_num) (by norm_num) V3a.checked0
        (fun k hk => by
          simp only [V3a.con0, List.mem_cons, List.not_mem_nil, or_false] at hk
          rcases hk with rfl | rfl | rfl
          · exact h.kMax
          · exact h.kB23
          · exact B3.kA_holds h.x0 h.y0 hs) (h.rect0 hT)
    norm_num at r ⊢
    exact r
  · rcases le_total 322 ρ with hρ | hρ
    · have r := checkR_sound (x := ρ / 322) (y := 647.096 / T) rfl (by norm_num) (by norm_num) (by norm_num) (by norm_num) V3a.tree1
        (by norm_num) (by norm_num) (by norm_num) (by norm_num) V3a.checked1
        (fun k hk => by
          simp only [V3a.con1, List.mem_cons, List.not_mem_nil, or_false] at hk
          rcases hk with rfl | rfl | rfl | rfl
          · exact h.kMax
          · exact B3.kA_holds h.x0 h.y0 hs
          · exact h.kDome hT
          · exact h.kLow hT hρ) (h.rect1 hT hρ)
      norm_num at r ⊢
      exact r
    · have r := checkR_sound (x := ρ / 322) (y := 647.096 / T) rfl (by norm_num) (by norm_num) (by norm_num) (by norm_num) V3a.tree2
        (by norm_num) (by norm_num) (by norm_num) (by norm_num) V3a.checked2
        (fun k hk => by
          simp only [V3a.con2, List.mem_cons, List.not_mem_nil, or_false] at hk
          rcases hk with rfl | rfl | rfl | rfl
          · exact h.kB23
          · exact B3.kA_holds h.x0 h.y0 hs
          · exact h.kDome hT
          · exact h.kHigh hT hρ) (h.rect2 hT hρ)
      norm_num at r ⊢
      exact r

theorem V3a.accurate (h : Fluid ρ T) (hs : h3 ρ T ≤ B3.h3ab (p3 ρ T)) :
    |dpoly V3a.table 0 0 (p3 ρ T / 100 + 0.128) (h3 ρ T / 2100 - 0.727) * 0.0028 * ρ - 1| ≤ 0.0001 := by
  have r := V3a.raw h hs
  simp only [V3a.job, Job.v1, Job.v2, Lg.coef, CharP.cast_eq_zero, zero_div, mul_zero, zero_mul, add_zero, cond_true, cond_false] at r
  have hp : (0 : ℝ) < p3 ρ T / 100 + 0.128 := by have := h.p0; positivity
  rw [B3.qpVa_eval h.x0 h.y0, B3.qhVa_eval h.x0 h.y0, B3.gVa_eval h.x0] at r
  have e1 : B3.P (ρ / 322) (647.096 / T) / 100 + 16 / 125 = p3 ρ T / 100 + 0.128 := by rw [p3]; norm_num
  have e2 : B3.H (ρ / 322) (647.096 / T) / 2100 - 727 / 1000 = h3 ρ T / 2100 - 0.727 := by rw [h3]; norm_num
  rw [e1, e2, V3a.qB_eval hp] at r
  revert r
  generalize dpoly V3a.table 0 0 (p3 ρ T / 100 + 0.128) (h3 ρ T / 2100 - 0.727) = b
  intro r
  have hρ : 0 < ρ := by linarith [h.ρ0]
  have e3 : b * 0.0028 * ρ - 1 = 0.0028 * ρ * (b - 1 / (322 * (ρ / 322)) / 0.0028) := by field_simp
  rw [e3, abs_mul, abs_of_pos (by positivity)]
  refine (mul_le_mul_of_nonneg_left r (by positivity)).trans (le_of_eq ?_)
  field_simp
  norm_num

theorem V3b.raw (h : Fluid ρ T) (hs : B3.h3ab (p3 ρ T) ≤ h3 ρ T) :
    |V3b.job.B.eval (V3b.job.v1 (ρ / 322) (647.096 / T)) (V3b.job.v2 (ρ / 322) (647.096 / T)) -
      V3b.job.g.eval (ρ / 322) (647.096 / T)| ≤ 1 / 28336 * cond true (1 / (ρ / 322)) 1 := by
  rcases le_or_gt 647.096 T with hT | hT
  · have r := checkR_sound (x := ρ / 322) (y := 647.096 / T) rfl (by norm_num) (by norm_num) (by norm_num) (by norm_num) V3b.tree0
        (by norm_num) (by norm_num) (by norm_num) (by norm_num) V3b.checked0
        (fun k hk => by
          simp only [V3b.con0, List.mem_cons, List.not_mem_nil, or_false] at hk
          rcases hk with rfl | rfl | rfl
          · exact h.kMax
          · exact h.kB23
          · exact B3.kB_holds h.x0 h.y0 hs) (h.rect0 hT)
    norm_num at r ⊢
    exact r
  · rcases le_total 322 ρ with hρ | hρ
    · have r := checkR_sound (x := ρ / 322) (y := 647.096 / T) rfl (by norm_num) (by norm_num) (by norm_num) (by norm_num) V3b.tree1
        (by norm_num) (by norm_num) (by norm_num) (by norm_num) V3b.checked1
        (fun k hk => by
          simp only [V3b.con1, List.mem_cons, List.not_mem_nil, or_false] at hk
          rcases hk with rfl | rfl | rfl | rfl
          · exact h.kMax
          · exact B3.kB_holds h.x0 h.y0 hs
          · exact h.kDome hT
          · exact h.kLow hT hρ) (h.rect1 hT hρ)
      norm_num at r ⊢
      exact r
    · have r := checkR_sound (x := ρ / 322) (y := 647.096 / T) rfl (by norm_num) (by norm_num) (by norm_num) (by norm_num) V3b.tree2
        (by norm_num) (by norm_num) (by norm_num) (by norm_num) V3b.checked2
        (fun k hk => by
          simp only [V3b.con2, List.mem_cons, List.not_mem_nil, or_false] at hk
          rcases hk with rfl | rfl | rfl | rfl
          · exact h.kB23
          · exact B3.kB_holds h.x0 h.y0 hs
          · exact h.kDome hT
          · exact h.kHigh hT hρ) (h.rect2 hT hρ)
      norm_num at r ⊢
      exact r

theorem V3b.accurate (h : Fluid ρ T) (hs : B3.h3ab (p3 ρ T) ≤ h3 ρ T) :
    |dpoly V3b.table 0 0 (p3 ρ T / 100 + 0.0661) (h3 ρ T / 2800 - 0.72) * 0.0088 * ρ - 1| ≤ 0.0001 := by
  have r := V3b.raw h hs
  simp only [V3b.job, Job.v1, Job.v2, Lg.coef, CharP.cast_eq_zero, zero_div, mul_zero, zero_mul, add_zero, cond_true, cond_false] at r
  have hp : (0 : ℝ) < p3 ρ T / 100 + 0.0661 := by have := h.p0; positivity
  rw [B3.qpVb_eval h.x0 h.y0, B3.qhb_eval h.x0 h.y0, B3.gVb_eval h.x0] at r
  have e1 : B3.P (ρ / 322) (647.096 / T) / 100 + 661 / 10000 = p3 ρ T / 100 + 0.0661 := by rw [p3]; norm_num
  have e2 : B3.H (ρ / 322) (647.096 / T) / 2800 - 18 / 25 = h3 ρ T / 2800 - 0.72 := by rw [h3]; norm_num
  rw [e1, e2, V3b.qB_eval hp] at r
  revert r
  generalize dpoly V3b.table 0 0 (p3 ρ T / 100 + 0.0661) (h3 ρ T / 2800 - 0.72) = b
  intro r
  have hρ : 0 < ρ := by linarith [h.ρ0]
  have e3 : b * 0.0088 * ρ - 1 = 0.0088 * ρ * (b - 1 / (322 * (ρ / 322)) / 0.0088) := by field_simp
  rw [e3, abs_mul, abs_of_pos (by positivity)]
  refine (mul_le_mul_of_nonneg_left r (by positivity)).trans (le_of_eq ?_)
  field_simp
  norm_num

end PyX.Kron
