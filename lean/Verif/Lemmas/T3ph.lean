import Verif.Lemmas.Fluid
import Verif.Lemmas.T3aCheck
import Verif.Lemmas.T3bCheck

/-!
# Temperature from pressure and enthalpy in region 3: the accuracy
-/

namespace PyX.Kron

variable {ρ T : ℝ}

theorem T3a.raw (h : Fluid ρ T) (hs : h3 ρ T ≤ B3.h3ab (p3 ρ T)) :
    |T3a.job.B.eval (T3a.job.v1 (ρ / 322) (647.096 / T)) (T3a.job.v2 (ρ / 322) (647.096 / T)) -
      T3a.job.g.eval (ρ / 322) (647.096 / T)| ≤ 1 / 30400 * cond false (1 / (ρ / 322)) 1 := by
  rcases le_or_gt 647.096 T with hT | hT
  · have r := checkR_sound (x := ρ / 322) (y := 647.096 / T) rfl (by norm_num) (by norm_num) (by norm_num) (by norm_num) T3a.tree0
        (by norm_num) (by norm_num) (by norm_num) (by norm_num) T3a.checked0
        (fun k hk => by
          simp only [T3a.con0, List.mem_cons, List.not_mem_nil, or_false] at hk
          rcases hk with rfl | rfl | rfl
          · exact h.kMax
          · exact h.kB23
          · exact B3.kA_holds h.x0 h.y0 hs) (h.rect0 hT)
    norm_num at r ⊢
    exact r
  · rcases le_total 322 ρ with hρ | hρ
    · have r := checkR_sound (x := ρ / 322) (y := 647.096 / T) rfl (by norm_num) (by norm_num) (by norm_num) (by norm_num) T3a.tree1
        (by norm_num) (by norm_num) (by norm_num) (by norm_num) T3a.checked1
        (fun k hk => by
          simp only [T3a.con1, List.mem_cons, List.not_mem_nil, or_false] at hk
          rcases hk with rfl | rfl | rfl | rfl
          · exact h.kMax
          · exact B3.kA_holds h.x0 h.y0 hs
          · exact h.kDome hT
          · exact h.kLow hT hρ) (h.rect1 hT hρ)
      norm_num at r ⊢
      exact r
    · have r := checkR_sound (x := ρ / 322) (y := 647.096 / T) rfl (by norm_num) (by norm_num) (by norm_num) (by norm_num) T3a.tree2
        (by norm_num) (by norm_num) (by norm_num) (by norm_num) T3a.checked2
        (fun k hk => by
          simp only [T3a.con2, List.mem_cons, List.not_mem_nil, or_false] at hk
          rcases hk with rfl | rfl | rfl | rfl
          · exact h.kB23
          · exact B3.kA_holds h.x0 h.y0 hs
          · exact h.kDome hT
          · exact h.kHigh hT hρ) (h.rect2 hT hρ)
      norm_num at r ⊢
      exact r

theorem T3a.accurate (h : Fluid ρ T) (hs : h3 ρ T ≤ B3.h3ab (p3 ρ T)) :
    |dpoly T3a.table 0 0 (p3 ρ T / 100 + 0.24) (h3 ρ T / 2300 - 0.615) * 760 - T| ≤ 0.025 := by
  have r := T3a.raw h hs
  simp only [T3a.job, Job.v1, Job.v2, Lg.coef, CharP.cast_eq_zero, zero_div, mul_zero, zero_mul, add_zero, cond_true, cond_false] at r
  have hp : (0 : ℝ) < p3 ρ T / 100 + 0.24 := by have := h.p0; positivity
  rw [B3.qpTa_eval h.x0 h.y0, B3.qhTa_eval h.x0 h.y0, B3.gTa_eval h.y0, h.yy] at r
  have e1 : B3.P (ρ / 322) (647.096 / T) / 100 + 6 / 25 = p3 ρ T / 100 + 0.24 := by rw [p3]; norm_num
  have e2 : B3.H (ρ / 322) (647.096 / T) / 2300 - 123 / 200 = h3 ρ T / 2300 - 0.615 := by rw [h3]; norm_num
  rw [e1, e2, T3a.qB_eval hp] at r
  revert r
  generalize dpoly T3a.table 0 0 (p3 ρ T / 100 + 0.24) (h3 ρ T / 2300 - 0.615) = b
  intro r
  rw [show b * 760 - T = 760 * (b - T / 760) by ring, abs_mul, abs_of_pos (by norm_num)]
  norm_num at r ⊢
  linarith

theorem T3b.raw (h : Fluid ρ T) (hs : B3.h3ab (p3 ρ T) ≤ h3 ρ T) :
    |T3b.job.B.eval (T3b.job.v1 (ρ / 322) (647.096 / T)) (T3b.job.v2 (ρ / 322) (647.096 / T)) -
      T3b.job.g.eval (ρ / 322) (647.096 / T)| ≤ 1 / 34400 * cond false (1 / (ρ / 322)) 1 := by
  rcases le_or_gt 647.096 T with hT | hT
  · have r := checkR_sound (x := ρ / 322) (y := 647.096 / T) rfl (by norm_num) (by norm_num) (by norm_num) (by norm_num) T3b.tree0
        (by norm_num) (by norm_num) (by norm_num) (by norm_num) T3b.checked0
        (fun k hk => by
          simp only [T3b.con0, List.mem_cons, List.not_mem_nil, or_false] at hk
          rcases hk with rfl | rfl | rfl
          · exact h.kMax
          · exact h.kB23
          · exact B3.kB_holds h.x0 h.y0 hs) (h.rect0 hT)
    norm_num at r ⊢
    exact r
  · rcases le_total 322 ρ with hρ | hρ
    · have r := checkR_sound (x := ρ / 322) (y := 647.096 / T) rfl (by norm_num) (by norm_num) (by norm_num) (by norm_num) T3b.tree1
        (by norm_num) (by norm_num) (by norm_num) (by norm_num) T3b.checked1
        (fun k hk => by
          simp only [T3b.con1, List.mem_cons, List.not_mem_nil, or_false] at hk
          rcases hk with rfl | rfl | rfl | rfl
          · exact h.kMax
          · exact B3.kB_holds h.x0 h.y0 hs
          · exact h.kDome hT
          · exact h.kLow hT hρ) (h.rect1 hT hρ)
      norm_num at r ⊢
      exact r
    · have r := checkR_sound (x := ρ / 322) (y := 647.096 / T) rfl (by norm_num) (by norm_num) (by norm_num) (by norm_num) T3b.tree2
        (by norm_num) (by norm_num) (by norm_num) (by norm_num) T3b.checked2
        (fun k hk => by
          simp only [T3b.con2, List.mem_cons, List.not_mem_nil, or_false] at hk
          rcases hk with rfl | rfl | rfl | rfl
          · exact h.kB23
          · exact B3.kB_holds h.x0 h.y0 hs
          · exact h.kDome hT
          · exact h.kHigh hT hρ) (h.rect2 hT hρ)
      norm_num at r ⊢
      exact r

theorem T3b.accurate (h : Fluid ρ T) (hs : B3.h3ab (p3 ρ T) ≤ h3 ρ T) :
    |dpoly T3b.table 0 0 (p3 ρ T / 100 + 0.298) (h3 ρ T / 2800 - 0.72) * 860 - T| ≤ 0.025 := by
  have r := T3b.raw h hs
  simp only [T3b.job, Job.v1, Job.v2, Lg.coef, CharP.cast_eq_zero, zero_div, mul_zero, zero_mul, add_zero, cond_true, cond_false] at r
  have hp : (0 : ℝ) < p3 ρ T / 100 + 0.298 := by have := h.p0; positivity
  rw [B3.qpTb_eval h.x0 h.y0, B3.qhb_eval h.x0 h.y0, B3.gTb_eval h.y0, h.yy] at r
  have e1 : B3.P (ρ / 322) (647.096 / T) / 100 + 149 / 500 = p3 ρ T / 100 + 0.298 := by rw [p3]; norm_num
  have e2 : B3.H (ρ / 322) (647.096 / T) / 2800 - 18 / 25 = h3 ρ T / 2800 - 0.72 := by rw [h3]; norm_num
  rw [e1, e2, T3b.qB_eval hp] at r
  revert r
  generalize dpoly T3b.table 0 0 (p3 ρ T / 100 + 0.298) (h3 ρ T / 2800 - 0.72) = b
  intro r
  rw [show b * 860 - T = 860 * (b - T / 860) by ring, abs_mul, abs_of_pos (by norm_num)]
  norm_num at r ⊢
  linarith

end PyX.Kron
