import Verif.Lemmas.Sat3

/-!
# The states of region 3
-/

namespace PyX.Kron

open Spec.Sat

/-- pressure and enthalpy from density and temperature -/
noncomputable def p3 (ρ T : ℝ) : ℝ := B3.P (ρ / 322) (647.096 / T)
noncomputable def h3 (ρ T : ℝ) : ℝ := B3.H (ρ / 322) (647.096 / T)

/-- stable states of region 3; `dome` leaves out the middle of the two-phase region -/
structure Fluid (ρ T : ℝ) : Prop where
  ρ0 : 96.6 ≤ ρ
  ρ1 : ρ ≤ 772.8
  T0 : 623.15 ≤ T
  p1 : p3 ρ T ≤ 100
  border : B3.b23 T ≤ p3 ρ T
  dome : T < 647.096 → 1200 * (647.096 - T) ≤ (322 - ρ) ^ 2
  liquid : T < 647.096 → 322 ≤ ρ → psat T ≤ p3 ρ T
  vapour : T < 647.096 → ρ ≤ 322 → p3 ρ T ≤ psat T

variable {ρ T : ℝ}

namespace Fluid

theorem T1 (h : Fluid ρ T) : T ≤ 863.2 := by
  by_contra hc
  rw [not_le] at hc
  have := h.border
  have := h.p1
  simp only [B3.b23] at *
  nlinarith [mul_pos (sub_pos.2 hc) (sub_pos.2 hc)]

theorem p0 (h : Fluid ρ T) : 16.5 ≤ p3 ρ T := by
  refine le_trans ?_ h.border
  have := h.T0
  simp only [B3.b23]
  nlinarith [mul_nonneg (sub_nonneg.2 this) (sub_nonneg.2 this)]

theorem Tpos (h : Fluid ρ T) : 0 < T := by linarith [h.T0]
theorem x0 (h : Fluid ρ T) : ρ / 322 ≠ 0 := by have := h.ρ0; positivity
theorem y0 (h : Fluid ρ T) : 647.096 / T ≠ 0 := by have := h.Tpos; positivity
theorem yy (h : Fluid ρ T) : 647.096 / (647.096 / T) = T := by have := h.Tpos; field_simp

theorem rect0 (h : Fluid ρ T) (hT : 647.096 ≤ T) : InRect 27 21 20 1749 251 2000 (ρ / 322) (647.096 / T) := by
  have a := h.ρ0
  have b := h.ρ1
  have c := h.T1
  have y1 : 647.096 / T ≤ 1 := by rw [div_le_one h.Tpos]; exact hT
  have y2 : 0.749 ≤ 647.096 / T := by rw [le_div_iff₀ h.Tpos]; norm_num; linarith
  constructor <;> rw [abs_le] <;> constructor <;> push_cast <;> norm_num at * <;> linarith

theorem yT (h : Fluid ρ T) (hT : T < 647.096) : 1 ≤ 647.096 / T ∧ 647.096 / T ≤ 1.039 := by
  have := h.T0
  constructor
  · rw [le_div_iff₀ h.Tpos]; linarith
  · rw [div_le_iff₀ h.Tpos]; norm_num at *; linarith

theorem rect1 (h : Fluid ρ T) (hT : T < 647.096) (hρ : 322 ≤ ρ) : InRect 34 14 20 2039 39 2000 (ρ / 322) (647.096 / T) := by
  have b := h.ρ1
  obtain ⟨y1, y2⟩ := h.yT hT
  constructor <;> rw [abs_le] <;> constructor <;> push_cast <;> norm_num at * <;> linarith

theorem rect2 (h : Fluid ρ T) (hT : T < 647.096) (hρ : ρ ≤ 322) : InRect 13 7 20 2039 39 2000 (ρ / 322) (647.096 / T) := by
  have b := h.ρ0
  obtain ⟨y1, y2⟩ := h.yT hT
  constructor <;> rw [abs_le] <;> constructor <;> push_cast <;> norm_num at * <;> linarith

theorem kMax (h : Fluid ρ T) : B3.kMax.Holds (ρ / 322) (647.096 / T) := B3.kMax_holds h.x0 h.y0 h.p1

theorem kB23 (h : Fluid ρ T) : B3.kB23.Holds (ρ / 322) (647.096 / T) :=
  B3.kB23_holds h.x0 h.y0 (by rw [h.yy]; exact h.border)

theorem kLow (h : Fluid ρ T) (hT : T < 647.096) (hρ : 322 ≤ ρ) : B3.kLow.Holds (ρ / 322) (647.096 / T) :=
  B3.kLow_holds h.x0 h.y0 (by rw [h.yy]; exact (B3.low_le h.T0 hT).trans (h.liquid hT hρ))

theorem kHigh (h : Fluid ρ T) (hT : T < 647.096) (hρ : ρ ≤ 322) : B3.kHigh.Holds (ρ / 322) (647.096 / T) :=
  B3.kHigh_holds h.x0 h.y0 (by rw [h.yy]; exact (h.vapour hT hρ).trans (B3.le_high h.T0 hT))

theorem kDome (h : Fluid ρ T) (hT : T < 647.096) : B3.kDome.Holds (ρ / 322) (647.096 / T) := by
  refine B3.kDome_holds h.x0 h.y0 ?_
  have hp := h.Tpos
  have := h.dome hT
  rw [← sub_nonneg, show (322 - 322 * (ρ / 322)) ^ 2 * (647.096 / T) - 1200 * 647.096 * (647.096 / T - 1) =
    647.096 / T * ((322 - ρ) ^ 2 - 1200 * (647.096 - T)) by field_simp]
  exact mul_nonneg (by positivity) (by linarith)

end Fluid

end PyX.Kron
