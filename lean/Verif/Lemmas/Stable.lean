import Verif.Lemmas.GammaDefs

/-!
# Thermodynamic stability in terms of the derivatives of a dimensionless Gibbs free energy
-/

namespace PyX.Gamma

open Spec.IF97

/-- positive volume, heat capacities and compressibility -/
structure Stable (G : Gamma) (π τ : ℝ) : Prop where
  gp : 0 < G.gp π τ
  gtt : G.gtt π τ < 0
  gpp : G.gpp π τ < 0
  det : (G.gp π τ - τ * G.gpt π τ) ^ 2 < τ ^ 2 * G.gtt π τ * G.gpp π τ

variable {G : Gamma} {p T : ℝ}

theorem v_pos (h : 0 < G.gp (p / G.ps) (G.Ts / T)) (hps : 0 < G.ps) (hT : 0 < T) : 0 < G.v p T := by
  have := R_pos
  simp only [Gamma.v]; positivity

theorem cp_pos (h : G.gtt (p / G.ps) (G.Ts / T) < 0) (hTs : 0 < G.Ts) (hT : 0 < T) : 0 < G.cp p T := by
  have := R_pos
  simp only [Gamma.cp]
  have h1 : 0 < (G.Ts / T) ^ 2 := by positivity
  have : 0 < R * (G.Ts / T) ^ 2 * -G.gtt (p / G.ps) (G.Ts / T) := mul_pos (by positivity) (by linarith)
  linarith

theorem vp_neg (h : G.gpp (p / G.ps) (G.Ts / T) < 0) (hps : 0 < G.ps) (hT : 0 < T) : G.vp p T < 0 := by
  have := R_pos
  simp only [Gamma.vp]
  exact div_neg_of_neg_of_pos (mul_neg_of_pos_of_neg (by positivity) h) (by positivity)

theorem cv_pos (h : G.Stable (p / G.ps) (G.Ts / T)) : 0 < G.cv p T := by
  obtain ⟨_, _, h3, h4⟩ := h
  simp only [Gamma.cv]
  refine mul_pos R_pos ?_
  generalize G.Ts / T = τ at *
  generalize G.gp (p / G.ps) τ - τ * G.gpt (p / G.ps) τ = c at *
  generalize G.gpp (p / G.ps) τ = b at *
  generalize G.gtt (p / G.ps) τ = a at *
  rw [show -τ ^ 2 * a + c ^ 2 / b = (τ ^ 2 * a * b - c ^ 2) / -b by
    have := h3.ne; field_simp; ring]
  exact div_pos (by linarith) (by linarith)

/-- the denominator in the speed of sound -/
theorem sound_denom (h : G.Stable (p / G.ps) (G.Ts / T)) (hτ : 0 < G.Ts / T) :
    0 < (G.gp (p / G.ps) (G.Ts / T) - G.Ts / T * G.gpt (p / G.ps) (G.Ts / T)) ^ 2 /
      ((G.Ts / T) ^ 2 * G.gtt (p / G.ps) (G.Ts / T)) - G.gpp (p / G.ps) (G.Ts / T) := by
  obtain ⟨_, h2, h3, h4⟩ := h
  generalize G.Ts / T = τ at *
  generalize G.gp (p / G.ps) τ - τ * G.gpt (p / G.ps) τ = c at *
  generalize G.gpp (p / G.ps) τ = b at *
  generalize G.gtt (p / G.ps) τ = a at *
  have h5 : τ ^ 2 * a < 0 := mul_neg_of_pos_of_neg (by positivity) h2
  rw [show c ^ 2 / (τ ^ 2 * a) - b = (τ ^ 2 * a * b - c ^ 2) / -(τ ^ 2 * a) by
    have := h2.ne; field_simp; ring]
  exact div_pos (by linarith) (by linarith)

theorem w2_pos (h : G.Stable (p / G.ps) (G.Ts / T)) (hTs : 0 < G.Ts) (hT : 0 < T) : 0 < G.w2 p T := by
  have := R_pos
  have hd := sound_denom h (by positivity)
  have := h.gp
  simp only [Gamma.w2]
  exact div_pos (by positivity) hd

end PyX.Gamma
