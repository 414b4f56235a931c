import Verif.Lemmas.Terms
import Verif.Spec.Thermo

/-!
# Properties from a dimensionless Gibbs free energy `γ(π,τ)` with `π = p/p*`, `τ = T*/T`, and the three of IAPWS-IF97
-/

namespace PyX

open Classical Spec Spec.IF97

/-- a function of `π, τ` with its first and second derivatives -/
structure Gamma where
  ps : ℝ
  Ts : ℝ
  g : ℝ → ℝ → ℝ
  gp : ℝ → ℝ → ℝ
  gt : ℝ → ℝ → ℝ
  gpp : ℝ → ℝ → ℝ
  gpt : ℝ → ℝ → ℝ
  gtt : ℝ → ℝ → ℝ

namespace Gamma

structure At (G : Gamma) (π τ : ℝ) : Prop where
  p : HasDerivAt (fun π => G.g π τ) (G.gp π τ) π
  t : HasDerivAt (fun τ => G.g π τ) (G.gt π τ) τ
  pp : HasDerivAt (fun π => G.gp π τ) (G.gpp π τ) π
  pt : HasDerivAt (fun τ => G.gp π τ) (G.gpt π τ) τ
  tt : HasDerivAt (fun τ => G.gt π τ) (G.gtt π τ) τ

variable (G : Gamma)

noncomputable def pot (p T : ℝ) : ℝ := R * T * G.g (p / G.ps) (G.Ts / T)
noncomputable def v (p T : ℝ) : ℝ := R * T * G.gp (p / G.ps) (G.Ts / T) / (1000 * G.ps)
noncomputable def s (p T : ℝ) : ℝ :=
  R * (G.Ts / T * G.gt (p / G.ps) (G.Ts / T) - G.g (p / G.ps) (G.Ts / T))
noncomputable def h (p T : ℝ) : ℝ := R * G.Ts * G.gt (p / G.ps) (G.Ts / T)
noncomputable def u (p T : ℝ) : ℝ :=
  R * T * (G.Ts / T * G.gt (p / G.ps) (G.Ts / T) - p / G.ps * G.gp (p / G.ps) (G.Ts / T))
noncomputable def cp (p T : ℝ) : ℝ := -R * (G.Ts / T) ^ 2 * G.gtt (p / G.ps) (G.Ts / T)
noncomputable def vp (p T : ℝ) : ℝ := R * T * G.gpp (p / G.ps) (G.Ts / T) / (1000 * G.ps ^ 2)
noncomputable def vT (p T : ℝ) : ℝ :=
  R * (G.gp (p / G.ps) (G.Ts / T) - G.Ts / T * G.gpt (p / G.ps) (G.Ts / T)) / (1000 * G.ps)

variable {G}

private theorem hasDerivAt_tau (Ts : ℝ) {T : ℝ} (hT : T ≠ 0) :
    HasDerivAt (fun T => Ts / T) (-(Ts / T ^ 2)) T := by
  have := (hasDerivAt_inv hT).const_mul Ts
  refine (this.congr_deriv ?_)
  ring

theorem At.gibbs {p T : ℝ} (h : G.At (p / G.ps) (G.Ts / T)) (hps : G.ps ≠ 0) (hT : T ≠ 0) :
    Gibbs G.pot G.v G.s G.h G.u G.cp p T where
  volume := by
    have := (h.p.comp p ((hasDerivAt_id p).div_const G.ps)).const_mul (R * T)
    refine this.congr_deriv ?_
    simp only [Gamma.v]
    field_simp
  entropy := by
    have h1 := h.t.comp T (hasDerivAt_tau G.Ts hT)
    have := ((hasDerivAt_id T).const_mul R).mul h1
    refine this.congr_deriv ?_
    simp only [Gamma.s, id, Function.comp]
    field_simp
    ring
  enthalpy := by
    simp only [Gamma.h, Gamma.pot, Gamma.s]
    field_simp
    ring
  energy := by
    simp only [Gamma.h, Gamma.u, Gamma.v]
    field_simp
  heat := by
    have h1 := (h.tt.comp T (hasDerivAt_tau G.Ts hT)).const_mul (R * G.Ts)
    refine h1.congr_deriv ?_
    simp only [Gamma.cp]
    field_simp

theorem At.vp {p T : ℝ} (h : G.At (p / G.ps) (G.Ts / T)) (hps : G.ps ≠ 0) :
    HasDerivAt (fun p => G.v p T) (G.vp p T) p := by
  have := ((h.pp.comp p ((hasDerivAt_id p).div_const G.ps)).const_mul (R * T)).div_const (1000 * G.ps)
  refine this.congr_deriv ?_
  simp only [Gamma.vp]
  field_simp

theorem At.vT {p T : ℝ} (h : G.At (p / G.ps) (G.Ts / T)) (hT : T ≠ 0) :
    HasDerivAt (fun T => G.v p T) (G.vT p T) T := by
  have h1 := h.pt.comp T (hasDerivAt_tau G.Ts hT)
  have := (((hasDerivAt_id T).const_mul R).mul h1).div_const (1000 * G.ps)
  refine this.congr_deriv ?_
  simp only [Gamma.vT, id, Function.comp]
  field_simp
  ring

/-- the formula for `cv` -/
noncomputable def cv (G : Gamma) (p T : ℝ) : ℝ :=
  R * (-(G.Ts / T) ^ 2 * G.gtt (p / G.ps) (G.Ts / T) +
    (G.gp (p / G.ps) (G.Ts / T) - G.Ts / T * G.gpt (p / G.ps) (G.Ts / T)) ^ 2 / G.gpp (p / G.ps) (G.Ts / T))

theorem R_pos : 0 < R := by norm_num [R]

theorem isochoric {p T : ℝ} (hps : G.ps ≠ 0) (hT : T ≠ 0) (hpp : G.gpp (p / G.ps) (G.Ts / T) ≠ 0) :
    IsochoricHeat T (G.vp p T) (G.vT p T) (G.cp p T) (G.cv p T) := by
  have := R_pos.ne'
  refine ⟨?_, ?_⟩
  · simp only [Gamma.vp]; positivity
  · simp only [Gamma.vp, Gamma.vT, Gamma.cp, Gamma.cv]
    field_simp
    ring

/-- the square of the speed of sound -/
noncomputable def w2 (G : Gamma) (p T : ℝ) : ℝ :=
  1000 * R * T * G.gp (p / G.ps) (G.Ts / T) ^ 2 /
    ((G.gp (p / G.ps) (G.Ts / T) - G.Ts / T * G.gpt (p / G.ps) (G.Ts / T)) ^ 2 /
      ((G.Ts / T) ^ 2 * G.gtt (p / G.ps) (G.Ts / T)) - G.gpp (p / G.ps) (G.Ts / T))

theorem sound {p T w : ℝ} (hps : G.ps ≠ 0) (hTs : G.Ts ≠ 0) (hT : T ≠ 0) (htt : G.gtt (p / G.ps) (G.Ts / T) ≠ 0)
    (hd : (G.gp (p / G.ps) (G.Ts / T) - G.Ts / T * G.gpt (p / G.ps) (G.Ts / T)) ^ 2 /
      ((G.Ts / T) ^ 2 * G.gtt (p / G.ps) (G.Ts / T)) - G.gpp (p / G.ps) (G.Ts / T) ≠ 0)
    (hw : 0 ≤ w) (hw2 : w ^ 2 = G.w2 p T) :
    SoundSpeed T (G.v p T) (G.vp p T) (G.vT p T) (G.cp p T) w := by
  have hR := R_pos.ne'
  refine ⟨hw, ?_, ?_⟩
  · simp only [Gamma.cp]
    have := div_ne_zero hTs hT
    exact mul_ne_zero (mul_ne_zero (neg_ne_zero.2 hR) (pow_ne_zero 2 this)) htt
  · rw [hw2]
    have e : -G.vp p T - 1000 * T * G.vT p T ^ 2 / G.cp p T =
        R * T / (1000 * G.ps ^ 2) * ((G.gp (p / G.ps) (G.Ts / T) - G.Ts / T * G.gpt (p / G.ps) (G.Ts / T)) ^ 2 /
      ((G.Ts / T) ^ 2 * G.gtt (p / G.ps) (G.Ts / T)) - G.gpp (p / G.ps) (G.Ts / T)) := by
      simp only [Gamma.vp, Gamma.vT, Gamma.cp]
      field_simp
      ring
    rw [e, Gamma.w2, Gamma.v]
    generalize (G.gp (p / G.ps) (G.Ts / T) - G.Ts / T * G.gpt (p / G.ps) (G.Ts / T)) ^ 2 /
      ((G.Ts / T) ^ 2 * G.gtt (p / G.ps) (G.Ts / T)) - G.gpp (p / G.ps) (G.Ts / T) = d at hd
    field_simp
    norm_num
    ring

end Gamma

/-! ## Regions 1, 2 and 5 -/

noncomputable def gamma1 : Gamma where
  ps := 16.53
  Ts := 1386
  g π τ := dpoly region1 0 0 (7.1 - π) (τ - 1.222)
  gp π τ := -dpoly region1 1 0 (7.1 - π) (τ - 1.222)
  gt π τ := dpoly region1 0 1 (7.1 - π) (τ - 1.222)
  gpp π τ := dpoly region1 2 0 (7.1 - π) (τ - 1.222)
  gpt π τ := -dpoly region1 1 1 (7.1 - π) (τ - 1.222)
  gtt π τ := dpoly region1 0 2 (7.1 - π) (τ - 1.222)

theorem gamma1_at {π τ : ℝ} (hx : 7.1 - π ≠ 0) (hy : τ - 1.222 ≠ 0) : gamma1.At π τ where
  p := (dpoly_x region1 0 0 (τ - 1.222) hx).comp_const_sub 7.1 π
  t := (dpoly_y region1 0 0 (7.1 - π) hy).comp_sub_const τ 1.222
  pp := ((dpoly_x region1 1 0 (τ - 1.222) hx).comp_const_sub 7.1 π).neg.congr_deriv (by simp [gamma1])
  pt := ((dpoly_y region1 1 0 (7.1 - π) hy).comp_sub_const τ 1.222).neg
  tt := (dpoly_y region1 0 1 (7.1 - π) hy).comp_sub_const τ 1.222

theorem gamma1_pot : gamma1.pot = g1 := by
  funext p T
  simp only [Gamma.pot, g1, poly_eq]
  rfl

noncomputable def gamma2 : Gamma where
  ps := 1
  Ts := 540
  g π τ := Real.log π + dpoly region2Ideal 0 0 1 τ + dpoly region2 0 0 π (τ - 0.5)
  gp π τ := 1 / π + dpoly region2 1 0 π (τ - 0.5)
  gt π τ := dpoly region2Ideal 0 1 1 τ + dpoly region2 0 1 π (τ - 0.5)
  gpp π τ := -1 / π ^ 2 + dpoly region2 2 0 π (τ - 0.5)
  gpt π τ := dpoly region2 1 1 π (τ - 0.5)
  gtt π τ := dpoly region2Ideal 0 2 1 τ + dpoly region2 0 2 π (τ - 0.5)

theorem gamma2_at {π τ : ℝ} (hx : π ≠ 0) (hτ : τ ≠ 0) (hy : τ - 0.5 ≠ 0) : gamma2.At π τ where
  p := (((Real.hasDerivAt_log hx).add_const _).add (dpoly_x region2 0 0 (τ - 0.5) hx)).congr_deriv (by simp [gamma2])
  t := ((((dpoly_y region2Ideal 0 0 1 hτ).const_add (Real.log π)).add ((dpoly_y region2 0 0 π hy).comp_sub_const τ 0.5)))
  pp := ((((hasDerivAt_inv hx)).add (dpoly_x region2 1 0 (τ - 0.5) hx)).congr_deriv
    (by simp only [gamma2]; ring)).congr_of_eventuallyEq (.of_forall fun x => by simp [gamma2])
  pt := ((dpoly_y region2 1 0 π hy).comp_sub_const τ 0.5).const_add (1 / π)
  tt := ((dpoly_y region2Ideal 0 1 1 hτ).add ((dpoly_y region2 0 1 π hy).comp_sub_const τ 0.5))

theorem gamma2_pot : gamma2.pot = g2 := by
  funext p T
  simp only [Gamma.pot, g2, poly_eq, gamma2, div_one]

noncomputable def gamma5 : Gamma where
  ps := 1
  Ts := 1000
  g π τ := Real.log π + dpoly region5Ideal 0 0 1 τ + dpoly region5 0 0 π (τ)
  gp π τ := 1 / π + dpoly region5 1 0 π (τ)
  gt π τ := dpoly region5Ideal 0 1 1 τ + dpoly region5 0 1 π (τ)
  gpp π τ := -1 / π ^ 2 + dpoly region5 2 0 π (τ)
  gpt π τ := dpoly region5 1 1 π (τ)
  gtt π τ := dpoly region5Ideal 0 2 1 τ + dpoly region5 0 2 π (τ)

theorem gamma5_at {π τ : ℝ} (hx : π ≠ 0) (hτ : τ ≠ 0) : gamma5.At π τ where
  p := (((Real.hasDerivAt_log hx).add_const _).add (dpoly_x region5 0 0 (τ) hx)).congr_deriv (by simp [gamma5])
  t := ((((dpoly_y region5Ideal 0 0 1 hτ).const_add (Real.log π)).add ((dpoly_y region5 0 0 π hτ))))
  pp := ((((hasDerivAt_inv hx)).add (dpoly_x region5 1 0 (τ) hx)).congr_deriv
    (by simp only [gamma5]; ring)).congr_of_eventuallyEq (.of_forall fun x => by simp [gamma5])
  pt := ((dpoly_y region5 1 0 π hτ)).const_add (1 / π)
  tt := ((dpoly_y region5Ideal 0 1 1 hτ).add ((dpoly_y region5 0 1 π hτ)))

theorem gamma5_pot : gamma5.pot = g5 := by
  funext p T
  simp only [Gamma.pot, g5, poly_eq, gamma5, div_one]

end PyX
