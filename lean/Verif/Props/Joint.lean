import Verif.Lemmas.Joint
import Verif.Spec.Joint

/-!
# The border between regions 2 and 5

Up to 10 MPa the two equations agree on the isotherm 1073.15 K. The code uses the 1997 equation of region 5 up to 50 MPa,
where it is off.
-/

namespace PyX

open Classical Spec.PT Spec.IF97 Spec.Joint Filter Topology

variable {p : ℝ}

/-- volume, enthalpy and entropy on the cold side of the border and the limits from the hot side -/
theorem steps (u : UnitSystem) {p t : ℝ} (h0 : 0.000611 < Quantity.p.si u p) (h1 : Quantity.p.si u p < 50)
    (ht : Quantity.T.si u t = 1073.15) :
    Step (fun t => XSteam.v_pt .ideal u (.fin p) (.fin t)) t (Quantity.v.user u (gamma2.v (Quantity.p.si u p) 1073.15))
      (Quantity.v.user u (gamma5.v (Quantity.p.si u p) 1073.15)) ∧
    Step (fun t => XSteam.h_pt .ideal u (.fin p) (.fin t)) t (Quantity.h.user u (gamma2.h (Quantity.p.si u p) 1073.15))
      (Quantity.h.user u (gamma5.h (Quantity.p.si u p) 1073.15)) ∧
    Step (fun t => XSteam.s_pt .ideal u (.fin p) (.fin t)) t (Quantity.s.user u (gamma2.s (Quantity.p.si u p) 1073.15))
      (Quantity.s.user u (gamma5.s (Quantity.p.si u p) 1073.15)) := by
  set P := Quantity.p.si u p with hP
  have v := Kron.vapour_1073 (by linarith : 0 < P) (by linarith)
  have r : InRegion 2 P (Quantity.T.si u t) := by
    rw [ht]
    exact .inr (.inr (.inr (.inr (.inl ⟨rfl, by norm_num [Box]; constructor <;> linarith, by norm_num, v.border (by norm_num)⟩))))
  have k := kernels_of_region (p := p) (t := t) (u := u) (.inr (.inl rfl)) r
  rw [ht] at k
  have e2 : gammaOf 2 = gamma2 := rfl
  have e5 : gammaOf 5 = gamma5 := rfl
  rw [e2] at k
  have hc : Tendsto (fun x => Quantity.T.si u x) (𝓝 t) (𝓝 1073.15) := by
    rw [← ht]
    have : Continuous fun x => Quantity.T.si u x := by simp only [Quantity.si]; fun_prop
    exact this.tendsto t
  have near : ∀ᶠ x in 𝓝[>] t, InRegion 5 P (Quantity.T.si u x) := by
    have a : ∀ᶠ x in 𝓝[>] t, Quantity.T.si u x < 2273.15 :=
      (hc.mono_left nhdsWithin_le_nhds).eventually (gt_mem_nhds (by norm_num))
    filter_upwards [a, self_mem_nhdsWithin] with x hx hx'
    have := si_lt (q := .T) u (show t < x from hx')
    rw [ht] at this
    exact .inr (.inl ⟨rfl, this, hx, h0, h1⟩)
  have key (x : ℝ) (hx : InRegion 5 P (Quantity.T.si u x)) := kernels_of_region (p := p) (t := x) (u := u) (.inr (.inr rfl)) hx
  simp only [e5] at key
  have at5 := gamma5_at (π := P / 1) (τ := 1000 / 1073.15) (by linarith : P / 1 ≠ 0) (by norm_num)
  have cT : ContinuousAt (fun x => 1000 / Quantity.T.si u x) t := by
    refine ContinuousAt.div continuousAt_const ?_ (by rw [ht]; norm_num)
    rw [ContinuousAt, ht]
    exact hc
  have q : 1000 / Quantity.T.si u t = 1000 / 1073.15 := by rw [ht]
  have cgt : ContinuousAt (fun x => gamma5.gt (P / 1) (1000 / Quantity.T.si u x)) t :=
    ContinuousAt.comp (f := fun x => 1000 / Quantity.T.si u x) (g := fun τ => gamma5.gt (P / 1) τ) (by rw [q]; exact at5.tt.continuousAt) cT
  have cgp : ContinuousAt (fun x => gamma5.gp (P / 1) (1000 / Quantity.T.si u x)) t :=
    ContinuousAt.comp (f := fun x => 1000 / Quantity.T.si u x) (g := fun τ => gamma5.gp (P / 1) τ) (by rw [q]; exact at5.pt.continuousAt) cT
  have cg : ContinuousAt (fun x => gamma5.g (P / 1) (1000 / Quantity.T.si u x)) t :=
    ContinuousAt.comp (f := fun x => 1000 / Quantity.T.si u x) (g := fun τ => gamma5.g (P / 1) τ) (by rw [q]; exact at5.t.continuousAt) cT
  have hc' : ContinuousAt (fun x => Quantity.T.si u x) t := by rw [ContinuousAt, ht]; exact hc
  have lim {q : Quantity} {f : ℝ → ℝ} (hf : ContinuousAt (fun x => f (Quantity.T.si u x)) t) :
      Tendsto (fun x => q.user u (f (Quantity.T.si u x))) (𝓝[>] t) (𝓝 (q.user u (f 1073.15))) := by
    rw [ContinuousAt, ht] at hf
    simp only [Quantity.user]
    exact ((hf.mono_left nhdsWithin_le_nhds).sub_const _).div_const _
  refine ⟨⟨k.1, _, near.mono fun x hx => (key x hx).1, lim ?_⟩, ⟨k.2.1, _, near.mono fun x hx => (key x hx).2.1, lim ?_⟩,
    ⟨k.2.2.1, _, near.mono fun x hx => (key x hx).2.2.1, lim ?_⟩⟩
  · exact ((continuousAt_const.mul hc').mul cgp).div_const _
  · exact continuousAt_const.mul cgt
  · exact continuousAt_const.mul ((cT.mul cgt).sub cg)

theorem v_of_gp {G : Gamma} (hG : G.ps = 1) (h0 : 0 < p) : G.v p 1073.15 = R * 1073.15 / (1000 * p) * (p * G.gp p (G.Ts / 1073.15)) := by
  rw [Gamma.v, hG, div_one]
  field_simp

theorem joint (h0 : 0 < p) (h1 : p ≤ 10) : |gamma5.h p 1073.15 - gamma2.h p 1073.15| ≤ 0.026 ∧
    |gamma5.s p 1073.15 - gamma2.s p 1073.15| ≤ 5e-5 ∧
    |gamma5.v p 1073.15 - gamma2.v p 1073.15| ≤ 3e-5 * gamma2.v p 1073.15 := by
  refine ⟨?_, ?_, ?_⟩
  · have a := abs_le.1 (Kron.h5_cub h0 (by linarith))
    have b := Kron.hU h0 h1
    have c := Kron.hL h0 h1
    rw [abs_le]
    constructor <;> linarith
  · have a := abs_le.1 (Kron.s5_cub h0 (by linarith))
    have b := Kron.sU h0 h1
    have c := Kron.sL h0 h1
    have e (x : ℝ) : x = R * (x / R) := by have := Gamma.R_pos; field_simp
    have d : |gamma5.s p 1073.15 / R - gamma2.s p 1073.15 / R| ≤ 1.0811e-4 := by
      rw [abs_le]
      constructor <;> linarith
    rw [e (gamma5.s p 1073.15), e (gamma2.s p 1073.15), ← mul_sub, abs_mul, abs_of_pos Gamma.R_pos]
    rw [R] at *
    linarith
  · have a := abs_le.1 (Kron.v5_cub h0 (by linarith))
    have b := Kron.vU h0 h1
    have c := Kron.vL h0 h1
    have k : 0 < R * 1073.15 / (1000 * p) := by have := Gamma.R_pos; positivity
    rw [v_of_gp (G := gamma5) rfl h0, v_of_gp (G := gamma2) rfl h0, ← mul_sub, abs_mul, abs_of_pos k, ← mul_assoc, mul_comm (3e-5 : ℝ), mul_assoc]
    refine mul_le_mul_of_nonneg_left ?_ k.le
    have e5 : gamma5.Ts = 1000 := rfl
    have e2 : gamma2.Ts = 540 := rfl
    rw [e5, e2]
    rw [abs_le]
    have h2 : p ^ 2 ≤ 100 := by nlinarith
    have h3 : p ^ 3 ≤ 1000 := by nlinarith [pow_pos h0 2]
    have h4 := pow_pos h0 2
    have h5 := pow_pos h0 3
    constructor <;> linarith

/-- C60: up to 10 MPa enthalpy, entropy and volume do not jump at the border between regions 2 and 5: the value on the
isotherm 1073.15 K and the limit from above differ by at most 0.026 kJ/kg, 0.00005 kJ/(kg K) and 0.003 %, in every unit
system -/
theorem C60_joint (u : UnitSystem) (p t : ℝ) (h0 : 0.000611 < Quantity.p.si u p) (h1 : Quantity.p.si u p ≤ 10)
    (ht : Quantity.T.si u t = 1073.15) : ∃ v v' h h' s s' : ℝ,
    Step (fun t => XSteam.v_pt .ideal u (.fin p) (.fin t)) t v v' ∧
      |Quantity.v.si u v' - Quantity.v.si u v| ≤ 3e-5 * Quantity.v.si u v ∧
    Step (fun t => XSteam.h_pt .ideal u (.fin p) (.fin t)) t h h' ∧ |Quantity.h.si u h' - Quantity.h.si u h| ≤ 0.026 ∧
    Step (fun t => XSteam.s_pt .ideal u (.fin p) (.fin t)) t s s' ∧ |Quantity.s.si u s' - Quantity.s.si u s| ≤ 5e-5 := by
  obtain ⟨a, b, c⟩ := steps u h0 (by linarith) ht
  obtain ⟨d, e, f⟩ := joint (by linarith : 0 < Quantity.p.si u p) h1
  refine ⟨_, _, _, _, _, _, a, ?_, b, ?_, c, ?_⟩ <;> simp only [Quantity.si_user] <;> assumption

/-- 50 bar and 800 °C meet the hypotheses -/
example : ∃ v v' h h' s s' : ℝ,
    Step (fun t => XSteam.v_pt .ideal .mks (.fin 50) (.fin t)) 800 v v' ∧
      |Quantity.v.si .mks v' - Quantity.v.si .mks v| ≤ 3e-5 * Quantity.v.si .mks v ∧
    Step (fun t => XSteam.h_pt .ideal .mks (.fin 50) (.fin t)) 800 h h' ∧ |Quantity.h.si .mks h' - Quantity.h.si .mks h| ≤ 0.026 ∧
    Step (fun t => XSteam.s_pt .ideal .mks (.fin 50) (.fin t)) 800 s s' ∧ |Quantity.s.si .mks s' - Quantity.s.si .mks s| ≤ 5e-5 :=
  C60_joint .mks 50 800 (by norm_num [Quantity.si, Quantity.scale, Quantity.offset])
    (by norm_num [Quantity.si, Quantity.scale, Quantity.offset]) (by norm_num [Quantity.si, Quantity.scale, Quantity.offset])

theorem gap (h0 : 40 ≤ p) (h1 : p ≤ 50) : gamma2.h p 1073.15 + 1.99 < gamma5.h p 1073.15 ∧
    1.0099 * gamma2.v p 1073.15 < gamma5.v p 1073.15 := by
  have hp : 0 < p := by linarith
  refine ⟨?_, ?_⟩
  · have a := abs_le.1 (Kron.h5_cub hp h1)
    have b := Kron.hJ hp h0 h1
    linarith
  · have a := abs_le.1 (Kron.v5_cub hp h1)
    have b := Kron.vJ hp h0 h1
    have k : 0 < R * 1073.15 / (1000 * p) := by have := Gamma.R_pos; positivity
    rw [v_of_gp (G := gamma5) rfl hp, v_of_gp (G := gamma2) rfl hp, ← mul_assoc, mul_comm (1.0099 : ℝ), mul_assoc]
    refine mul_lt_mul_of_pos_left ?_ k
    have e5 : gamma5.Ts = 1000 := rfl
    have e2 : gamma2.Ts = 540 := rfl
    rw [e5, e2]
    have h2 : p ^ 2 ≤ 2500 := by nlinarith
    have h2' : 1600 ≤ p ^ 2 := by nlinarith
    have h3 : 64000 ≤ p ^ 3 := by nlinarith
    linarith

/-- C61: between 40 and 50 MPa, which `region_pT` accepts as region 5, enthalpy and volume jump at the border by more than
1.9 kJ/kg and 0.9 %: the equation of region 5 is the one of 1997, made for at most 10 MPa -/
theorem C61_gap (u : UnitSystem) (p t : ℝ) (h0 : 40 ≤ Quantity.p.si u p) (h1 : Quantity.p.si u p < 50)
    (ht : Quantity.T.si u t = 1073.15) : ∃ v v' h h' : ℝ,
    Step (fun t => XSteam.v_pt .ideal u (.fin p) (.fin t)) t v v' ∧ 1.009 * Quantity.v.si u v < Quantity.v.si u v' ∧
    Step (fun t => XSteam.h_pt .ideal u (.fin p) (.fin t)) t h h' ∧ Quantity.h.si u h + 1.9 < Quantity.h.si u h' := by
  obtain ⟨a, b, -⟩ := steps u (by linarith) h1 ht
  obtain ⟨d, e⟩ := gap h0 h1.le
  refine ⟨_, _, _, _, a, ?_, b, ?_⟩ <;> simp only [Quantity.si_user]
  · have v := Kron.vapour_1073 (by linarith : 0 < Quantity.p.si u p) (by linarith)
    have := (Kron.R2.signs v).1
    have : 0 < gamma2.v (Quantity.p.si u p) 1073.15 := by
      have e2 : gamma2.Ts = 540 := rfl
      have hR := Gamma.R_pos
      rw [v_of_gp (G := gamma2) rfl v.p0, e2]
      have := v.p0
      positivity
    linarith
  · linarith

/-- 450 bar and 800 °C meet the hypotheses -/
example : ∃ v v' h h' : ℝ,
    Step (fun t => XSteam.v_pt .ideal .mks (.fin 450) (.fin t)) 800 v v' ∧ 1.009 * Quantity.v.si .mks v < Quantity.v.si .mks v' ∧
    Step (fun t => XSteam.h_pt .ideal .mks (.fin 450) (.fin t)) 800 h h' ∧ Quantity.h.si .mks h + 1.9 < Quantity.h.si .mks h' :=
  C61_gap .mks 450 800 (by norm_num [Quantity.si, Quantity.scale, Quantity.offset])
    (by norm_num [Quantity.si, Quantity.scale, Quantity.offset]) (by norm_num [Quantity.si, Quantity.scale, Quantity.offset])

end PyX
