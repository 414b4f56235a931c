import Verif.Props.Stability
import Mathlib.Analysis.Calculus.Deriv.MeanValue

/-!
# C52: enthalpy and entropy rise with temperature, volume falls with pressure

In each of the regions 1, 2 and 5 the isobars of enthalpy and entropy are strictly increasing and the isotherms of the
specific volume strictly decreasing.
-/

namespace PyX

open Classical Py Num Spec Spec.IF97 Spec.Sat Spec.PT

namespace Gamma

variable {G : Gamma} {p T : ℝ}

theorem At.sT (h : G.At (p / G.ps) (G.Ts / T)) (hT : T ≠ 0) : HasDerivAt (fun T => G.s p T) (G.cp p T / T) T := by
  have hd : HasDerivAt (fun T => G.Ts / T) (-(G.Ts / T ^ 2)) T := by
    have := (hasDerivAt_inv hT).const_mul G.Ts
    exact this.congr_deriv (by ring)
  have h1 := h.tt.comp T hd
  have h2 := h.t.comp T hd
  have := ((hd.mul h1).sub h2).const_mul R
  refine this.congr_deriv ?_
  simp only [Gamma.cp, Function.comp]
  field_simp
  ring

/-- strictly increasing between two points, when the derivative is positive in between -/
theorem lt_of_deriv {f f' : ℝ → ℝ} {a b : ℝ} (hab : a < b) (h : ∀ x, a ≤ x → x ≤ b → HasDerivAt f (f' x) x)
    (hp : ∀ x, a ≤ x → x ≤ b → 0 < f' x) : f a < f b := by
  have := strictMonoOn_of_deriv_pos (convex_Icc a b) (f := f)
    (fun x hx => (h x hx.1 hx.2).continuousAt.continuousWithinAt)
    (fun x hx => by
      rw [interior_Icc] at hx
      rw [(h x hx.1.le hx.2.le).deriv]
      exact hp x hx.1.le hx.2.le)
  exact this (Set.left_mem_Icc.2 hab.le) (Set.right_mem_Icc.2 hab.le) hab

end Gamma

/-! ## The domains contain the lines between their points -/

namespace Kron

theorem Liquid.isobar {p T T' x : ℝ} (h : Liquid p T) (h' : Liquid p T') (h1 : T ≤ x) (h2 : x ≤ T') : Liquid p x := by
  refine ⟨h.p1, h.T0.trans h1, h2.trans h'.T1, le_trans ?_ h'.sat⟩
  rcases h2.eq_or_lt with rfl | h2
  · exact le_rfl
  · exact (psat_mono (by linarith [h.T0]) h2 (by linarith [h'.T1])).le

theorem Liquid.isotherm {p p' T x : ℝ} (h : Liquid p T) (h' : Liquid p' T) (h1 : p ≤ x) (h2 : x ≤ p') : Liquid x T :=
  ⟨h2.trans h'.p1, h.T0, h.T1, h.sat.trans h1⟩

theorem psat_b23 : psat 623.15 ≤ b23 623.15 := by
  have h := psat_le (T := 623.15) (Tk := 623.15) (β := 2.01633516280257) (by norm_num) (by norm_num) (by norm_num)
    (by norm_num) (by norm_num [eqQ, thQ])
  refine h.trans ?_
  norm_num [b23]

theorem Vapour.up {p T x : ℝ} (h : Vapour p T) (h1 : T ≤ x) (h2 : x ≤ 1073.15) : Vapour p x := by
  have m : ∀ {y z : ℝ}, 273.15 ≤ y → y ≤ z → z ≤ 623.15 → psat y ≤ psat z := by
    intro y z h0 h1 h2
    rcases h1.eq_or_lt with rfl | h1
    · exact le_rfl
    · exact (psat_mono (by linarith) h1 (by linarith)).le
  refine ⟨h.p0, h.p1, h.T0.trans h1, h2, fun hx => ?_, fun hx => ?_⟩
  · exact (h.sat (h1.trans hx)).trans (m h.T0 h1 hx)
  · rcases le_or_gt T 623.15 with ht | ht
    · exact ((h.sat ht).trans (m h.T0 ht le_rfl)).trans (psat_b23.trans (b23_mono (by norm_num) hx.le))
    · exact (h.border ht).trans (b23_mono (by linarith) h1)

theorem Vapour.down {p p' T : ℝ} (h : Vapour p T) (h0 : 0 < p') (h1 : p' ≤ p) : Vapour p' T :=
  ⟨h0, h1.trans h.p1, h.T0, h.T1, fun ht => h1.trans (h.sat ht), fun ht => h1.trans (h.border ht)⟩

end Kron

/-! ## Along isobars and isotherms -/

namespace Kron

theorem at1 {p T : ℝ} (h : Liquid p T) : gamma1.At (p / gamma1.ps) (gamma1.Ts / T) := by
  have hT : 0 < T := by linarith [h.T0]
  refine gamma1_at ?_ ?_
  · have := h.p1
    simp only [gamma1]
    intro h0
    have : p = 7.1 * 16.53 := by
      field_simp at h0; linarith
    norm_num at this; linarith
  · simp only [gamma1]
    have : 1386 / 623.2 ≤ 1386 / T := div_le_div_of_nonneg_left (by norm_num) hT h.T1
    norm_num at this ⊢
    intro h0; linarith

theorem at2 {p T : ℝ} (h : Vapour p T) : gamma2.At (p / gamma2.ps) (gamma2.Ts / T) := by
  have hT : 0 < T := by linarith [h.T0]
  have hp := h.p0
  refine gamma2_at ?_ ?_ ?_
  · simp [gamma2]; exact hp.ne'
  · simp only [gamma2]; positivity
  · simp only [gamma2]
    have : 540 / 1073.15 ≤ 540 / T := div_le_div_of_nonneg_left (by norm_num) hT h.T1
    norm_num at this ⊢
    intro h0; linarith

theorem stable2 {p T : ℝ} (h : Vapour p T) : gamma2.Stable (p / gamma2.ps) (gamma2.Ts / T) := by
  have := R2.stable h
  rw [← div_one p] at this
  exact this

theorem h1_lt {p T T' : ℝ} (h : Liquid p T) (h' : Liquid p T') (hT : T < T') : gamma1.h p T < gamma1.h p T' :=
  Gamma.lt_of_deriv (f := fun T => gamma1.h p T) hT
    (fun x a b => ((at1 (h.isobar h' a b)).gibbs (by norm_num [gamma1]) (by linarith [h.T0])).heat)
    (fun x a b => Gamma.cp_pos (R1.stable (h.isobar h' a b)).gtt (by norm_num [gamma1]) (by linarith [h.T0]))

theorem s1_lt {p T T' : ℝ} (h : Liquid p T) (h' : Liquid p T') (hT : T < T') : gamma1.s p T < gamma1.s p T' :=
  Gamma.lt_of_deriv (f := fun T => gamma1.s p T) hT
    (fun x a b => (at1 (h.isobar h' a b)).sT (by linarith [h.T0]))
    (fun x a b => div_pos (Gamma.cp_pos (R1.stable (h.isobar h' a b)).gtt (by norm_num [gamma1]) (by linarith [h.T0]))
      (by linarith [h.T0]))

theorem v1_lt {p p' T : ℝ} (h : Liquid p T) (h' : Liquid p' T) (hp : p < p') : gamma1.v p' T < gamma1.v p T := by
  have := Gamma.lt_of_deriv (f := fun p => -gamma1.v p T) hp
    (fun x a b => ((at1 (h.isotherm h' a b)).vp (by norm_num [gamma1])).neg)
    (fun x a b => neg_pos.2 (Gamma.vp_neg (R1.stable (h.isotherm h' a b)).gpp (by norm_num [gamma1]) (by linarith [h.T0])))
  linarith

theorem h2_lt {p T T' : ℝ} (h : Vapour p T) (h' : T' ≤ 1073.15) (hT : T < T') : gamma2.h p T < gamma2.h p T' :=
  Gamma.lt_of_deriv (f := fun T => gamma2.h p T) hT
    (fun x a b => ((at2 (h.up a (b.trans h'))).gibbs (by norm_num [gamma2]) (by linarith [h.T0])).heat)
    (fun x a b => Gamma.cp_pos (stable2 (h.up a (b.trans h'))).gtt (by norm_num [gamma2]) (by linarith [h.T0]))

theorem s2_lt {p T T' : ℝ} (h : Vapour p T) (h' : T' ≤ 1073.15) (hT : T < T') : gamma2.s p T < gamma2.s p T' :=
  Gamma.lt_of_deriv (f := fun T => gamma2.s p T) hT
    (fun x a b => (at2 (h.up a (b.trans h'))).sT (by linarith [h.T0]))
    (fun x a b => div_pos (Gamma.cp_pos (stable2 (h.up a (b.trans h'))).gtt (by norm_num [gamma2])
      (by linarith [h.T0])) (by linarith [h.T0]))

theorem v2_lt {p p' T : ℝ} (h : Vapour p' T) (h0 : 0 < p) (hp : p < p') : gamma2.v p' T < gamma2.v p T := by
  have := Gamma.lt_of_deriv (f := fun p => -gamma2.v p T) hp
    (fun x a b => ((at2 (h.down (h0.trans_le a) b)).vp (by norm_num [gamma2])).neg)
    (fun x a b => neg_pos.2 (Gamma.vp_neg (stable2 (h.down (h0.trans_le a) b)).gpp (by norm_num [gamma2])
      (by linarith [h.T0])))
  linarith

end Kron

theorem at5 {p T : ℝ} (hp : 0 < p) (hT : 0 < T) : gamma5.At (p / gamma5.ps) (gamma5.Ts / T) :=
  gamma5_at (by simp [gamma5]; exact hp.ne') (by simp only [gamma5]; positivity)

theorem stable5' {p T : ℝ} (h0 : 0 < p) (h1 : p ≤ 50) (h2 : 1073.15 ≤ T) (h3 : T ≤ 2273.15) :
    gamma5.Stable (p / gamma5.ps) (gamma5.Ts / T) := by
  have := stable5 h0 h1 h2 h3
  rw [← div_one p] at this
  exact this

theorem h5_lt {p T T' : ℝ} (h0 : 0 < p) (h1 : p ≤ 50) (h2 : 1073.15 ≤ T) (h3 : T' ≤ 2273.15) (hT : T < T') :
    gamma5.h p T < gamma5.h p T' :=
  Gamma.lt_of_deriv (f := fun T => gamma5.h p T) hT
    (fun x a b => ((at5 h0 (by linarith)).gibbs (by norm_num [gamma5]) (by linarith)).heat)
    (fun x a b => Gamma.cp_pos (stable5' h0 h1 (by linarith) (by linarith)).gtt (by norm_num [gamma5]) (by linarith))

theorem s5_lt {p T T' : ℝ} (h0 : 0 < p) (h1 : p ≤ 50) (h2 : 1073.15 ≤ T) (h3 : T' ≤ 2273.15) (hT : T < T') :
    gamma5.s p T < gamma5.s p T' :=
  Gamma.lt_of_deriv (f := fun T => gamma5.s p T) hT
    (fun x a b => (at5 h0 (by linarith)).sT (by linarith))
    (fun x a b => div_pos (Gamma.cp_pos (stable5' h0 h1 (by linarith) (by linarith)).gtt (by norm_num [gamma5])
      (by linarith)) (by linarith))

theorem v5_lt {p p' T : ℝ} (h0 : 0 < p) (h1 : p' ≤ 50) (h2 : 1073.15 ≤ T) (h3 : T ≤ 2273.15) (hp : p < p') :
    gamma5.v p' T < gamma5.v p T := by
  have := Gamma.lt_of_deriv (f := fun p => -gamma5.v p T) hp
    (fun x a b => ((at5 (by linarith) (by linarith)).vp (by norm_num [gamma5])).neg)
    (fun x a b => neg_pos.2 (Gamma.vp_neg (stable5' (by linarith) (by linarith) h2 h3).gpp (by norm_num [gamma5])
      (by linarith)))
  linarith

theorem si_lt {q : Quantity} (u : UnitSystem) {x y : ℝ} (h : x < y) : q.si u x < q.si u y := by
  simp only [Quantity.si]
  have := mul_lt_mul_of_pos_left h (q.scale_pos u)
  linarith

theorem user_lt {q : Quantity} (u : UnitSystem) {x y : ℝ} (h : x < y) : q.user u x < q.user u y := by
  simp only [Quantity.user]
  exact div_lt_div_of_pos_right (by linarith) (q.scale_pos u)

/-- C52: at constant pressure enthalpy and entropy rise strictly with temperature, in every unit system, as long as
both states are in the same one of the regions 1, 2 and 5 -/
theorem C52_isobar (u : UnitSystem) (k : ℤ) (p t t' : ℝ) (hk : k = 1 ∨ k = 2 ∨ k = 5) (ht : t < t')
    (hr : InRegion k (Quantity.p.si u p) (Quantity.T.si u t))
    (hr' : InRegion k (Quantity.p.si u p) (Quantity.T.si u t')) :
    ∃ h h' s s' : ℝ, XSteam.h_pt .ideal u (.fin p) (.fin t) = pure (.fin h) ∧
      XSteam.h_pt .ideal u (.fin p) (.fin t') = pure (.fin h') ∧ h < h' ∧
      XSteam.s_pt .ideal u (.fin p) (.fin t) = pure (.fin s) ∧
      XSteam.s_pt .ideal u (.fin p) (.fin t') = pure (.fin s') ∧ s < s' := by
  obtain ⟨-, a, b, -⟩ := kernels_of_region hk hr
  obtain ⟨-, a', b', -⟩ := kernels_of_region hk hr'
  have hT := si_lt (q := .T) u ht
  refine ⟨_, _, _, _, a, a', user_lt u ?_, b, b', user_lt u ?_⟩
  all_goals rcases hk with rfl | rfl | rfl
  · exact Kron.h1_lt (liquid_of_region1 hr) (liquid_of_region1 hr') hT
  · exact Kron.h2_lt (vapour_of_region2 hr) (vapour_of_region2 hr').T1 hT
  · obtain ⟨a, b, c, d⟩ := hot_of_region5 hr
    obtain ⟨a', b', c', d'⟩ := hot_of_region5 hr'
    exact h5_lt (by linarith) d.le a.le b'.le hT
  · exact Kron.s1_lt (liquid_of_region1 hr) (liquid_of_region1 hr') hT
  · exact Kron.s2_lt (vapour_of_region2 hr) (vapour_of_region2 hr').T1 hT
  · obtain ⟨a, b, c, d⟩ := hot_of_region5 hr
    obtain ⟨a', b', c', d'⟩ := hot_of_region5 hr'
    exact s5_lt (by linarith) d.le a.le b'.le hT

/-- C52: at constant temperature the specific volume falls strictly with pressure, in every unit system, as long as
both states are in the same one of the regions 1, 2 and 5 -/
theorem C52_isotherm (u : UnitSystem) (k : ℤ) (p p' t : ℝ) (hk : k = 1 ∨ k = 2 ∨ k = 5) (hp : p < p')
    (hr : InRegion k (Quantity.p.si u p) (Quantity.T.si u t))
    (hr' : InRegion k (Quantity.p.si u p') (Quantity.T.si u t)) :
    ∃ v v' : ℝ, XSteam.v_pt .ideal u (.fin p) (.fin t) = pure (.fin v) ∧
      XSteam.v_pt .ideal u (.fin p') (.fin t) = pure (.fin v') ∧ v' < v := by
  obtain ⟨a, -⟩ := kernels_of_region hk hr
  obtain ⟨a', -⟩ := kernels_of_region hk hr'
  have hP := si_lt (q := .p) u hp
  refine ⟨_, _, a, a', user_lt u ?_⟩
  rcases hk with rfl | rfl | rfl
  · exact Kron.v1_lt (liquid_of_region1 hr) (liquid_of_region1 hr') hP
  · exact Kron.v2_lt (vapour_of_region2 hr') (vapour_of_region2 hr).p0 hP
  · obtain ⟨a, b, c, d⟩ := hot_of_region5 hr
    obtain ⟨a', b', c', d'⟩ := hot_of_region5 hr'
    exact v5_lt (by linarith) d'.le a.le b.le hP

theorem region1_wide {p T : ℝ} (h0 : 17 ≤ p) (h1 : p ≤ 100) (h2 : 273.15 < T) (h3 : T ≤ 623.15) : InRegion 1 p T := by
  have h := theta_box (T := T) (by linarith) (by linarith)
  have hs := psat_sat h.1 h.2.1 h.2.2
  have h4 : psat T ≤ 16.53 := (Kron.psat_mono' (by linarith) h3 (by norm_num)).trans Kron.psat_350
  refine .inr (.inr (.inl ⟨rfl, ⟨?_, ?_, ?_, ?_⟩, h3, ?_, psat T, hs, by linarith⟩)) <;> try linarith
  rw [saturated_iff (by linarith) (by linarith), abs_of_nonneg (by linarith)]
  norm_num
  linarith

theorem si_bare (q : Quantity) (x : ℝ) : q.si .bare x = x := by
  cases q <;> norm_num [Quantity.si, Quantity.scale, Quantity.offset]

/-- 400 K and 500 K at 50 MPa meet the hypotheses -/
example : ∃ h h' s s' : ℝ, XSteam.h_pt .ideal .bare (.fin 50) (.fin 400) = pure (.fin h) ∧
      XSteam.h_pt .ideal .bare (.fin 50) (.fin 500) = pure (.fin h') ∧ h < h' ∧
      XSteam.s_pt .ideal .bare (.fin 50) (.fin 400) = pure (.fin s) ∧
      XSteam.s_pt .ideal .bare (.fin 50) (.fin 500) = pure (.fin s') ∧ s < s' :=
  C52_isobar .bare 1 50 400 500 (.inl rfl) (by norm_num)
    (by rw [si_bare, si_bare]; exact region1_wide (by norm_num) (by norm_num) (by norm_num) (by norm_num))
    (by rw [si_bare, si_bare]; exact region1_wide (by norm_num) (by norm_num) (by norm_num) (by norm_num))

/-- 1 MPa and 2 MPa at 1200 K meet the hypotheses -/
example : ∃ v v' : ℝ, XSteam.v_pt .ideal .bare (.fin 1) (.fin 1200) = pure (.fin v) ∧
      XSteam.v_pt .ideal .bare (.fin 2) (.fin 1200) = pure (.fin v') ∧ v' < v :=
  C52_isotherm .bare 5 1 2 1200 (.inr (.inr rfl)) (by norm_num)
    (by rw [si_bare, si_bare]; exact region5_point)
    (by rw [si_bare, si_bare]; exact .inr (.inl ⟨rfl, by norm_num [Hot]⟩))

end PyX
