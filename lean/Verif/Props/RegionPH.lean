import Verif.Props.Phases
import Verif.Props.Dispatch
import Verif.Props.RegionCodes
import Verif.Spec.RegionPH

/-!
# C53: `region_ph` classifies by the enthalpies at the boundaries, and agrees with `region_pT`

Below region 3 the estimates of the code for the enthalpies of saturated liquid and steam never change the result:
for every enthalpy the region number is the one given by the exact enthalpies at 273.15 K, at saturation, at 1073.15 K
and at 2273.15 K. At the enthalpy of a state of region 1, 2 or 5 given by (p, T), `region_ph` returns that region.
-/

namespace PyX

open Classical Py Num Spec.Sat Spec.PT Spec.IF97 Kron

variable {p T : ℝ}

theorem dom1_of_liquid (h0 : 0 < p) (h : Liquid p T) : Dom1 p T := by
  have hT : 0 < T := by linarith [h.T0]
  refine ⟨h0.ne', hT.ne', ?_, (by linarith [B1.y_pos h] : (0 : ℝ) < 1386 / T - 1.222).ne'⟩
  have : p / 16.53 ≤ 100 / 16.53 := div_le_div_of_nonneg_right h.p1 (by norm_num)
  norm_num at this ⊢
  intro h'; linarith

theorem dom2_of_vapour (h : Vapour p T) : Dom2 p T := by
  have hT : 0 < T := by linarith [h.T0]
  refine ⟨h.p0, hT.ne', ?_⟩
  have := B2.y_pos h
  norm_num at this ⊢
  intro h'; linarith

private theorem e1 : FP.ideal.lit 0.000611657 = .fin 0.000611657 := by rw [lit_ideal]; norm_num
private theorem e2 : Num.ofInt 100 = .fin 100 := by rw [ofInt_eq]; norm_num
private theorem e3 : FP.ideal.lit 0.963 = .fin 0.963 := by rw [lit_ideal]; norm_num
private theorem e4 : FP.ideal.lit 2.2 = .fin 2.2 := by rw [lit_ideal]; norm_num
private theorem e5 : FP.ideal.lit 273.15 = .fin 273.15 := by rw [lit_ideal]; norm_num
private theorem e6 : FP.ideal.lit 16.5292 = .fin 16.5292 := by rw [lit_ideal]; norm_num
private theorem e7 : FP.ideal.lit 109.6635 = .fin 109.6635 := by rw [lit_ideal]; norm_num
private theorem e8 : FP.ideal.lit 40.3481 = .fin 40.3481 := by rw [lit_ideal]; norm_num
private theorem e9 : FP.ideal.lit 734.58 = .fin 734.58 := by rw [lit_ideal]; norm_num
private theorem e10 : FP.ideal.lit 45.1768 = .fin 45.1768 := by rw [lit_ideal]; norm_num
private theorem e11 : FP.ideal.lit 20.158 = .fin 20.158 := by rw [lit_ideal]; norm_num
private theorem e12 : FP.ideal.lit 2804.4 = .fin 2804.4 := by rw [lit_ideal]; norm_num
private theorem e13 : Num.ofInt 50 = .fin 50 := by rw [ofInt_eq]; norm_num
private theorem e14 : Num.ofInt 4000 = .fin 4000 := by rw [ofInt_eq]; norm_num
private theorem e15 : Num.ofInt 10 = .fin 10 := by rw [ofInt_eq]; norm_num
private theorem e16 : FP.ideal.lit 1073.15 = .fin 1073.15 := by rw [lit_ideal]; norm_num
private theorem e17 : FP.ideal.lit 2273.15 = .fin 2273.15 := by rw [lit_ideal]; norm_num
private theorem e20 : FP.ideal.lit 22.064 = .fin 22.064 := by rw [lit_ideal]; norm_num
private theorem e21 : Num.ofInt 0 = .fin 0 := by rw [ofInt_eq]; norm_num
private theorem e22 : Num.ofInt 1 = .fin 1 := by rw [ofInt_eq]; norm_num
private theorem e18 : FP.ideal.lit 623.15 = .fin 623.15 := by rw [lit_ideal]; norm_num

theorem out_pure {α : Type} (a : α) : (pure a : Py α).out = .ok a := rfl

theorem out_warn {α : Type} (m : String) (f : Unit → Py α) : (warn m >>= f).out = (f ()).out := out_eq rfl

/-- an estimate used only at a distance gives the same decision -/
theorem est_le {α : Type} {h k H d : ℝ} (a b : α) (h1 : k - d < H) (h2 : H < k + d) :
    (if |h - k| < d then if h ≤ H then a else b else if h ≤ k then a else b) = if h ≤ H then a else b := by
  split
  · rfl
  · rename_i hc
    rw [not_lt, le_abs] at hc
    by_cases hh : h ≤ H
    · rw [if_pos hh, if_pos]
      rcases hc with hc | hc <;> linarith
    · rw [if_neg hh, if_neg]
      rcases hc with hc | hc <;> linarith

theorem est_lt {α : Type} {h k H d : ℝ} (a b : α) (h1 : k - d < H) (h2 : H < k + d) :
    (if |h - k| < d then if h < H then a else b else if h < k then a else b) = if h < H then a else b := by
  split
  · rfl
  · rename_i hc
    rw [not_lt, le_abs] at hc
    by_cases hh : h < H
    · rw [if_pos hh, if_pos]
      rcases hc with hc | hc <;> linarith
    · rw [if_neg hh, if_neg]
      rcases hc with hc | hc <;> linarith

theorem region_ph_low (h0 : 0.000611657 < p) (h1 : p ≤ 16.5291) (h : ℝ) :
    (RegionSelection.region_ph .ideal (.fin p) (.fin h)).out = .ok (Spec.PH.region p h (gamma1.h p 273.15)
      (gamma1.h p (tsat p)) (gamma2.h p (tsat p)) (gamma2.h p 1073.15) (gamma5.h p 2273.15)) := by
  have hp : 0 < p := by linarith
  have q1 := h1_pT_eq (dom1_of_liquid hp (liquid_273 h0 (by linarith)))
  have q2 := T4_p_eq h0 (by linarith)
  have q3 := h1_pT_eq (dom1_of_liquid hp (liquid_sat h0 (by linarith)))
  have q4 := h2_pT_eq (dom2_of_vapour (vapour_sat h0 h1))
  have q5 := h2_pT_eq (dom2_of_vapour (vapour_1073 hp (by linarith)))
  have q6 := h5_pT_eq (p := p) (T := 2273.15) ⟨hp, by norm_num⟩
  have a1 := h1_273_lt h0 (by linarith)
  have a2 := hL_fit h0 (by linarith)
  have a3 := hL_fit' h0 (by linarith)
  have a4 := hV_fit h0 h1
  have a5 := hV_fit' h0 h1
  have a6 := h2_1073_gt hp (by linarith)
  have a7 : gamma1.h p 273.15 ≤ gamma1.h p (tsat p) := h1_le (liquid_273 h0 (by linarith)) (liquid_sat h0 (by linarith)) (liquid_sat h0 (by linarith)).T0
  have hrest : ¬ h < gamma1.h p 273.15 → (RegionSelection.region_ph.rest .ideal (.fin p) (.fin h)).out = .ok (Spec.PH.region p h (gamma1.h p 273.15)
      (gamma1.h p (tsat p)) (gamma2.h p (tsat p)) (gamma2.h p 1073.15) (gamma5.h p 2273.15)) := by
    intro hh
    unfold RegionSelection.region_ph.rest
    simp only [e2, e6, e7, e8, e9, e10, e11, e12, e13, e14, e15, e16, e17, fin_lt, gt_num, fin_le, q2, q3, q4, q5, q6, pure_bind, log_ideal hp,
      mul_ideal, add_ideal, sub_ideal, Num.fabs]
    rw [if_pos (by linarith : p < 16.5292)]
    unfold Spec.PH.region
    rw [if_neg hh]
    rw [est_le (k := 109.6635 * Real.log p + 40.3481 * p + 734.58) _ _ (by linarith) (by linarith),
      est_lt (k := 45.1768 * Real.log p - 20.158 * p + 2804.4) _ _ (by linarith) (by linarith)]
    by_cases c1 : h ≤ gamma1.h p (tsat p)
    · simp [c1, out_pure]
    by_cases c2 : h < gamma2.h p (tsat p)
    · simp [c1, c2, out_pure]
    by_cases c3 : h ≤ gamma2.h p 1073.15
    · simp [c1, c2, c3, out_pure]
    · have c4 : ¬ h < 4000 := by intro h; exact c3 (by linarith)
      rw [if_neg c1, if_neg c2, if_neg c4, if_neg c3, if_neg c1, if_neg c2, if_neg c3]
      by_cases c5 : p ≤ 10
      · rw [if_neg (not_lt.2 c5)]
        by_cases c6 : h < gamma5.h p 2273.15
        · simp [c5, c6, out_pure]
        · rw [if_neg c6, out_warn]
          simp [c6, out_pure]
      · rw [if_pos (not_le.1 c5), out_warn]
        simp [c5, out_pure]
  unfold RegionSelection.region_ph
  simp only [e1, e2, e3, e4, e5, fin_lt, gt_num, mul_ideal, add_ideal, q1, pure_bind]
  rw [if_neg (by push Not; constructor <;> linarith)]
  by_cases hh : h < gamma1.h p 273.15
  · rw [if_pos (by linarith), if_pos hh, out_warn]
    simp [Spec.PH.region, hh, out_pure]
  · rw [if_neg hh, ite_self]
    exact hrest hh

/-- C53: below region 3 `region_ph` is the comparison of the enthalpy with the exact enthalpies at 273.15 K, at saturation,
at 1073.15 K and at 2273.15 K, which are in this order -/
theorem C53_exact (p : ℝ) (h0 : 0.000611657 < p) (h1 : p ≤ 16.5291) :
    ∃ ts hF hL hV h2 h5 : ℝ, Region4.T4_p .ideal (.fin p) = pure (.fin ts) ∧
      Region1.h1_pT .ideal (.fin p) (.fin 273.15) = pure (.fin hF) ∧
      Region1.h1_pT .ideal (.fin p) (.fin ts) = pure (.fin hL) ∧
      Region2.h2_pT .ideal (.fin p) (.fin ts) = pure (.fin hV) ∧
      Region2.h2_pT .ideal (.fin p) (.fin 1073.15) = pure (.fin h2) ∧
      Region5.h5_pT .ideal (.fin p) (.fin 2273.15) = pure (.fin h5) ∧
      hF < hL ∧ hL < 2000 ∧ 2000 < hV ∧ hV < h2 ∧ (p ≤ 10 → h2 < h5) ∧
      ∀ h : ℝ, (RegionSelection.region_ph .ideal (.fin p) (.fin h)).out = .ok (Spec.PH.region p h hF hL hV h2 h5) := by
  have hp : 0 < p := by linarith
  have l0 := liquid_273 h0 (by linarith)
  have l1 := liquid_sat h0 (by linarith)
  have v0 := vapour_sat h0 h1
  have v1 := vapour_1073 hp (by linarith)
  have ts1 : tsat p < 623.15 := tsat_lt h0 (by linarith) (by norm_num) (h1.trans_lt psat_62315)
  refine ⟨tsat p, _, _, _, _, _, T4_p_eq h0 (by linarith), h1_pT_eq (dom1_of_liquid hp l0), h1_pT_eq (dom1_of_liquid hp l1),
    h2_pT_eq (dom2_of_vapour v0), h2_pT_eq (dom2_of_vapour v1), h5_pT_eq ⟨hp, by norm_num⟩, ?_, (liquid_low l1 ts1.le h0).1,
    (vapour_high v0 h0).1, h2_lt v0 v1.T1 (by linarith), fun h => ?_, region_ph_low h0 h1⟩
  · refine h1_lt l0 l1 ?_
    by_contra hc
    have := psat_mono' (by linarith [l1.T0]) (not_lt.1 hc) (by norm_num)
    rw [psat_tsat h0 (by linarith)] at this
    linarith [psat_273]
  · exact (h25 hp h).trans (h5_lt hp (by linarith) (by norm_num) (by norm_num) (by norm_num))

/-- 1 MPa meets the hypotheses -/
example : ∃ hF hL hV h2 h5 : ℝ, hF < hL ∧ hL < hV ∧ hV < h2 ∧ h2 < h5 ∧
    ∀ h : ℝ, (RegionSelection.region_ph .ideal (.fin 1) (.fin h)).out = .ok (Spec.PH.region 1 h hF hL hV h2 h5) := by
  obtain ⟨_, a, b, c, d, e, -, -, -, -, -, -, h1, h2, h3, h4, h5, h6⟩ := C53_exact 1 (by norm_num) (by norm_num)
  exact ⟨a, b, c, d, e, h1, h2.trans h3, h4, h5 (by norm_num), h6⟩

/-! ## Agreement with (p, T) -/

theorem region_ph_gate (h0 : 0.000611657 < p) (h1 : p ≤ 100) {h : ℝ} (hh : gamma1.h p 273.15 ≤ h) :
    RegionSelection.region_ph .ideal (.fin p) (.fin h) = RegionSelection.region_ph.rest .ideal (.fin p) (.fin h) := by
  have q1 := h1_pT_eq (dom1_of_liquid (by linarith) (liquid_273 h0 h1))
  unfold RegionSelection.region_ph
  simp only [e1, e2, e3, e4, e5, fin_lt, gt_num, mul_ideal, add_ideal, q1, pure_bind]
  rw [if_neg (by push Not; constructor <;> linarith), if_neg (not_lt.2 hh), ite_self]

theorem region_ph_liquid (hv : Liquid p T) (h0 : 0.000611657 < p) (hT : T ≤ 623.15) (hc : p < 16.5292 ∨ T < 623.15) :
    (RegionSelection.region_ph .ideal (.fin p) (.fin (gamma1.h p T))).out = .ok 1 := by
  have hp : 0 < p := by linarith
  rw [region_ph_gate h0 hv.p1 (h1_le (liquid_273 h0 hv.p1) hv hv.T0)]
  unfold RegionSelection.region_ph.rest
  rcases lt_or_ge p 16.5292 with hp1 | hp1
  · obtain ⟨d1, d2⟩ := dom_sat h0 (by linarith : p < 22.06395)
    have a2 := hL_fit h0 hp1
    have a3 := hL_fit' h0 hp1
    simp only [e2, e6, e7, e8, e9, e10, e11, e12, e13, e14, e15, e16, e17, fin_lt, gt_num, fin_le, T4_p_eq h0 (by linarith : p < 22.06395),
      h1_pT_eq d1, h2_pT_eq d2, pure_bind, log_ideal hp, mul_ideal, add_ideal, sub_ideal, Num.fabs]
    rw [if_pos hp1, est_le (k := 109.6635 * Real.log p + 40.3481 * p + 734.58) _ _ (by linarith) (by linarith), if_pos]
    · rfl
    · exact h1_le hv (liquid_sat h0 hp1) (tsat_ge h0 (by linarith) hv.sat (by linarith))
  · have l := liquid_623 hp1 hv.p1
    have hT' : T < 623.15 := by
      rcases hc with h | h
      · linarith
      · exact h
    simp only [e6, e18, fin_lt, h1_pT_eq (dom1_of_liquid hp l), pure_bind]
    rw [if_neg (not_lt.2 hp1), if_pos (h1_lt hv l hT')]
    rfl

theorem region_ph_rest_high (hp1 : 16.5292 ≤ p) (hp2 : p ≤ 100) (h : ℝ) :
    RegionSelection.region_ph.rest .ideal (.fin p) (.fin h) =
      if h < gamma1.h p 623.15 then pure 1 else if h < gamma2.h p (b23T p) then
        RegionBorders.p3sat_h .ideal (.fin h) >>= fun q => if q < .fin p then pure 3 else pure 4
      else if h < gamma2.h p 1073.15 then pure 2 else warn "Preasure outside valid area" >>= fun _ => pure 0 := by
  have hp : 0 < p := by linarith
  have b : RegionBorders.B23T_p .ideal (.fin p) = pure (.fin (b23T p)) := B23T_p_eq (by linarith)
  unfold RegionSelection.region_ph.rest
  simp only [e6, e16, e18, fin_lt, gt_num, h1_pT_eq (dom1_of_liquid hp (liquid_623 hp1 hp2)), b, h2_pT_eq (dom2_of_vapour (vapour_b23T hp1 hp2)),
    h2_pT_eq (dom2_of_vapour (vapour_1073 hp hp2)), pure_bind]
  rw [if_neg (not_lt.2 hp1)]

theorem region_ph_vapour (hv : Vapour p T) (h0 : 0.000611657 < p)
    (hc : p ≤ 16.5291 ∨ 16.5292 ≤ p ∧ T < 1073.15 ∧ p + 1e-10 ≤ b23 T) (hT : 623.15 < T ∨ p ≤ 16.5291) :
    (RegionSelection.region_ph .ideal (.fin p) (.fin (gamma2.h p T))).out = .ok 2 := by
  have hh := (vapour_high hv h0).1
  rcases hc with hc | ⟨c1, c2, c3⟩
  · obtain ⟨ts, hF, hL, hV, h2, h5, t1, -, -, t2, t3, -, o1, o2, o3, o4, -, H⟩ := C53_exact p h0 hc
    rw [T4_p_eq h0 (by linarith)] at t1
    cases t1
    have v0 := vapour_sat h0 hc
    rw [h2_pT_eq (dom2_of_vapour v0)] at t2
    rw [h2_pT_eq (dom2_of_vapour (vapour_1073 hv.p0 hv.p1))] at t3
    cases t2
    cases t3
    have hT' : tsat p ≤ T := by
      rcases le_or_gt T 623.15 with hT | hT
      · exact tsat_le h0 (by linarith) (by linarith [hv.T0]) (hv.sat hT)
      · exact (tsat_lt h0 (by linarith) (by norm_num) (hc.trans_lt psat_62315)).le.trans hT.le
    rw [H, Spec.PH.region, if_neg (by linarith), if_neg (by linarith), if_neg (not_lt.2 (h2_le v0 hv.T1 hT')), if_pos (h2_le hv le_rfl hv.T1)]
  · have hT1 : 623.15 < T := by
      rcases hT with h | h
      · exact h
      · linarith
    have l := liquid_low (liquid_623 c1 hv.p1) le_rfl h0
    have l2 := liquid_low (liquid_273 h0 hv.p1) (by norm_num) h0
    rw [region_ph_gate h0 hv.p1 (by linarith), region_ph_rest_high c1 hv.p1, if_neg (by linarith),
      if_neg (not_lt.2 (h2_le (vapour_b23T c1 hv.p1) hv.T1 (b23T_lt c1 hv.p1 (by linarith) c3).le)), if_pos (h2_lt hv le_rfl c2)]
    rfl

theorem region_ph_hot (h0 : 0.000611657 < p) (h1 : p ≤ 10) (h2 : 1073.2 ≤ T) (h3 : T < 2273.15) :
    (RegionSelection.region_ph .ideal (.fin p) (.fin (gamma5.h p T))).out = .ok 5 := by
  have hp : 0 < p := by linarith
  obtain ⟨ts, hF, hL, hV, g2, g5, -, -, -, -, t3, t4, o1, o2, o3, o4, -, H⟩ := C53_exact p h0 (by linarith)
  rw [h2_pT_eq (dom2_of_vapour (vapour_1073 hp (by linarith)))] at t3
  rw [h5_pT_eq ⟨hp, by norm_num⟩] at t4
  cases t3
  cases t4
  have a : gamma5.h p 1073.2 ≤ gamma5.h p T := by
    rcases h2.eq_or_lt with rfl | h
    · exact le_rfl
    · exact (h5_lt hp (by linarith) (by norm_num) h3.le h).le
  have b := h25 hp h1
  rw [H, Spec.PH.region, if_neg (by linarith), if_neg (by linarith), if_neg (by linarith), if_neg (by linarith), if_pos]
  exact ⟨h1, h5_lt hp (by linarith) (by linarith) le_rfl h3⟩

theorem region_ph_agree {k : ℤ} (hr : InRegion k p T) (hc : Spec.PH.Clear b23 k p T) :
    (RegionSelection.region_ph .ideal (.fin p) (.fin ((gammaOf k).h p T))).out = .ok k := by
  obtain ⟨h0, ⟨rfl, hc⟩ | ⟨rfl, hc⟩ | ⟨rfl, hc⟩⟩ := hc
  · have hT : T ≤ 623.15 := by
      rcases hr with ⟨h, _⟩ | ⟨h, _⟩ | ⟨_, h⟩ | ⟨h, _⟩ | ⟨h, _⟩ | ⟨h, _⟩ | ⟨h, _⟩ | ⟨h, _⟩
      iterate 2 exact absurd h (by norm_num)
      · exact h.2.1
      all_goals exact absurd h (by norm_num)
    exact region_ph_liquid (liquid_of_region1 hr) h0 hT hc
  · refine region_ph_vapour (vapour_of_region2 hr) h0 hc ?_
    rcases hc with hc | ⟨c1, c2, c3⟩
    · exact .inr hc
    · left
      by_contra hT
      rw [not_lt] at hT
      have v := vapour_of_region2 hr
      have := psat_mono' (by linarith [v.T0]) hT (by norm_num)
      have h3 : b23 623.15 < 16.5292 := by norm_num [b23]
      linarith [v.sat hT, psat_b23]
  · have h := hot_of_region5 hr
    exact region_ph_hot h0 hc.1 hc.2 h.2.1

/-- C53: in every unit system, at the enthalpy of a state of region 1, 2 or 5 given by pressure and temperature the
classification by pressure and enthalpy returns the same region -/
theorem C53_agrees (u : UnitSystem) (p t : ℝ) (k : ℤ)
    (hr : (RegionSelection.region_pT .ideal (.fin (Quantity.p.si u p)) (.fin (Quantity.T.si u t))).out = .ok k)
    (hc : Spec.PH.Clear b23 k (Quantity.p.si u p) (Quantity.T.si u t)) :
    ∃ h, XSteam.h_pt .ideal u (.fin p) (.fin t) = pure (.fin h) ∧
      (RegionSelection.region_ph .ideal (.fin (Quantity.p.si u p)) (.fin (Quantity.h.si u h))).out = .ok k := by
  have hr := (C07_iff _ _ _).1 hr
  have hk : k = 1 ∨ k = 2 ∨ k = 5 := by
    rcases hc.2 with ⟨h, _⟩ | ⟨h, _⟩ | ⟨h, _⟩ <;> simp [h]
  refine ⟨_, (kernels_of_region hk hr).2.1, ?_⟩
  rw [Quantity.si_user]
  exact region_ph_agree hr hc

/-- 50 MPa and 400 K, 10 MPa and 900 K, 30 MPa and 900 K, 1 MPa and 1200 K meet the hypotheses -/
example : (∃ h, XSteam.h_pt .ideal .bare (.fin 50) (.fin 400) = pure (.fin h) ∧
      (RegionSelection.region_ph .ideal (.fin 50) (.fin h)).out = .ok 1) ∧
    (∃ h, XSteam.h_pt .ideal .bare (.fin 10) (.fin 900) = pure (.fin h) ∧
      (RegionSelection.region_ph .ideal (.fin 10) (.fin h)).out = .ok 2) ∧
    (∃ h, XSteam.h_pt .ideal .bare (.fin 30) (.fin 900) = pure (.fin h) ∧
      (RegionSelection.region_ph .ideal (.fin 30) (.fin h)).out = .ok 2) ∧
    ∃ h, XSteam.h_pt .ideal .bare (.fin 1) (.fin 1200) = pure (.fin h) ∧
      (RegionSelection.region_ph .ideal (.fin 1) (.fin h)).out = .ok 5 := by
  have r4 : InRegion 2 30 900 := .inr (.inr (.inr (.inr (.inl ⟨rfl, by norm_num [Box], by norm_num, by norm_num [b23]⟩))))
  have a := C53_agrees .bare 50 400 1
  have b := C53_agrees .bare 10 900 2
  have c := C53_agrees .bare 30 900 2
  have d := C53_agrees .bare 1 1200 5
  simp only [Quantity.si, Quantity.scale, Quantity.offset] at a b c d
  norm_num at a b c d
  exact ⟨a ((C07_iff _ _ _).2 region1_point) (by norm_num [Spec.PH.Clear]), b ((C07_iff _ _ _).2 region2_point) (by norm_num [Spec.PH.Clear]),
    c ((C07_iff _ _ _).2 r4) (by norm_num [Spec.PH.Clear, b23]), d ((C07_iff _ _ _).2 region5_point) (by norm_num [Spec.PH.Clear])⟩

/-! ## Wet steam -/

/-- C53: below region 3 the enthalpy of wet steam is classified as region 4 -/
theorem C53_wet (u : UnitSystem) (p x : ℝ) (h0 : 0.000611657 < Quantity.p.si u p) (h1 : Quantity.p.si u p < 16.529) (x0 : 0 < x) (x1 : x < 1) :
    ∃ h, XSteam.h_px .ideal u (.fin p) (.fin x) = pure (.fin h) ∧
      (RegionSelection.region_ph .ideal (.fin (Quantity.p.si u p)) (.fin (Quantity.h.si u h))).out = .ok 4 := by
  have hg : ¬ (1 < x ∨ x < 0 ∨ 22.064 ≤ Quantity.p.si u p) := by
    rintro (h | h | h) <;> linarith
  obtain ⟨ts, hF, hL, hV, h2, h5, t1, -, t2, t3, -, -, o1, o2, o3, o4, -, H⟩ := C53_exact _ h0 (by linarith)
  rw [T4_p_eq h0 (by linarith)] at t1
  cases t1
  rw [h1_pT_eq (dom_sat h0 (by linarith)).1] at t2
  rw [h2_pT_eq (dom_sat h0 (by linarith)).2] at t3
  cases t2
  cases t3
  refine ⟨Quantity.h.user u (gamma1.h (Quantity.p.si u p) (tsat (Quantity.p.si u p)) + x * (gamma2.h (Quantity.p.si u p) (tsat (Quantity.p.si u p)) - gamma1.h (Quantity.p.si u p) (tsat (Quantity.p.si u p)))), ?_, ?_⟩
  · unfold XSteam.h_px
    simp only [si, pure_bind, e20, gt_num, fin_lt, h4L_p_low h0 h1, h4V_p_low h0 h1,
      x_ok x0.le x1.le, ge_num, e21, e22, fin_le, if_neg hg, sub_ideal, mul_ideal, add_ideal]
  · rw [Quantity.si_user, H, Spec.PH.region, if_neg (by nlinarith), if_neg (by nlinarith), if_pos (by nlinarith)]

/-- wet steam at 1 bar -/
example : ∃ h, XSteam.h_px .ideal .mks (.fin 1) (.fin 0.5) = pure (.fin h) ∧
    (RegionSelection.region_ph .ideal (.fin (Quantity.p.si .mks 1)) (.fin (Quantity.h.si .mks h))).out = .ok 4 :=
  C53_wet .mks 1 0.5 (by norm_num [Quantity.si, Quantity.scale, Quantity.offset]) (by norm_num [Quantity.si, Quantity.scale, Quantity.offset])
    (by norm_num) (by norm_num)

/-! ## The states excluded above -/

/-- C53: on the isotherm 623.15 K above the lower end of region 3 the two classifications differ -/
theorem C53_isotherm_623 (p : ℝ) (h0 : 16.5292 ≤ p) (h1 : p ≤ 100) :
    (RegionSelection.region_pT .ideal (.fin p) (.fin 623.15)).out = .ok 1 ∧
    ∃ h, XSteam.h_pt .ideal .bare (.fin p) (.fin 623.15) = pure (.fin h) ∧
      (RegionSelection.region_ph .ideal (.fin p) (.fin h)).out ≠ .ok 1 := by
  have l := liquid_623 h0 h1
  have ps := psat_b23
  have h3 : b23 623.15 < 16.52918 := by norm_num [b23]
  have r : InRegion 1 p 623.15 := by
    have h := theta_box (T := 623.15) (by norm_num) (by norm_num)
    have hs := psat_sat h.1 h.2.1 h.2.2
    refine .inr (.inr (.inl ⟨rfl, ?_, le_rfl, ?_, psat 623.15, hs, by linarith⟩))
    · norm_num [Box]; constructor <;> linarith
    · rw [saturated_iff (by norm_num) (by norm_num), abs_of_nonneg (by linarith)]
      norm_num
      linarith
  have k := (kernels_of_region (u := .bare) (p := p) (t := 623.15) (.inl rfl) (by simpa [Quantity.si, Quantity.scale, Quantity.offset] using r)).2.1
  simp only [Quantity.si, Quantity.user, Quantity.scale, Quantity.offset, sub_zero, one_mul, div_one, add_zero] at k
  refine ⟨(C07_iff _ _ _).2 r, _, k, ?_⟩
  have h00 : 0.000611657 < p := by linarith
  have l2 := liquid_low l le_rfl h00
  have h3 := vapour_high (vapour_b23T h0 h1) h00
  have e : gammaOf 1 = gamma1 := rfl
  rw [e, region_ph_gate h00 h1 (h1_le (liquid_273 h00 h1) l l.T0), region_ph_rest_high h0 h1, if_neg (lt_irrefl _), if_pos (by linarith)]
  intro hc
  obtain ⟨_, q, -, hq⟩ := out_bind hc
  split at hq <;> cases hq

/-- C53: on the isotherm 1073.15 K above the lower end of region 3 the two classifications differ -/
theorem C53_isotherm_1073 (p : ℝ) (h0 : 16.5292 ≤ p) (h1 : p ≤ 100) :
    (RegionSelection.region_pT .ideal (.fin p) (.fin 1073.15)).out = .ok 2 ∧
    ∃ h, XSteam.h_pt .ideal .bare (.fin p) (.fin 1073.15) = pure (.fin h) ∧
      (RegionSelection.region_ph .ideal (.fin p) (.fin h)).out = .ok 0 := by
  have v := vapour_1073 (by linarith : 0 < p) h1
  have r : InRegion 2 p 1073.15 := .inr (.inr (.inr (.inr (.inl ⟨rfl, by norm_num [Box]; constructor <;> linarith, by norm_num, v.border (by norm_num)⟩))))
  have k := (kernels_of_region (u := .bare) (p := p) (t := 1073.15) (.inr (.inl rfl)) (by simpa [Quantity.si, Quantity.scale, Quantity.offset] using r)).2.1
  simp only [Quantity.si, Quantity.user, Quantity.scale, Quantity.offset, sub_zero, one_mul, div_one, add_zero] at k
  refine ⟨(C07_iff _ _ _).2 r, _, k, ?_⟩
  have h00 : 0.000611657 < p := by linarith
  have l := liquid_low (liquid_623 h0 h1) le_rfl h00
  have l2 := liquid_low (liquid_273 h00 h1) (by norm_num) h00
  have h3 := vapour_high v h00
  obtain ⟨b1, b2⟩ := b23T_range h0 h1
  have e : gammaOf 2 = gamma2 := rfl
  rw [e, region_ph_gate h00 h1 (by linarith), region_ph_rest_high h0 h1, if_neg (by linarith),
    if_neg (not_lt.2 (h2_le (vapour_b23T h0 h1) le_rfl (by linarith))), if_neg (lt_irrefl _), out_warn]
  rfl

/-- C53: for every arithmetic `region_ph` never returns region 5 above 10 MPa, whereas `region_pT` does up to 50 MPa -/
theorem C53_no_region5 (F : FP) (p h : Num) (hp : p > Num.ofInt 10) : (RegionSelection.region_ph F p h).out ≠ .ok 5 :=
  fun h => ((C08_region_ph F p _ 5 h).2.2.2.2 rfl).2 hp

/-- 20 MPa and 1200 K: region 5 for `region_pT` -/
example : (RegionSelection.region_pT .ideal (.fin 20) (.fin 1200)).out = .ok 5 ∧
    ∀ h : ℝ, (RegionSelection.region_ph .ideal (.fin 20) (.fin h)).out ≠ .ok 5 :=
  ⟨(C07_iff _ _ _).2 (.inr (.inl ⟨rfl, by norm_num [Hot]⟩)), fun h => C53_no_region5 _ _ _ (by rw [e15, gt_num, fin_lt]; norm_num)⟩

end PyX
