import Verif.Props.Agree
import Verif.Props.WetMix
import Verif.Props.Wet3
import Verif.Props.Correlations
import Verif.Props.Session
import Verif.Props.Rounding
import Verif.Props.Solvers
import Verif.Props.T4Ends
import Verif.Props.NanCalls
import Verif.Props.Borders
import Verif.Props.IceCurves
import Verif.Props.Defects
import Verif.Props.UnitLaw
import Verif.Props.ApiPotential
import Verif.Props.Joint
import Verif.Props.Hot

/-!
# Concrete cases

States that meet the hypotheses of theorems without an example of their own, with what the theorem says there.
-/

namespace PyX.Cases

open Classical Py Num PyX Kron _root_.Spec.IF97 _root_.Spec.PT Spec.Transport

/-! States: 500 bar and 126.85 °C (liquid), 10 bar (saturation), 10 MPa and 900 K (steam). -/

private theorem p500 : Quantity.p.si .mks 500 = 50 := by norm_num [Quantity.si, Quantity.scale, Quantity.offset]
private theorem t127 : Quantity.T.si .mks 126.85 = 400 := by norm_num [Quantity.si, Quantity.scale, Quantity.offset]
private theorem p10 : Quantity.p.si .mks 10 = 1 := by norm_num [Quantity.si, Quantity.scale, Quantity.offset]
private theorem p300 : Quantity.p.si .mks 300 = 30 := by norm_num [Quantity.si, Quantity.scale, Quantity.offset]
private theorem t20 : Quantity.T.si .mks 20 = 293.15 := by norm_num [Quantity.si, Quantity.scale, Quantity.offset]
private theorem liquid : InRegion 1 (Quantity.p.si .mks 500) (Quantity.T.si .mks 126.85) := by rw [p500, t127]; exact region1_point
private theorem toSI_p {u : UnitSystem} (x : ℝ) : Quantity.p.toSI .ideal u (.fin x) = pure (.fin (Quantity.p.si u x)) := by simp only [Quantity.toSI, si]
private theorem toSI_T {u : UnitSystem} (x : ℝ) : Quantity.T.toSI .ideal u (.fin x) = pure (.fin (Quantity.T.si u x)) := by simp only [Quantity.toSI, si]
private theorem lits : FP.ideal.lit 0.000611657 = .fin 0.000611657 ∧ FP.ideal.lit 22.06395 = .fin 22.06395 ∧ FP.ideal.lit 22.064 = .fin 22.064 := by
  refine ⟨?_, ?_, ?_⟩ <;> rw [lit_ideal] <;> norm_num

/-- C01 at 212 °F, which is 373.15 K -/
example : (Quantity.T.toSI .ideal .fls (.fin 212) >>= Quantity.T.fromSI .ideal .fls) = pure (.fin 212) ∧
    Quantity.T.toSI .ideal .fls (.fin 212) = pure (.fin 373.15) ∧
    (Quantity.T.fromSI .ideal .fls (.fin 373.15) >>= Quantity.T.toSI .ideal .fls) = pure (.fin 373.15) := by
  refine ⟨C01_user_roundtrip .T .fls 212, ?_, C01_si_roundtrip .T .fls 373.15⟩
  rw [toSI_T]
  norm_num [Quantity.si, Quantity.scale, Quantity.offset]

/-- C04: 1 selects MKS; "1" selects nothing, and is ignored by an object in the unit system FLS -/
example (F : FP) : UnitConverter.set_unitSystem (.int 1) = pure .mks ∧ (XSteam.init (.str "1")).out = .raise .value ∧
    (step F [.fls] (.set 0 (.str "1"))).1 = [.fls] ∧ (step F [.fls, .bare] (.set 1 (.int 1))).1[1]? = some .mks ∧
    (step F [.fls, .bare] (.set 1 (.int 1))).1[0]? = some .fls := by
  have hx : ¬ ∃ u, Selects (.str "1") u := by rintro ⟨u, h⟩; cases h
  refine ⟨(C04_accepts _ _).2 .mks, ?_, (C04_atomic F _ _ 0 hx).1, ?_, ?_⟩
  · rcases C04_init (.str "1") with h | ⟨u, h, -⟩
    · exact h.1
    · exact absurd ⟨u, h⟩ hx
  · rw [C04_frame F _ _ .mks 1 1 .mks]; rfl
  · rw [C04_frame F _ _ .mks 1 0 .mks]; rfl

/-- C06: a call leaves the objects alone, and a call on another object does not change the answer -/
example (F : FP) (p : Num) : (step F [.fls, .mks] (.call 1 (.tsat_p p))).1 = [.fls, .mks] ∧
    (step F (runHistory F [] ([.new (.int 1), .new (.int 0)] ++ .call 1 (.tsat_p p) :: [])) (.call 0 (.hL_p p))).2 =
      (step F (runHistory F [] ([.new (.int 1), .new (.int 0)] ++ [])) (.call 0 (.hL_p p))).2 :=
  ⟨C06_call_pure F _ 1 _, C06_irrelevant F _ _ _ 0 _ (.inl ⟨1, _, rfl⟩)⟩

/-- C07: no point is in two regions; at 1e9 MPa the arithmetic of the machine answers 0 -/
example : ¬ InRegion 2 50 400 ∧ (∃ m, RegionSelection.region_pT .binary64 (.inf false) (.fin 400) = ⟨[⟨.warning, m⟩], .ok 0⟩) := by
  refine ⟨fun h => absurd (C07_unique 50 400 2 1 h region1_point) (by norm_num), ?_⟩
  exact C07_not_finite .binary64 Binary64.sane _ _ (.inl (by simp))

/-- C08: 30 MPa and 2000 kJ/kg is region 3, hence not below 16.5292 MPa; C09, C10, C11 on what is refused -/
example : (RegionSelection.region_ph .ideal (.fin 30) (.fin 2000)).out = .ok 3 ∧ ¬ (.fin 30 : Num) < FP.ideal.lit 16.5292 := by
  have h := C72_region (p := 30) (h := 2000) (by norm_num) (by norm_num) (by norm_num) (by norm_num)
  exact ⟨h, (C08_region_ph .ideal _ _ 3 h).2.2.2.1 rfl⟩

/-- C09: a negative entropy is refused with a warning -/
example : (RegionSelection.region_ps .ideal (.fin 30) (.fin (-1))).out = .ok 0 ∧ Warned (RegionSelection.region_ps .ideal (.fin 30) (.fin (-1))).logs := by
  have h : (RegionSelection.region_ps .ideal (.fin 30) (.fin (-1))).out = .ok 0 := by
    norm_num [RegionSelection.region_ps, lit_ideal, ofInt_eq, gt_num, fin_lt]
    rfl
  exact ⟨h, (C09_region_ps .ideal _ _ 0 h).2.1 rfl⟩

/-- C10: so is a negative entropy by (h, s) -/
example : (RegionSelection.region_hs .ideal (.fin 100) (.fin (-1))).out = .ok 0 ∧ Warned (RegionSelection.region_hs .ideal (.fin 100) (.fin (-1))).logs := by
  have h : (RegionSelection.region_hs .ideal (.fin 100) (.fin (-1))).out = .ok 0 := by
    norm_num [RegionSelection.region_hs, lit_ideal, ofInt_eq, gt_num, fin_lt, neg_fin]
    rfl
  exact ⟨h, (C10_region_hs .ideal _ _ 0 h).2 rfl⟩

/-- C11: a pressure of 200 MPa is refused by (p, rho) -/
example : (RegionSelection.region_prho .ideal (.fin 200) (.fin 500)).out = .ok 0 ∧ Warned (RegionSelection.region_prho .ideal (.fin 200) (.fin 500)).logs := by
  have h : (RegionSelection.region_prho .ideal (.fin 200) (.fin 500)).out = .ok 0 := by
    norm_num [RegionSelection.region_prho, lit_ideal, ofInt_eq, gt_num, fin_lt, div_ideal]
    rfl
  exact ⟨h, (C11_region_prho .ideal _ _ 0 h).2.1 rfl⟩

/-- C12: 300 bar is above the critical pressure, 10 bar within the range; there hL_p is a number -/
example : Refused (XSteam.hL_p .ideal .mks (.fin 300)) ∧ ∀ r, (XSteam.hL_p .ideal .mks (.fin 10)).out = .ok r → ∃ x : ℝ, r = .fin x := by
  constructor
  · have := C12_outside .ideal FP.ideal_sane .mks (.hL_p (.fin 300)) (.pressure (.fin 300)) rfl (by
      intro y hy
      simp only [Range.pressure, toSI_p, p300] at hy
      cases hy
      simp only [Range.pressure, lits.1, lits.2.1, fin_lt]
      norm_num)
    simpa [Call.run] using this
  · intro r hr
    refine C12_inside .mks (.hL_p (.fin 10)) (.pressure (.fin 10)) rfl (by simp [Call.args]) (fun h => ?_) r hr
    refine h (.fin 1) (by simp only [Range.pressure, toSI_p, p10]) ?_
    simp only [Range.pressure, lits.1, lits.2.1, fin_lt]
    norm_num

/-- C13: 2000 bar is refused with NaN and a warning, the liquid gives a number -/
example : ((XSteam.h_pt .ideal .mks (.fin 2000) (.fin 126.85)).out = .ok .nan ∧ Warned (XSteam.h_pt .ideal .mks (.fin 2000) (.fin 126.85)).logs) ∧
    ∀ r, (XSteam.h_pt .ideal .mks (.fin 500) (.fin 126.85)).out = .ok r → ∃ x : ℝ, r = .fin x := by
  have p2 : Quantity.p.si .mks 2000 = 200 := by norm_num [Quantity.si, Quantity.scale, Quantity.offset]
  constructor
  · refine C13_refused .ideal .mks (.h_pt (.fin 2000) (.fin 126.85)) _ _ _ _ rfl (toSI_p _) (toSI_T _) 0 ?_ (.inl rfl)
    rw [C07_iff, p2, t127]
    exact .inl ⟨rfl, by norm_num [Box], by norm_num [Hot]⟩
  · intro r hr
    exact C13_number .mks (.h_pt (.fin 500) (.fin 126.85)) _ _ _ _ rfl (toSI_p _) (toSI_T _) 1 ((C07_iff _ _ _).2 liquid) (.inl rfl) (by simp) r hr

/-- C14, C16: at 1 MPa -/
example : ∃ hL hV sL sV : ℝ, hL < hV ∧ sL < sV ∧ (XSteam.h_px .ideal .bare (.fin 1) (.fin 0.25)).out = .ok (.fin (hL + 0.25 * (hV - hL))) ∧
    (XSteam.x_ph .ideal .bare (.fin 1) (.fin ((hL + hV) / 2))).out = .ok (.fin (fractionOf hL hV ((hL + hV) / 2))) ∧
    (XSteam.x_ps .ideal .bare (.fin 1) (.fin ((sL + sV) / 2))).out = .ok (.fin (fractionOf sL sV ((sL + sV) / 2))) := by
  obtain ⟨hL, hV, sL, sV, e1, e2, e3, e4, l1, l2⟩ := C67_latent_heat .bare 1 (by norm_num) (by norm_num)
  refine ⟨hL, hV, sL, sV, l1, l2, ?_, ?_, ?_⟩
  · exact C14_h_px .bare 1 0.25 hL hV (by norm_num) (by norm_num) (by norm_num) (by norm_num) (by rw [e1]; rfl) (by rw [e2]; rfl)
  · exact C16_x_ph .bare _ _ 1 _ hL hV (by rw [toSI_p, Quantity.si_bare]) (by simp only [Quantity.toSI, si, Quantity.si_bare]) (by norm_num)
      (by rw [e1]; rfl) (by rw [e2]; rfl) l1
  · exact C16_x_ps .bare _ _ 1 _ sL sV (by rw [toSI_p, Quantity.si_bare]) (by simp only [Quantity.toSI, si, Quantity.si_bare]) (by norm_num)
      (by rw [e3]; rfl) (by rw [e4]; rfl) l2

private theorem psat300 : 0.000611657 < psat 300 ∧ psat 300 < 16.529 := by
  have h := Kron.psat_le (T := 300) (Tk := 300) (β := 0.25) (by norm_num) (by norm_num) (by norm_num) (by norm_num) (by norm_num [Kron.eqQ, Kron.thQ])
  have h' := Kron.le_psat (T := 300) (Tk := 300) (β := 0.24) (by norm_num) (by norm_num) (by norm_num) (by norm_num) (by norm_num) (by norm_num [Kron.eqQ, Kron.thQ])
  norm_num at h h' ⊢
  constructor <;> linarith

private theorem p4_300 : Region4.p4_T .ideal (.fin 300) = pure (.fin (psat 300)) := by
  have h := theta_box (T := 300) (by norm_num) (by norm_num)
  exact p4_T_eq h.1 h.2.1 (by linarith)

/-- C14 by temperature, at 300 K -/
example : ∃ hL hV : ℝ, (XSteam.h_tx .ideal .bare (.fin 300) (.fin 0.25)).out = .ok (.fin (hL + 0.25 * (hV - hL))) := by
  obtain ⟨h0, h1⟩ := psat300
  have a1 : FP.ideal.lit 273.15 = .fin 273.15 := by rw [lit_ideal]; norm_num
  have a2 : FP.ideal.lit 647.096 = .fin 647.096 := by rw [lit_ideal]; norm_num
  refine ⟨gamma1.h (psat 300) (tsat (psat 300)), gamma2.h (psat 300) (tsat (psat 300)),
    C14_h_tx .bare 300 0.25 _ _ (by norm_num) (by norm_num) (by norm_num) (by norm_num) ?_ ?_⟩
  · unfold XSteam.hL_t
    simp only [si, pure_bind, a1, a2, gt_num, fin_lt, Quantity.si_bare, p4_300, h4L_p_low h0 h1]
    norm_num
    rfl
  · unfold XSteam.hV_t
    simp only [si, pure_bind, a1, a2, gt_num, fin_lt, Quantity.si_bare, p4_300, h4V_p_low h0 h1]
    norm_num
    rfl

/-- C18: from 300 K to the pressure and back -/
example : ∃ p : ℝ, XSteam.psat_t .ideal .bare (.fin 300) = pure (.fin p) ∧ XSteam.tsat_p .ideal .bare (.fin p) = pure (.fin 300) := by
  obtain ⟨h0, h1⟩ := psat300
  obtain ⟨p, e, -, -⟩ := C18_psat_on_line .bare 300 (by norm_num) (by norm_num)
  have ep : p = psat 300 := by
    have a1 : FP.ideal.lit 273.1 = .fin 273.1 := by rw [lit_ideal]; norm_num
    have a2 : FP.ideal.lit 647.096 = .fin 647.096 := by rw [lit_ideal]; norm_num
    unfold XSteam.psat_t at e
    simp only [si, pure_bind, a1, a2, gt_num, fin_lt, Quantity.si_bare, p4_300] at e
    norm_num at e
    cases e
    rfl
  exact ⟨p, e, C18_tsat_psat .bare 300 p (by norm_num) (by norm_num) e (by rw [Quantity.si_bare, ep]; exact h0) (by rw [Quantity.si_bare, ep]; linarith)⟩

/-- C14, C15: a fraction of 2 is an error; at 0.0001 MPa the constant -99999 is returned -/
example (p : Num) : (XSteam.h_px .binary64 .mks p (.fin 2)).out = .raise .value ∧
    XSteam.h_px .ideal .bare (.fin 0.0001) (.fin 0.5) = Quantity.h.fromSI .ideal .bare (.fin (-99999)) := by
  constructor
  · refine (C14_bad_fraction .binary64 Binary64.sane .mks p (.fin 2) ?_).1
    rintro ⟨r, h, -, h1⟩
    cases h
    norm_num at h1
  · refine C15_h_px .ideal FP.ideal_sane .bare _ (.fin 0.0001) 0.5 (by norm_num) (by norm_num) (by rw [toSI_p, Quantity.si_bare]) ?_ ?_ <;>
    simp only [lits, fin_lt, fin_le] <;> norm_num

/-- C16: a fraction of the machine is NaN or in [0, 1] -/
example (h r : Num) (hr : (XSteam.x_ph .binary64 .mks (.fin 10) h).out = .ok r) :
    (r = .nan ∧ Warned (XSteam.x_ph .binary64 .mks (.fin 10) h).logs) ∨ ∃ y : ℝ, r = .fin y ∧ 0 ≤ y ∧ y ≤ 1 :=
  C16_fraction .binary64 Binary64.sane .mks (.x_ph (.fin 10) h) (by simp [Call.isFraction]) r hr

/-- C17: the density of the liquid is the reciprocal of its volume -/
example : ∃ v : ℝ, (XSteam.v_pt .ideal .mks (.fin 500) (.fin 126.85)).out = .ok (.fin v) ∧
    (XSteam.rho_pt .ideal .mks (.fin 500) (.fin 126.85)).out = .ok (.fin (1 / v)) := by
  obtain ⟨v, a, b, -⟩ := C44_positive_volume .mks 1 500 126.85 (.inl rfl) liquid
  have h := (C17_reciprocal .ideal .mks (.rho_pt (.fin 500) (.fin 126.85)) (.v_pt (.fin 500) (.fin 126.85)) rfl).2
  simp only [Call.run, a] at h
  refine ⟨v, by rw [a]; rfl, ?_⟩
  simpa [Py.pure_def, b.ne', FP.ideal] using h

/-- C18, C19: 20 °C and 30 °C, 10 bar and 20 bar -/
example : ∃ p p' t t' : ℝ, XSteam.psat_t .ideal .mks (.fin 20) = pure (.fin p) ∧ XSteam.psat_t .ideal .mks (.fin 30) = pure (.fin p') ∧ p < p' ∧
    XSteam.tsat_p .ideal .mks (.fin 10) = pure (.fin t) ∧ XSteam.tsat_p .ideal .mks (.fin 20) = pure (.fin t') ∧ t < t' := by
  obtain ⟨p, p', a, b, c⟩ := C19_psat_strictMono .mks 20 30 (by rw [t20]; norm_num) (by norm_num) (by norm_num [Quantity.si, Quantity.scale, Quantity.offset])
  obtain ⟨t, t', d, e, f⟩ := C19_tsat_strictMono .mks 10 20 (by rw [p10]; norm_num) (by norm_num) (by norm_num [Quantity.si, Quantity.scale, Quantity.offset])
  exact ⟨p, p', t, t', a, b, c, d, e, f⟩
example : (∃ p, XSteam.psat_t .ideal .mks (.fin 20) = pure (.fin p) ∧ 0 < Quantity.p.si .mks p ∧ Spec.Sat.OnLine (Quantity.p.si .mks p) (Quantity.T.si .mks 20)) ∧
    ∃ t, XSteam.tsat_p .ideal .mks (.fin 10) = pure (.fin t) ∧ 273.1 < Quantity.T.si .mks t ∧ Quantity.T.si .mks t < 647.096 ∧
      Spec.Sat.OnLine (Quantity.p.si .mks 10) (Quantity.T.si .mks t) :=
  ⟨C18_psat_on_line .mks 20 (by rw [t20]; norm_num) (by rw [t20]; norm_num), C18_tsat_on_line .mks 10 (by rw [p10]; norm_num) (by rw [p10]; norm_num)⟩

/-- C20 to C23: the values of the equations of regions 1, 2, 5 and 3 are numbers tied to one potential -/
example : (∃ v : ℝ, Region1.v1_pT .ideal (.fin 50) (.fin 400) = pure (.fin v)) ∧ (∃ v : ℝ, Region2.v2_pT .ideal (.fin 10) (.fin 900) = pure (.fin v)) ∧
    (∃ v : ℝ, Region5.v5_pT .ideal (.fin 1) (.fin 1200) = pure (.fin v)) ∧ ∃ p : ℝ, Region3.p3_rhoT .ideal (.fin 483) (.fin 647.096) = pure (.fin p) := by
  obtain ⟨v1, _, _, _, _, h1⟩ := C20_region1
  obtain ⟨v2, _, _, _, _, h2⟩ := C21_region2
  obtain ⟨v5, _, _, _, _, h5⟩ := C22_region5
  obtain ⟨p3, _, _, _, _, h3⟩ := C23_region3
  exact ⟨⟨_, (h1 50 400 (by constructor <;> norm_num)).1⟩, ⟨_, (h2 10 900 (by constructor <;> norm_num)).1⟩, ⟨_, (h5 1 1200 (by constructor <;> norm_num)).1⟩,
    ⟨_, (h3 483 647.096 (by norm_num) (by norm_num)).1⟩⟩

/-- C24 for the liquid -/
example : ∃ v : ℝ, XSteam.v_pt .ideal .mks (.fin 500) (.fin 126.85) = pure (.fin v) := by
  obtain ⟨v, _, _, _, _, h⟩ := C24_potential
  exact ⟨_, (h .mks 1 500 126.85 (.inl rfl) liquid).1⟩

/-- C25, C45: the wet steam search and an ordinary call, in the arithmetic of the machine -/
example : (XSteam.t_hs .binary64 .mks (.fin 1800) (.fin 4)).out ≠ .diverge ∧ (XSteam.h_prho .binary64 .mks (.fin 10) (.fin 1)).out ≠ .diverge :=
  ⟨C45_calls_end .binary64 Binary64.grid Binary64.rough .mks (.t_hs (.fin 1800) (.fin 4)),
    C25_calls_end .binary64 Binary64.grid .mks (.h_prho (.fin 10) (.fin 1)) (by simp)⟩
example (h s : Num) : (Region4.T4_hs .binary64 h s).out ≠ .diverge := C45_T4_hs_ends .binary64 Binary64.grid Binary64.rough h s

/-- C27: wherever p_hrho answers, it answers 10 MPa -/
example (h rho r : Num) (hr : (XSteam.p_hrho .binary64 .mks h rho).out = .ok r) : (UnitConverter.fromSIunit_p .binary64 .mks (Num.ofInt 10)).out = .ok r :=
  C27_p_hrho .binary64 .mks h rho r hr

/-- C30, C31: ice III at 253 K, ice Ih sublimating at 200 K, an unknown hint -/
example : XSteam.pmelt_t .ideal .bare (.fin 253) (.int Ice.III.code) = pure (.fin (Ice.III.melt 253)) ∧
    XSteam.psubl_t .ideal .bare (.fin 200) = pure (.fin (Spec.IceCurves.subl 200)) ∧ (XSteam.pmelt_t .ideal .bare (.fin 253) (.int 9)).out = .raise .value := by
  have a := C31_pmelt .bare .III 253 (by norm_num [Ice.lo]) (by norm_num [Ice.hi])
  have b := C31_psubl .bare 200 (by norm_num) (by norm_num [Spec.IceCurves.tripleT])
  simp only [Quantity.si_bare, Quantity.user_bare] at a b
  exact ⟨a, b, (C30_unknown .ideal .bare _ _ _ (toSI_T _) (by simp) (by intro i; cases i <;> simp [Ice.code])).1⟩

/-- C32: at 20 °C and 30 °C, and at 700 K -/
example : Refused (XSteam.st_t .ideal .bare (.fin 700)) ∧ ∃ y y' : ℝ, XSteam.st_t .ideal .mks (.fin 20) = pure (.fin y) ∧
    XSteam.st_t .ideal .mks (.fin 30) = pure (.fin y') ∧ y' < y ∧ 0 ≤ y' := by
  constructor
  · refine C32_outside .ideal FP.ideal_sane .bare _ _ (toSI_T _) (.inr ?_)
    rw [lit_ideal, fin_lt]
    norm_num [Constants.CRITICAL_TEMPERATURE]
  · have t30 : Quantity.T.si .mks 30 = 303.15 := by norm_num [Quantity.si, Quantity.scale, Quantity.offset]
    obtain ⟨y, a, -, -, -⟩ := C32_inside .mks 20 (by rw [t20]; norm_num) (by rw [t20]; norm_num)
    obtain ⟨y', b, -, c, -⟩ := C32_inside .mks 30 (by rw [t30]; norm_num) (by rw [t30]; norm_num)
    exact ⟨y, y', a, b, C32_decreasing .mks 20 30 y y' (by rw [t20]; norm_num) (by norm_num) (by rw [t30]; norm_num) a b, c⟩

/-- C33, C34, C37, C64, C65: viscosity, conductivity and Prandtl number of the liquid -/
example : ∃ v y z cp : ℝ, XSteam.v_pt .ideal .mks (.fin 500) (.fin 126.85) = pure (.fin v) ∧ (XSteam.my_pt .ideal .mks (.fin 500) (.fin 126.85)).out = .ok (.fin y) ∧
    (XSteam.tc_pt .ideal .mks (.fin 500) (.fin 126.85)).out = .ok (.fin z) ∧ XSteam.Cp_pt .ideal .mks (.fin 500) (.fin 126.85) = pure (.fin cp) ∧
    Quantity.my.si .mks y = mu (1 / Quantity.v.si .mks v) 400 ∧ Quantity.tc.si .mks z = lam (1 / Quantity.v.si .mks v) 400 ∧
    (XSteam.pr_pt .ideal .mks (.fin 500) (.fin 126.85)).out = .ok (.fin (1000 * Quantity.Cp.si .mks cp * Quantity.my.si .mks y / Quantity.tc.si .mks z)) := by
  obtain ⟨v, a, b, -⟩ := C44_positive_volume .mks 1 500 126.85 (.inl rfl) liquid
  obtain ⟨_, _, _, _, c, h⟩ := C24_potential
  have hc := (h .mks 1 500 126.85 (.inl rfl) liquid).2.2.2.2.1
  obtain ⟨y, e1, e2, e3⟩ := C64_my_pt .mks 500 126.85 v (by rw [a]; rfl) b.ne' (by rw [t127]; norm_num)
  obtain ⟨z, f1, f2, f3⟩ := C65_tc_pt .mks 500 126.85 v (by rw [a]; rfl) b (by rw [t127]; norm_num) (by rw [t127]; norm_num) (by rw [t127, p500]; norm_num [tcLimit])
  have f4 : Quantity.tc.si .mks z ≠ 0 := by norm_num [Quantity.si, Quantity.scale, Quantity.offset, f2.ne']
  rw [t127] at e3 f3
  exact ⟨v, y, z, _, a, e1, f1, hc, e3, f3, C37_prandtl .mks 500 126.85 _ y z (by rw [hc]; rfl) e1 f1 f4⟩

/-- C39: heavy water at 20 °C -/
example : ∃ m : ℝ, 0 < m ∧ (XSteam_HW.my_rhoT .ideal .bare (.fin 110) (.fin 293.15)).out = .ok (.fin m) ∧
    (XSteam_HW.my_rhoT .ideal .mks (.fin 1100) (.fin 20)).out = .ok (.fin (m - 273.15)) := by
  have := C39_my_mks 1100 20 (by norm_num) (by norm_num)
  norm_num at this ⊢
  exact this
example (rho : Num) : Failed (XSteam_HW.my_rhoT .ideal .bare rho (.fin 800)) ∧ Failed (XSteam_HW.tc_rhoT .ideal .bare rho (.fin 900)) :=
  ⟨C39_my_outside .ideal FP.ideal_sane .bare rho _ _ (toSI_T _) (.inr (by rw [lit_ideal, fin_lt]; norm_num)),
    C39_tc_outside .ideal FP.ideal_sane .bare rho _ _ (toSI_T _) (.inr (by rw [lit_ideal, fin_lt]; norm_num))⟩

/-- C05: tsat_p converts its argument and its result -/
example (p : Num) : XSteam.tsat_p .binary64 .fls p = (Call.tsat_p p).lawful .binary64 .fls := C05_simple _ _ Binary64.sane (.tsat_p p) trivial

/-- C26 at 20 MPa: the search h4L_p ends at an enthalpy within its limits whose pressure is met to 1e-5 MPa -/
example : ∃ h : ℝ, Region4.h4L_p .ideal (.fin 20) = pure (.fin h) ∧ h ∈ Set.uIcc (1670.858218 : ℝ) 2087.23500164864 ∧
    ∃ y, (RegionBorders.p3sat_h .ideal (.fin h)).out = .ok y ∧ ¬ Num.fabs (FP.ideal.sub (.fin 20) y) > FP.ideal.lit 1e-5 := by
  obtain ⟨h, e, -⟩ := C68_h4L_p 20 (by norm_num) (by norm_num)
  have hi : (Solver.h4L_p (.fin 20)).Iterates .ideal := by
    simp only [Solver.Iterates, lit_ideal, gt_num, fin_lt]
    norm_num
  obtain ⟨x, hx, hx'⟩ := C26_bracket (.h4L_p (.fin 20)) hi 1670.858218 2087.23500164864 ⟨rfl, rfl⟩ (.fin h) (by simp only [Solver.run, e]; rfl)
  cases hx'
  refine ⟨h, e, hx, ?_⟩
  rcases C26_tolerance .ideal (.h4L_p (.fin 20)) hi (.fin h) (by simp only [Solver.run, e]; rfl) with hm | hm
  · simp only [Solver.run, e] at hm
    cases hm
  · exact hm

/-- C26: the search T5_ps at 1 MPa and 1200 K -/
example : ∃ s T y : ℝ, Region5.T5_ps .ideal (.fin 1) (.fin s) = pure (.fin T) ∧ Region5.s5_pT .ideal (.fin 1) (.fin T) = pure (.fin y) ∧ |s - y| ≤ 1e-5 := by
  obtain ⟨T, y, e1, -, e2, -⟩ := C56_T5_ps 1 1200 (by norm_num) (by norm_num) (by constructor <;> norm_num) _ (s5_pT_eq ⟨by norm_num, by norm_num⟩)
  refine ⟨_, T, y, e1, e2, ?_⟩
  have := C26_exact (.T5_ps (.fin 1) (.fin (gamma5.s 1 1200))) trivial (.fin T) _ y (by simp only [Solver.run, e1]; rfl)
    (by simp only [Solver.run, e1]; exact List.not_mem_nil) rfl (by simp only [Solver.equation, e2]; rfl)
  norm_num [Solver.tolerance] at this ⊢
  exact this

/-- C28: at 10 MPa and 1080 K the densities of the two equations differ -/
example : (Region5.T5_prho .ideal (.fin 10) (.fin (1 / gamma5.v 10 1080))).out ≠ .ok (.fin 1080) ∨
    ⟨.warning, (Solver.T5_prho (.fin 10) (.fin (1 / gamma5.v 10 1080))).message⟩ ∈ (Region5.T5_prho .ideal (.fin 10) (.fin (1 / gamma5.v 10 1080))).logs := by
  by_contra h
  rw [not_or] at h
  exact h.1 (C28_not_inverse 10 1080 (by norm_num) C28_differ h.2)

/-- C35, C36: NaN for the entropy, any call -/
example (r : Num) (hr : (XSteam.h_ps .binary64 .mks (.fin 1) .nan).out = .ok r) : r = .nan :=
  C35_nan_in_nan_out .binary64 Binary64.sane .mks (.h_ps (.fin 1) .nan) (by simp [Call.swallowsNaN]) (by simp [Call.args]) r hr
example (h s : Num) : (XSteam.t_hs .binary64 .mks h s).out ≠ .raise .index := C36_no_index_error .binary64 .mks (.t_hs h s)

/-- C37: the Prandtl number does not depend on the unit system: 500 bar and 126.85 °C are 50 MPa and 400 K -/
example : XSteam.pr_pt .ideal .mks (.fin 500) (.fin 126.85) = XSteam.pr_pt .ideal .bare (.fin 50) (.fin 400) := by
  rw [C37_unit_free, p500, t127]

/-- C38, C51: wet steam of 10 bar and a fraction of 30 % -/
example : ∃ h : ℝ, XSteam.h_px .ideal .mks (.fin 10) (.fin 0.3) = pure (.fin h) ∧
    (∃ a b, (XSteam.v_ph .ideal .mks (.fin 10) (.fin h)).out = .ok (.fin (0.3 * a + (1 - 0.3) * b))) ∧
    (∃ a b, (XSteam.u_ph .ideal .mks (.fin 10) (.fin h)).out = .ok (.fin (0.3 * a + (1 - 0.3) * b))) ∧
    (∃ a b, (XSteam.s_ph .ideal .mks (.fin 10) (.fin h)).out = .ok (.fin (0.3 * a + (1 - 0.3) * b))) := by
  have q0 : 0.000611657 < Quantity.p.si .mks 10 := by rw [p10]; norm_num
  have q1 : Quantity.p.si .mks 10 < 16.529 := by rw [p10]; norm_num
  have q2 : Quantity.p.si .mks 10 < 22.06395 := by rw [p10]; norm_num
  obtain ⟨h, t, e1, e2, -, -, ⟨a, b, -, ea, eb, -⟩, ⟨c, d, -, ec, ed, -⟩, ⟨e, f, -, ee, ef, -⟩⟩ := C70_ph .mks 10 0.3 q0 q1 (by norm_num) (by norm_num)
  obtain ⟨h', e1', hr⟩ := C53_wet .mks 10 0.3 q0 q1 (by norm_num) (by norm_num)
  rw [e1] at e1'
  cases e1'
  exact ⟨h, e1, ⟨b, a, (C38_v_ph .mks 10 h 0.3 b a q0 q2 hr (by rw [e2]; rfl) (by rw [eb]; rfl) (by rw [ea]; rfl)).1⟩,
    ⟨f, e, (C38_u_ph .mks 10 h 0.3 f e q0 q2 hr (by rw [e2]; rfl) (by rw [ef]; rfl) (by rw [ee]; rfl)).1⟩,
    ⟨d, c, (C38_s_ph .mks 10 h 0.3 d c q0 q2 hr (by rw [e2]; rfl) (by rw [ed]; rfl) (by rw [ec]; rfl)).1⟩⟩
example : ∃ h : ℝ, (RegionSelection.region_ph .ideal (.fin 1) (.fin h)).out = .ok 4 ∧
    (XSteam.t_ph .ideal .bare (.fin 1) (.fin h)).out = (XSteam.tsat_p .ideal .bare (.fin 1)).out := by
  obtain ⟨h, -, hr⟩ := C53_wet .bare 1 0.3 (by norm_num) (by norm_num) (by norm_num) (by norm_num)
  simp only [Quantity.si_bare] at hr
  exact ⟨h, hr, C51_t_ph_wet .ideal _ _ hr (by rw [lits.1, fin_lt]; norm_num) (by rw [lits.2.1, fin_lt]; norm_num)⟩

/-- C41: the border between regions 2 and 3 from 630 K to 640 K, from 20 MPa to 30 MPa -/
example : (∃ p q, RegionBorders.B23p_T .ideal (.fin 630) = pure (.fin p) ∧ RegionBorders.B23p_T .ideal (.fin 640) = pure (.fin q) ∧ p < q) ∧
    ∃ S T, RegionBorders.B23T_p .ideal (.fin 20) = pure (.fin S) ∧ RegionBorders.B23T_p .ideal (.fin 30) = pure (.fin T) ∧ S < T :=
  ⟨C41_b23_mono 630 640 (by norm_num) (by norm_num), C41_b23T_mono 20 30 (by norm_num) (by norm_num)⟩

/-- C43: a pressure and a temperature in binary64 -/
example : (∃ y z : ℝ, Quantity.p.fromSI .binary64 .fls (.fin 20) = pure (.fin y) ∧ Quantity.p.toSI .binary64 .fls (.fin y) = pure (.fin z) ∧
      |z - 20| ≤ (2 * (1 / 2 ^ 53) + (1 / 2 ^ 53) ^ 2) * |20|) := by
  have := C43_from_to Binary64.round .fls .p (by decide) 20 (.inr (by norm_num))
  norm_num at this ⊢
  exact this

/-- C53, C54: 50 MPa on the isotherms, wet steam of 16.529 MPa -/
example : (∃ h, XSteam.h_pt .ideal .bare (.fin 50) (.fin 623.15) = pure (.fin h) ∧ (RegionSelection.region_ph .ideal (.fin 50) (.fin h)).out ≠ .ok 1) ∧
    ∃ h, XSteam.h_pt .ideal .bare (.fin 50) (.fin 1073.15) = pure (.fin h) ∧ (RegionSelection.region_ph .ideal (.fin 50) (.fin h)).out = .ok 0 :=
  ⟨(C53_isotherm_623 50 (by norm_num) (by norm_num)).2, (C53_isotherm_1073 50 (by norm_num) (by norm_num)).2⟩
example : (RegionSelection.region_ps .ideal (.fin 16.529) (.fin 4)).out = .ok 1 := by
  have h0 : (0.000611657 : ℝ) < 16.529 := by norm_num
  have hl := liquid_sat h0 (by norm_num)
  have hv := vapour_sat h0 (by norm_num)
  exact C54_wet_16529 4 _ _ _ (T4_p_eq h0 (by norm_num)) (s1_pT_eq (dom1_of_liquid (by norm_num) hl)) (s2_pT_eq (dom2_of_vapour hv))
    (liquid_low hl (tsat_le h0 (by norm_num) (by norm_num) (by linarith [psat_62315])) h0).2 (vapour_high hv h0).2 (by norm_num)

/-- C56: the enthalpy 1 kJ/kg above that of 1 MPa and 1673.15 K -/
example : ∃ hm T : ℝ, (Region5.T5_ph .ideal (.fin 1) (.fin (hm + 1))).out = .ok (.fin 1673.15) ∧
    Region5.h5_pT .ideal (.fin 1) (.fin T) = pure (.fin (hm + 1)) ∧ 1673.35 ≤ T := by
  obtain ⟨a, T, hT, b⟩ := C56_T5_ph_gives_up 1 _ (by norm_num) (by norm_num) (h5_pT_eq ⟨by norm_num, by norm_num⟩)
  exact ⟨_, T, by rw [a], b, hT.1⟩

/-- C67, C68, C70 at 10 bar -/
example : ∃ vL vV : ℝ, XSteam.vL_p .ideal .mks (.fin 10) = pure (.fin vL) ∧ XSteam.vV_p .ideal .mks (.fin 10) = pure (.fin vV) ∧ 0 < vL ∧ vL < vV :=
  C70_volumes .mks 10 (by rw [p10]; norm_num) (by rw [p10]; norm_num)
example : ∃ cpL cvL : ℝ, XSteam.CpL_p .ideal .mks (.fin 10) = pure (.fin cpL) ∧ XSteam.CvL_p .ideal .mks (.fin 10) = pure (.fin cvL) ∧ 0 < cvL ∧ cvL ≤ cpL := by
  obtain ⟨_, _, cpL, _, cvL, _, _, _, -, -, -, -, a, -, b, -, c, d, -⟩ := C67_phases .mks 10 (by rw [p10]; norm_num) (by rw [p10]; norm_num)
  exact ⟨cpL, cvL, a, b, c, d⟩
example : ∃ hL hV x : ℝ, XSteam.hL_p .ideal .mks (.fin 200) = pure (.fin hL) ∧ XSteam.hV_p .ideal .mks (.fin 200) = pure (.fin hV) ∧
    XSteam.x_ph .ideal .mks (.fin 200) (.fin 2000) = pure (.fin x) ∧ 0 ≤ x ∧ x ≤ 1 ∧ (2000 ≤ hL ↔ x = 0) ∧ (hV ≤ 2000 ↔ x = 1) :=
  C68_clamp .mks 200 2000 (by norm_num [Quantity.si, Quantity.scale, Quantity.offset]) (by norm_num [Quantity.si, Quantity.scale, Quantity.offset])

/-- C40: the critical point in each unit system -/
example : Constants40 .mks 373.946 220.6395 0.01 0.00611657 (-273.15) ∧ Constants40 .bare 647.096 22.06395 273.16 0.000611657 0 := ⟨C40_mks, C40_bare⟩

/-! The liquid at 50 MPa and 400 K, given by enthalpy. -/

private theorem sib (q : Quantity) (x : ℝ) : q.si .bare x = x := Quantity.si_bare q x

private theorem near {T : ℝ} (hT : |T - 400| ≤ 0.025) : InRegion 1 50 T := by
  rw [abs_le] at hT
  norm_num at hT
  have h := theta_box (T := T) (by linarith) (by linarith)
  have hs := psat_sat h.1 h.2.1 h.2.2
  have := hs.2.1
  refine .inr (.inr (.inl ⟨rfl, ⟨by linarith, by linarith, by norm_num, by norm_num⟩, by linarith, ?_, psat T, hs, by linarith⟩))
  rw [saturated_iff (by linarith) (by linarith), abs_of_nonneg (by linarith)]
  norm_num
  linarith

private theorem at_h : ∃ h t v : ℝ, (RegionSelection.region_ph .ideal (.fin 50) (.fin h)).out = .ok 1 ∧ (XSteam.t_ph .ideal .bare (.fin 50) (.fin h)).out = .ok (.fin t) ∧
    |t - 400| ≤ 0.025 ∧ (XSteam.v_ph .ideal .bare (.fin 50) (.fin h)).out = .ok (.fin v) ∧ 0 < v ∧ SameAsPT .bare 50 h t := by
  have hc : PyX.Spec.PH.Clear b23 1 (Quantity.p.si .bare 50) (Quantity.T.si .bare 400) := by
    rw [sib, sib]; exact ⟨by norm_num, .inl ⟨rfl, .inr (by norm_num)⟩⟩
  have hr : (RegionSelection.region_pT .ideal (.fin (Quantity.p.si .bare 50)) (.fin (Quantity.T.si .bare 400))).out = .ok 1 := by
    rw [sib, sib, C07_iff]; exact region1_point
  obtain ⟨h, e1, e2⟩ := C71_ph .bare 50 400 1 (fun T hT => by
    rw [sib] at hT
    rw [sib, C07_iff]
    exact near (by simpa [PyX.Spec.PH.tol] using hT)) hc
  obtain ⟨t, f1, f2, f3⟩ := e2 (fun h => absurd h (by norm_num))
  obtain ⟨h', e1', g⟩ := C53_agrees .bare 50 400 1 hr hc
  rw [e1] at e1'
  cases e1'
  rw [sib, sib] at f2 g
  have f2' : |t - 400| ≤ 0.025 := by simpa [PyX.Spec.PH.tol] using f2
  obtain ⟨v, a, b, -⟩ := C44_positive_volume .bare 1 50 t (.inl rfl) (by rw [sib, sib]; exact near f2')
  exact ⟨h, t, v, g, f1, f2', by rw [f3.1, a]; rfl, b, f3⟩

/-- C51 in SI units, C64, C65 and C37 by enthalpy -/
example : ∃ h t v y z cp : ℝ, (XSteam.t_ph .ideal .bare (.fin 50) (.fin h)).out = .ok (.fin t) ∧ |t - 400| ≤ 0.025 ∧
    (XSteam.s_ph .ideal .bare (.fin 50) (.fin h)).out = (XSteam.s_pt .ideal .bare (.fin 50) (.fin t)).out ∧
    (XSteam.my_ph .ideal .bare (.fin 50) (.fin h)).out = .ok (.fin y) ∧ y = mu (1 / v) t ∧
    (XSteam.tc_ph .ideal .bare (.fin 50) (.fin h)).out = .ok (.fin z) ∧ z = lam (1 / v) t ∧
    (XSteam.pr_ph .ideal .bare (.fin 50) (.fin h)).out = .ok (.fin (1000 * cp * y / z)) := by
  obtain ⟨h, t, v, hr, ht, d, hv, v0, same⟩ := at_h
  have d' := abs_le.1 d
  norm_num at d'
  have hn := near d
  obtain ⟨y, a1, a2, a3⟩ := C64_my_ph .bare 50 h t v hv ht v0.ne' (by rw [sib, sib, hr]; simp) (by rw [sib]; linarith) (by rw [sib]; linarith) (by rw [sib]; norm_num)
  obtain ⟨z, b1, b2, b3⟩ := C65_tc_ph .bare 50 h t v hv ht v0 (by rw [sib]; linarith) (by rw [sib]; linarith) (by rw [sib, sib, tcLimit, if_pos (by linarith)]; norm_num)
  obtain ⟨_, _, _, _, c, hc⟩ := C24_potential
  have e := (hc .bare 1 50 t (.inl rfl) (by rw [sib, sib]; exact hn)).2.2.2.2.1
  have pr := C37_prandtl_ph .bare 50 h _ y z (by rw [same.2.2.2.1, e]; rfl) a1 b1 (by rw [sib]; exact b2.ne')
  simp only [sib] at a3 b3 pr
  exact ⟨h, t, v, y, z, _, ht, d, C51_s_ph .ideal _ _ _ 1 (.inl rfl) hr ht ((C07_iff _ _ _).2 hn), a1, a3, b1, b3, pr⟩

/-- C65, C67: the conductivities at 10 bar, and of the liquid and the steam at 300 K -/
example : ∃ t vL vV a b : ℝ, (XSteam.tsat_p .ideal .mks (.fin 10)).out = .ok (.fin t) ∧ (XSteam.vL_p .ideal .mks (.fin 10)).out = .ok (.fin vL) ∧
    (XSteam.vV_p .ideal .mks (.fin 10)).out = .ok (.fin vV) ∧ (XSteam.tcL_p .ideal .mks (.fin 10)).out = .ok (.fin a) ∧
    (XSteam.tcV_p .ideal .mks (.fin 10)).out = .ok (.fin b) ∧ 0 < a ∧ 0 < b := by
  obtain ⟨t, vL, vV, a, b, h1, h2, h3, h4, h5, h6, h7, -⟩ := C67_conductivity .mks 10 (by rw [p10]; norm_num) (by rw [p10]; norm_num)
  exact ⟨t, vL, vV, a, b, h1, h2, h3, h4, h5, h6, h7⟩
example : ∃ vL vV a b : ℝ, (XSteam.vL_t .ideal .bare (.fin 300)).out = .ok (.fin vL) ∧ (XSteam.vV_t .ideal .bare (.fin 300)).out = .ok (.fin vV) ∧
    (XSteam.tcL_t .ideal .bare (.fin 300)).out = .ok (.fin a) ∧ (XSteam.tcV_t .ideal .bare (.fin 300)).out = .ok (.fin b) ∧
    0 < a ∧ 0 < b ∧ a = lam (1 / vL) 300 ∧ b = lam (1 / vV) 300 := by
  obtain ⟨h0, h1⟩ := psat300
  have l := liquid_sat h0 (by linarith)
  have w := vapour_sat h0 (by linarith)
  have et : tsat (psat 300) = 300 := tsat_psat (by norm_num) (by norm_num) h0 (by linarith)
  rw [et] at l w
  have a1 : FP.ideal.lit 273.15 = .fin 273.15 := by rw [lit_ideal]; norm_num
  have a2 : FP.ideal.lit 647.096 = .fin 647.096 := by rw [lit_ideal]; norm_num
  have a3 : FP.ideal.lit 623.15 = .fin 623.15 := by rw [lit_ideal]; norm_num
  have a4 : FP.ideal.lit 273.1 = .fin 273.1 := by rw [lit_ideal]; norm_num
  have eL : (XSteam.vL_t .ideal .bare (.fin 300)).out = .ok (.fin (gamma1.v (psat 300) 300)) := by
    unfold XSteam.vL_t
    simp only [si, pure_bind, a1, a2, a3, gt_num, fin_lt, fin_le, sib, p4_300, v1_pT_eq (dom1_of_liquid (by linarith) l)]
    norm_num
    rfl
  have eV : (XSteam.vV_t .ideal .bare (.fin 300)).out = .ok (.fin (gamma2.v (psat 300) 300)) := by
    unfold XSteam.vV_t
    simp only [si, pure_bind, a1, a2, a3, gt_num, fin_lt, fin_le, sib, p4_300, v2_pT_eq (dom2_of_vapour w)]
    norm_num
    rfl
  have ep : (XSteam.psat_t .ideal .bare (.fin 300)).out = .ok (.fin (psat 300)) := by
    unfold XSteam.psat_t
    simp only [si, pure_bind, a4, a2, gt_num, fin_lt, sib, p4_300]
    norm_num
    rfl
  have lim : psat 300 ≤ tcLimit 300 := by rw [tcLimit, if_pos (by norm_num)]; linarith
  have pL : 0 < gamma1.v (psat 300) 300 := v1_pos l
  have pV : 0 < gamma2.v (psat 300) 300 := by
    have := v2_sat (p := psat 300) h0 (by linarith)
    rw [et] at this
    linarith
  obtain ⟨a, c1, c2, c3⟩ := C65_tcL_t .bare 300 _ _ ep eL pL (by rw [sib]; norm_num) (by rw [sib]; norm_num) (by rw [sib, sib]; exact lim)
  obtain ⟨b, d1, d2, d3⟩ := C65_tcV_t .bare 300 _ _ ep eV pV (by rw [sib]; norm_num) (by rw [sib]; norm_num) (by rw [sib, sib]; exact lim)
  simp only [sib] at c3 d3
  exact ⟨_, _, a, b, eL, eV, c1, d1, c2, d2, c3, d3⟩

end PyX.Cases
