import Verif.Props.SaturatedStates
import Verif.Props.RegionPS
import Verif.Props.WetCalls
import Verif.Lemmas.SatVolume

/-!
# C70: wet steam below region 3 is the mixture of its phases, by enthalpy and by entropy alike
-/

namespace PyX

open Classical Py Num _root_.Spec.Sat _root_.Spec.IF97 Kron

private theorem g1 : FP.ideal.lit 0.000611657 = .fin 0.000611657 := by rw [lit_ideal]; norm_num
private theorem g2 : FP.ideal.lit 22.06395 = .fin 22.06395 := by rw [lit_ideal]; norm_num
private theorem g4 : FP.ideal.lit 16.529 = .fin 16.529 := by rw [lit_ideal]; norm_num
private theorem g5 : Num.ofInt 1 = .fin 1 := by rw [ofInt_eq]; norm_num

theorem user_line (q : Quantity) (u : UnitSystem) (x a b : ℝ) :
    q.user u (x * a + (1 - x) * b) = q.user u b + x * (q.user u a - q.user u b) := by
  simp only [Quantity.user]
  ring

theorem out_bind_eq {α β : Type} {x : Py α} {f : α → Py β} {a : α} (h : x.out = .ok a) : (x >>= f).out = (f a).out := by
  have := out_congr f (x := x) (y := pure a) h
  rwa [pure_bind] at this

/-- the internal energies of the two phases -/
theorem kernels_sat_u {p : ℝ} (h0 : 0.000611657 < p) (h1 : p < 16.529) :
    Region1.u1_pT .ideal (.fin p) (.fin (tsat p)) = pure (.fin (gamma1.u p (tsat p))) ∧
    Region2.u2_pT .ideal (.fin p) (.fin (tsat p)) = pure (.fin (gamma2.u p (tsat p))) :=
  ⟨u1_pT_eq (dom1_of_liquid (by linarith) (liquid_sat h0 (by linarith))), u2_pT_eq (dom2_of_vapour (vapour_sat h0 (by linarith)))⟩

/-- a property of wet steam: `x` parts of the vapour and `1 - x` of the liquid, given by the calls for the saturated phases -/
def Mixes (x : ℝ) (r L V : Py Num) : Prop :=
  ∃ a b y : ℝ, L = pure (.fin a) ∧ V = pure (.fin b) ∧ r.out = .ok (.fin y) ∧ y = a + x * (b - a)

/-- C70: in every unit system, at the enthalpy of wet steam with the vapour fraction `x` the calls return this fraction, the
saturation temperature, and the mixtures of the saturated volumes, entropies and internal energies -/
theorem C70_ph (u : UnitSystem) (p x : ℝ) (h0 : 0.000611657 < Quantity.p.si u p) (h1 : Quantity.p.si u p < 16.529) (x0 : 0 < x) (x1 : x < 1) :
    ∃ h t : ℝ, XSteam.h_px .ideal u (.fin p) (.fin x) = pure (.fin h) ∧ XSteam.x_ph .ideal u (.fin p) (.fin h) = pure (.fin x) ∧
      XSteam.tsat_p .ideal u (.fin p) = pure (.fin t) ∧ (XSteam.t_ph .ideal u (.fin p) (.fin h)).out = .ok (.fin t) ∧
      Mixes x (XSteam.v_ph .ideal u (.fin p) (.fin h)) (XSteam.vL_p .ideal u (.fin p)) (XSteam.vV_p .ideal u (.fin p)) ∧
      Mixes x (XSteam.s_ph .ideal u (.fin p) (.fin h)) (XSteam.sL_p .ideal u (.fin p)) (XSteam.sV_p .ideal u (.fin p)) ∧
      Mixes x (XSteam.u_ph .ideal u (.fin p) (.fin h)) (XSteam.uL_p .ideal u (.fin p)) (XSteam.uV_p .ideal u (.fin p)) := by
  have h2 : Quantity.p.si u p < 22.06395 := by linarith
  obtain ⟨h, e1, hr⟩ := C53_wet u p x h0 h1 x0 x1
  obtain ⟨hL, hV, h', eL, eV, e1', -, e2⟩ := C68_fraction u p x h0 h2 x0.le x1.le
  rw [e1] at e1'
  cases e1'
  obtain ⟨l, e3, -⟩ := x_of_x_ph h0 h2 (congrArg Py.out e2)
  have ex : (Region4.x4_ph .ideal (.fin (Quantity.p.si u p)) (.fin (Quantity.h.si u h))).out = .ok (.fin x) := by rw [e3]
  obtain ⟨a1, a2, -, -, -, b1, b2, -⟩ := kernels_sat h0 h1
  obtain ⟨a3, b3⟩ := kernels_sat_u h0 h1
  refine ⟨h, Quantity.T.user u (tsat (Quantity.p.si u p)), e1, e2, ?_, ?_, ?_, ?_, ?_⟩
  · unfold XSteam.tsat_p
    simp only [si, pure_bind, g1, g2, gt_num, fin_lt, if_pos (And.intro h0 h2), T4_p_eq h0 h2]
  · unfold XSteam.t_ph
    simp only [si, pure_bind]
    rw [out_bind_eq hr]
    norm_num [T4_p_eq h0 h2, pure_bind, si]
    rfl
  · refine ⟨Quantity.v.user u (gamma1.v (Quantity.p.si u p) (tsat (Quantity.p.si u p))),
      Quantity.v.user u (gamma2.v (Quantity.p.si u p) (tsat (Quantity.p.si u p))), _, ?_, ?_, ?_, user_line .v u x _ _⟩
    · unfold XSteam.vL_p
      simp only [si, pure_bind, g1, g2, g4, gt_num, fin_lt, if_pos (And.intro h0 h2), if_pos h1, T4_p_eq h0 h2, a1]
    · unfold XSteam.vV_p
      simp only [si, pure_bind, g1, g2, g4, gt_num, fin_lt, if_pos (And.intro h0 h2), if_pos h1, T4_p_eq h0 h2, b1]
    · unfold XSteam.v_ph
      simp only [si, pure_bind]
      rw [out_bind_eq hr]
      rw [if_neg (by norm_num), if_neg (by norm_num), if_neg (by norm_num), if_pos rfl, out_bind_eq ex]
      simp only [g4, g5, fin_lt, if_pos h1, T4_p_eq h0 h2, pure_bind, a1, b1, mul_ideal, sub_ideal, add_ideal, si]
      rfl
  · refine ⟨Quantity.s.user u (gamma1.s (Quantity.p.si u p) (tsat (Quantity.p.si u p))),
      Quantity.s.user u (gamma2.s (Quantity.p.si u p) (tsat (Quantity.p.si u p))), _, ?_, ?_, ?_, user_line .s u x _ _⟩
    · unfold XSteam.sL_p
      simp only [si, pure_bind, g1, g2, g4, gt_num, fin_lt, if_pos (And.intro h0 h2), if_pos h1, T4_p_eq h0 h2, a2]
    · unfold XSteam.sV_p
      simp only [si, pure_bind, g1, g2, g4, gt_num, fin_lt, if_pos (And.intro h0 h2), if_pos h1, T4_p_eq h0 h2, b2]
    · unfold XSteam.s_ph
      simp only [si, pure_bind]
      rw [out_bind_eq hr]
      rw [if_neg (by norm_num), if_neg (by norm_num), if_neg (by norm_num), if_pos rfl]
      simp only [T4_p_eq h0 h2, pure_bind]
      rw [out_bind_eq ex]
      simp only [g4, g5, fin_lt, if_pos h1, pure_bind, a2, b2, mul_ideal, sub_ideal, add_ideal, si]
      rfl
  · refine ⟨Quantity.u.user u (gamma1.u (Quantity.p.si u p) (tsat (Quantity.p.si u p))),
      Quantity.u.user u (gamma2.u (Quantity.p.si u p) (tsat (Quantity.p.si u p))), _, ?_, ?_, ?_, user_line .u u x _ _⟩
    · unfold XSteam.uL_p
      simp only [si, pure_bind, g1, g2, g4, gt_num, fin_lt, if_pos (And.intro h0 h2), if_pos h1, T4_p_eq h0 h2, a3]
    · unfold XSteam.uV_p
      simp only [si, pure_bind, g1, g2, g4, gt_num, fin_lt, if_pos (And.intro h0 h2), if_pos h1, T4_p_eq h0 h2, b3]
    · unfold XSteam.u_ph
      simp only [si, pure_bind]
      rw [out_bind_eq hr]
      rw [if_neg (by norm_num), if_neg (by norm_num), if_neg (by norm_num), if_pos rfl]
      simp only [T4_p_eq h0 h2, pure_bind]
      rw [out_bind_eq ex]
      simp only [g4, g5, fin_lt, if_pos h1, pure_bind, a3, b3, mul_ideal, sub_ideal, add_ideal, si]
      rfl

/-- the vapour fraction from the entropy, below region 3 -/
theorem x4_ps_low {p x : ℝ} (h0 : 0.000611657 < p) (h1 : p < 16.529) (x0 : 0 ≤ x) (x1 : x ≤ 1) :
    Region4.x4_ps .ideal (.fin p) (.fin (x * gamma2.s p (tsat p) + (1 - x) * gamma1.s p (tsat p))) = pure (.fin x) := by
  obtain ⟨-, a2, -, -, -, -, b2, -⟩ := kernels_sat h0 h1
  have hT : tsat p ≤ 623.15 := (tsat_lt h0 (by linarith) (by norm_num) (by linarith [psat_62315])).le
  have l := (liquid_low (liquid_sat h0 (by linarith)) hT h0).2
  have v := (vapour_high (vapour_sat h0 (by linarith)) h0).2
  have n1 : ¬ x * gamma2.s p (tsat p) + (1 - x) * gamma1.s p (tsat p) < gamma1.s p (tsat p) := by nlinarith
  have n2 : ¬ gamma2.s p (tsat p) < x * gamma2.s p (tsat p) + (1 - x) * gamma1.s p (tsat p) := by nlinarith
  have n3 : gamma2.s p (tsat p) - gamma1.s p (tsat p) ≠ 0 := by linarith [l.trans v]
  unfold Region4.x4_ps
  simp only [g4, fin_lt, gt_num, if_pos h1, T4_p_eq h0 (by linarith : p < 22.06395), pure_bind, a2, b2, if_neg n1, if_neg n2, sub_ideal, div_ideal n3]
  rw [show (x * gamma2.s p (tsat p) + (1 - x) * gamma1.s p (tsat p) - gamma1.s p (tsat p)) / (gamma2.s p (tsat p) - gamma1.s p (tsat p)) = x by
    field_simp; ring]

/-- C70: in every unit system, the entropy of wet steam with the vapour fraction `x`, if not negative, leads to the same fraction,
temperature, enthalpy, volume and internal energy as its enthalpy -/
theorem C70_ps (u : UnitSystem) (p x : ℝ) (h0 : 0.000611657 < Quantity.p.si u p) (h1 : Quantity.p.si u p < 16.529) (x0 : 0 < x) (x1 : x < 1) :
    ∃ h t sL sV : ℝ, XSteam.h_px .ideal u (.fin p) (.fin x) = pure (.fin h) ∧ XSteam.tsat_p .ideal u (.fin p) = pure (.fin t) ∧
      XSteam.sL_p .ideal u (.fin p) = pure (.fin sL) ∧ XSteam.sV_p .ideal u (.fin p) = pure (.fin sV) ∧
      (0 ≤ Quantity.s.si u (sL + x * (sV - sL)) → ∃ s : ℝ, s = sL + x * (sV - sL) ∧ (XSteam.s_ph .ideal u (.fin p) (.fin h)).out = .ok (.fin s) ∧
        XSteam.x_ps .ideal u (.fin p) (.fin s) = pure (.fin x) ∧
        (XSteam.t_ps .ideal u (.fin p) (.fin s)).out = .ok (.fin t) ∧
        (XSteam.h_ps .ideal u (.fin p) (.fin s)).out = .ok (.fin h) ∧
        (XSteam.v_ps .ideal u (.fin p) (.fin s)).out = (XSteam.v_ph .ideal u (.fin p) (.fin h)).out ∧
        (XSteam.u_ps .ideal u (.fin p) (.fin s)).out = (XSteam.u_ph .ideal u (.fin p) (.fin h)).out) := by
  have h2 : Quantity.p.si u p < 22.06395 := by linarith
  obtain ⟨h, t, e1, -, e3, -, ⟨vL, vV, yv, f1, f2, f3, f4⟩, ⟨sL, sV, ys, f5, f6, f7, f8⟩, ⟨uL, uV, yu, f9, f10, f11, f12⟩⟩ := C70_ph u p x h0 h1 x0 x1
  refine ⟨h, t, sL, sV, e1, e3, f5, f6, fun hs => ⟨ys, f8, f7, ?_⟩⟩
  obtain ⟨hL, hV, h', eL, eV, e1', e4, -⟩ := C68_fraction u p x h0 h2 x0.le x1.le
  rw [e1] at e1'
  cases e1'
  obtain ⟨a1, a2, -, -, -, b1, b2, -⟩ := kernels_sat h0 h1
  obtain ⟨a3, b3⟩ := kernels_sat_u h0 h1
  unfold XSteam.vL_p at f1
  unfold XSteam.vV_p at f2
  unfold XSteam.sL_p at f5
  unfold XSteam.sV_p at f6
  unfold XSteam.uL_p at f9
  unfold XSteam.uV_p at f10
  unfold XSteam.tsat_p at e3
  unfold XSteam.hL_p at eL
  unfold XSteam.hV_p at eV
  simp only [si, pure_bind, g1, g2, g4, gt_num, fin_lt, if_pos (And.intro h0 h2), if_pos h1, T4_p_eq h0 h2, a1, a2, a3, b1, b2, b3,
    h4L_p_low h0 h1, h4V_p_low h0 h1] at f1 f2 f5 f6 f9 f10 e3 eL eV
  cases f1; cases f2; cases f5; cases f6; cases f9; cases f10; cases e3; cases eL; cases eV
  set P := Quantity.p.si u p with hP
  have es : Quantity.s.si u ys = x * gamma2.s P (tsat P) + (1 - x) * gamma1.s P (tsat P) := by
    rw [f8, ← user_line, Quantity.si_user]
  have ex := x4_ps_low h0 h1 x0.le x1.le
  rw [← es] at ex
  have hT : tsat P ≤ 623.15 := (tsat_lt h0 (by linarith) (by norm_num) (by linarith [psat_62315])).le
  have l := (liquid_low (liquid_sat h0 (by linarith)) hT h0).2
  have v := (vapour_high (vapour_sat h0 (by linarith)) h0).2
  have v2 := s2_lt (vapour_sat h0 (by linarith)) (T' := 1073.15) le_rfl (by linarith)
  have v5 := s25_hot (show 0 < P by linarith) (by linarith)
  have hr : (RegionSelection.region_ps .ideal (.fin P) (.fin (Quantity.s.si u ys))).out = .ok 4 := by
    have n0 : 0 ≤ Quantity.s.si u ys := by rw [f8]; exact hs
    have n1 : Quantity.s.si u ys < gamma2.s P (tsat P) := by rw [es]; nlinarith
    have n2 : gamma1.s P (tsat P) < Quantity.s.si u ys := by rw [es]; nlinarith
    rw [region_ps_low h0 h1, Spec.PS.region, if_neg (by rintro (h | h) <;> linarith), if_neg (by linarith), if_neg (by linarith), if_pos n2]
  refine ⟨?_, ?_, ?_, ?_, ?_⟩
  · unfold XSteam.x_ps
    simp only [si, pure_bind, g1, g2, gt_num, fin_lt, ← hP, if_pos (And.intro h0 h2), ex, x_out x0.le x1.le]
  · unfold XSteam.t_ps
    simp only [si, pure_bind, ← hP]
    rw [out_bind_eq hr]
    rw [if_neg (by norm_num), if_neg (by norm_num), if_neg (by norm_num), if_pos rfl]
    simp only [T4_p_eq h0 h2, pure_bind, si]
    rfl
  · unfold XSteam.h_ps
    simp only [si, pure_bind, ← hP]
    rw [out_bind_eq hr]
    rw [if_neg (by norm_num), if_neg (by norm_num), if_neg (by norm_num), if_pos rfl]
    simp only [ex, h4L_p_low h0 h1, h4V_p_low h0 h1, pure_bind, g5, mul_ideal, sub_ideal, add_ideal, si]
    rw [e4, ← user_line]
    rfl
  · rw [f3, f4]
    unfold XSteam.v_ps
    simp only [si, pure_bind, ← hP]
    rw [out_bind_eq hr]
    rw [if_neg (by norm_num), if_neg (by norm_num), if_neg (by norm_num), if_pos rfl]
    simp only [ex, g4, g5, fin_lt, if_pos h1, T4_p_eq h0 h2, pure_bind, a1, b1, mul_ideal, sub_ideal, add_ideal, si]
    rw [← user_line]
    rfl
  · rw [f11, f12]
    unfold XSteam.u_ps
    simp only [si, pure_bind, ← hP]
    rw [out_bind_eq hr]
    rw [if_neg (by norm_num), if_neg (by norm_num), if_neg (by norm_num), if_pos rfl]
    simp only [ex, g4, g5, fin_lt, if_pos h1, T4_p_eq h0 h2, pure_bind, a3, b3, mul_ideal, sub_ideal, add_ideal, si]
    rw [← user_line]
    rfl

/-- C70: in every unit system the saturated vapour takes more room than the saturated liquid -/
theorem C70_volumes (u : UnitSystem) (p : ℝ) (h0 : 0.000611657 < Quantity.p.si u p) (h1 : Quantity.p.si u p < 16.529) :
    ∃ a b : ℝ, XSteam.vL_p .ideal u (.fin p) = pure (.fin a) ∧ XSteam.vV_p .ideal u (.fin p) = pure (.fin b) ∧ 0 < a ∧ a < b := by
  have h2 : Quantity.p.si u p < 22.06395 := by linarith
  obtain ⟨a1, -, -, -, -, b1, -⟩ := kernels_sat h0 h1
  refine ⟨Quantity.v.user u (gamma1.v (Quantity.p.si u p) (tsat (Quantity.p.si u p))),
      Quantity.v.user u (gamma2.v (Quantity.p.si u p) (tsat (Quantity.p.si u p))), ?_, ?_, ?_, ?_⟩
  · unfold XSteam.vL_p
    simp only [si, pure_bind, g1, g2, g4, gt_num, fin_lt, if_pos (And.intro h0 h2), if_pos h1, T4_p_eq h0 h2, a1]
  · unfold XSteam.vV_p
    simp only [si, pure_bind, g1, g2, g4, gt_num, fin_lt, if_pos (And.intro h0 h2), if_pos h1, T4_p_eq h0 h2, b1]
  · exact user_pos (q := .v) (fun u => by cases u <;> rfl) u (v1_pos (liquid_sat h0 (by linarith)))
  · exact Quantity.v.user_strictMono u ((v1_sat h0 (by linarith)).trans (v2_sat h0 (by linarith)))

private theorem z0 : FP.ideal.lit 0.0 = .fin 0 := by rw [lit_ideal]; norm_num
private theorem z1 : FP.ideal.lit 1.0 = .fin 1 := by rw [lit_ideal]; norm_num

theorem vx_out {u : UnitSystem} {x : ℝ} (h0 : 0 ≤ x) (h1 : x ≤ 1) : UnitConverter.fromSIunit_vx .ideal u (.fin x) = pure (.fin x) := by
  unfold UnitConverter.fromSIunit_vx
  rw [z0, z1, if_pos ⟨(fin_le _ _).2 h0, (fin_le _ _).2 h1⟩]

/-- C70: in every unit system `vx_ph` and `vx_ps` return the vapour's share of the volume, which exceeds its share of the mass -/
theorem C70_vx (u : UnitSystem) (p x : ℝ) (h0 : 0.000611657 < Quantity.p.si u p) (h1 : Quantity.p.si u p < 16.529) (x0 : 0 < x) (x1 : x < 1) :
    ∃ h s a b f : ℝ, XSteam.h_px .ideal u (.fin p) (.fin x) = pure (.fin h) ∧ (XSteam.s_ph .ideal u (.fin p) (.fin h)).out = .ok (.fin s) ∧
      XSteam.vL_p .ideal u (.fin p) = pure (.fin a) ∧ XSteam.vV_p .ideal u (.fin p) = pure (.fin b) ∧
      f = x * b / (x * b + (1 - x) * a) ∧ x < f ∧ f < 1 ∧
      (XSteam.vx_ph .ideal u (.fin p) (.fin h)).out = .ok (.fin f) ∧ (XSteam.vx_ps .ideal u (.fin p) (.fin s)).out = .ok (.fin f) := by
  have h2 : Quantity.p.si u p < 22.06395 := by linarith
  obtain ⟨h, t, e1, e2, e3, -, -, ⟨sL, sV, s, f5, f6, f7, f8⟩, -⟩ := C70_ph u p x h0 h1 x0 x1
  obtain ⟨a, b, f1, f2, a0, ab⟩ := C70_volumes u p h0 h1
  obtain ⟨l, e3, -⟩ := x_of_x_ph h0 h2 (congrArg Py.out e2)
  have ex : (Region4.x4_ph .ideal (.fin (Quantity.p.si u p)) (.fin (Quantity.h.si u h))).out = .ok (.fin x) := by rw [e3]
  obtain ⟨a1, a2, -, -, -, b1, b2, -⟩ := kernels_sat h0 h1
  unfold XSteam.vL_p at f1
  unfold XSteam.vV_p at f2
  unfold XSteam.sL_p at f5
  unfold XSteam.sV_p at f6
  simp only [si, pure_bind, g1, g2, g4, gt_num, fin_lt, if_pos (And.intro h0 h2), if_pos h1, T4_p_eq h0 h2, a1, a2, b1, b2] at f1 f2 f5 f6
  have f1' := f1
  have f2' := f2
  injection f1' with _ f1'; injection f1' with f1'; injection f1' with f1'
  injection f2' with _ f2'; injection f2' with f2'; injection f2' with f2'
  cases f5; cases f6
  set P := Quantity.p.si u p with hP
  have es : Quantity.s.si u s = x * gamma2.s P (tsat P) + (1 - x) * gamma1.s P (tsat P) := by
    rw [f8, ← user_line, Quantity.si_user]
  have ey := x4_ps_low h0 h1 x0.le x1.le
  rw [← es] at ey
  have d : 0 < x * b + (1 - x) * a := by nlinarith
  have q1 : x < x * b / (x * b + (1 - x) * a) := by
    rw [lt_div_iff₀ d]
    nlinarith [mul_pos x0 (sub_pos.2 x1)]
  have q2 : x * b / (x * b + (1 - x) * a) < 1 := by
    rw [div_lt_one d]
    nlinarith
  have hd : 0 < gamma1.v P (tsat P) ∧ gamma1.v P (tsat P) < gamma2.v P (tsat P) :=
    ⟨v1_pos (liquid_sat h0 (by linarith)), (v1_sat h0 (by linarith)).trans (v2_sat h0 (by linarith))⟩
  have d' : 0 < x * gamma2.v P (tsat P) + (1 - x) * gamma1.v P (tsat P) := by nlinarith [hd.1, hd.2]
  have sc := Quantity.v.scale_pos u
  have hf : x * gamma2.v P (tsat P) / (x * gamma2.v P (tsat P) + (1 - x) * gamma1.v P (tsat P)) = x * b / (x * b + (1 - x) * a) := by
    rw [← f1', ← f2']
    have o : Quantity.v.offset u = 0 := by cases u <;> rfl
    rw [div_eq_div_iff d'.ne' (by rw [f1', f2']; exact d.ne')]
    simp only [Quantity.user, o]
    ring
  refine ⟨h, s, a, b, _, e1, f7, ?_, ?_, rfl, q1, q2, ?_, ?_⟩
  · unfold XSteam.vL_p
    simp only [si, pure_bind, g1, g2, g4, gt_num, fin_lt, ← hP, if_pos (And.intro h0 h2), if_pos h1, T4_p_eq h0 h2, a1, f1']
  · unfold XSteam.vV_p
    simp only [si, pure_bind, g1, g2, g4, gt_num, fin_lt, ← hP, if_pos (And.intro h0 h2), if_pos h1, T4_p_eq h0 h2, b1, f2']
  · unfold XSteam.vx_ph
    simp only [si, pure_bind, g1, g2, g4, g5, gt_num, fin_lt, ← hP, if_pos (And.intro h0 h2), if_pos h1, T4_p_eq h0 h2, a1, b1]
    rw [out_bind_eq ex]
    simp only [mul_ideal, sub_ideal, add_ideal, div_ideal d'.ne', pure_bind]
    rw [hf, vx_out (by linarith) q2.le]
    rfl
  · unfold XSteam.vx_ps
    simp only [si, pure_bind, g1, g2, g4, g5, gt_num, fin_lt, ← hP, if_pos (And.intro h0 h2), if_pos h1, T4_p_eq h0 h2, a1, b1, ey]
    simp only [mul_ideal, sub_ideal, add_ideal, div_ideal d'.ne', pure_bind]
    rw [hf, vx_out (by linarith) q2.le]
    rfl

/-- steam at 10 bar with 30 % vapour meets the hypotheses of `C70_ph`, `C70_ps` and `C70_vx`; its entropy is positive -/
example : ∃ h s t : ℝ, XSteam.h_px .ideal .mks (.fin 10) (.fin 0.3) = pure (.fin h) ∧ XSteam.x_ph .ideal .mks (.fin 10) (.fin h) = pure (.fin 0.3) ∧
    (XSteam.s_ph .ideal .mks (.fin 10) (.fin h)).out = .ok (.fin s) ∧ XSteam.tsat_p .ideal .mks (.fin 10) = pure (.fin t) ∧
    (XSteam.t_ps .ideal .mks (.fin 10) (.fin s)).out = .ok (.fin t) ∧ (XSteam.h_ps .ideal .mks (.fin 10) (.fin s)).out = .ok (.fin h) := by
  have hp : Quantity.p.si .mks 10 = 1 := by norm_num [Quantity.si, Quantity.scale, Quantity.offset]
  obtain ⟨h, t, e1, e2, e3, -⟩ := C70_ph .mks 10 0.3 (by rw [hp]; norm_num) (by rw [hp]; norm_num) (by norm_num) (by norm_num)
  obtain ⟨h', t', sL, sV, e1', e3', e4, e5, e6⟩ := C70_ps .mks 10 0.3 (by rw [hp]; norm_num) (by rw [hp]; norm_num) (by norm_num) (by norm_num)
  rw [e1] at e1'
  cases e1'
  rw [e3] at e3'
  cases e3'
  obtain ⟨s, -, f1, -, f2, f3, -⟩ := e6 (by
    obtain ⟨-, a2, -, -, -, -, b2, -⟩ := kernels_sat (p := 1) (by norm_num) (by norm_num)
    unfold XSteam.sL_p at e4
    unfold XSteam.sV_p at e5
    simp only [si, pure_bind, g1, g2, g4, gt_num, fin_lt, hp, T4_p_eq (p := 1) (by norm_num) (by norm_num), a2, b2] at e4 e5
    norm_num at e4 e5
    cases e4
    cases e5
    rw [← user_line, Quantity.si_user]
    have hT : 303.15 ≤ tsat 1 := tsat_ge (by norm_num) (by norm_num) (le_of_lt ?_) (by norm_num)
    · have := s1_sat_pos (p := 1) (by norm_num) (by norm_num) hT
      have := s2_sat (p := 1) (by norm_num) (by norm_num)
      linarith
    · have h := psat_le (T := 303.15) (Tk := 303.15) (β := 0.9) (by norm_num) (by norm_num) (by norm_num) (by norm_num)
        (by norm_num [eqQ, thQ])
      norm_num at h ⊢
      linarith)
  exact ⟨h, s, t, e1, e2, f1, e3, f2, f3⟩

end PyX
