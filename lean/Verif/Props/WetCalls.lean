import Verif.Props.Wet3
import Verif.Props.RegionPH

/-!
# C68: enthalpy and vapour fraction of wet steam up to the critical pressure
-/

namespace PyX

open Classical Py Num _root_.Spec.Sat _root_.Spec.IF97 _root_.Spec.Sat3 Kron

private theorem g1 : FP.ideal.lit 0.000611657 = .fin 0.000611657 := by rw [lit_ideal]; norm_num
private theorem g2 : FP.ideal.lit 22.06395 = .fin 22.06395 := by rw [lit_ideal]; norm_num
private theorem g3 : FP.ideal.lit 22.064 = .fin 22.064 := by rw [lit_ideal]; norm_num
private theorem g4 : Num.ofInt 0 = .fin 0 := by rw [ofInt_eq]; norm_num
private theorem g5 : Num.ofInt 1 = .fin 1 := by rw [ofInt_eq]; norm_num

theorem x_out {u : UnitSystem} {x : ℝ} (h0 : 0 ≤ x) (h1 : x ≤ 1) : UnitConverter.fromSIunit_x .ideal u (.fin x) = pure (.fin x) :=
  (C03_fraction .ideal FP.ideal_sane u (.fin x) UnitConverter.fromSIunit_x (by simp [fractionConverters])).1 ⟨x, rfl, h0, h1⟩

/-- the saturated enthalpies of the code, up to 22.06395 MPa -/
theorem h4_lt {p : ℝ} (h0 : 0.000611657 < p) (h1 : p < 22.06395) :
    ∃ hL hV : ℝ, Region4.h4L_p .ideal (.fin p) = pure (.fin hL) ∧ Region4.h4V_p .ideal (.fin p) = pure (.fin hV) ∧ hL < hV := by
  rcases lt_or_ge p 16.529 with h2 | h2
  · have hT : tsat p ≤ 623.15 := (tsat_lt h0 h1 (by norm_num) (by linarith [psat_62315])).le
    exact ⟨_, _, h4L_p_low h0 h2, h4V_p_low h0 h2, (liquid_low (liquid_sat h0 (by linarith)) hT h0).1.trans (vapour_high (vapour_sat h0 (by linarith)) h0).1⟩
  · obtain ⟨a, a1, ⟨-, a2⟩, -⟩ := C68_h4L_p p h2 h1
    obtain ⟨b, b1, ⟨b2, -⟩, -⟩ := C68_h4V_p p h2 h1
    exact ⟨a, b, a1, b1, by linarith⟩

/-- C68: in every unit system and on the whole range of saturation pressures accepted by the calls, `hL_p < hV_p` -/
theorem C68_latent_heat (u : UnitSystem) (p : ℝ) (h0 : 0.000611657 < Quantity.p.si u p) (h1 : Quantity.p.si u p < 22.06395) :
    ∃ hL hV : ℝ, XSteam.hL_p .ideal u (.fin p) = pure (.fin hL) ∧ XSteam.hV_p .ideal u (.fin p) = pure (.fin hV) ∧ hL < hV := by
  obtain ⟨hL, hV, a, b, c⟩ := h4_lt h0 h1
  unfold XSteam.hL_p XSteam.hV_p
  simp only [si, pure_bind, g1, g2, gt_num, fin_lt, if_pos (And.intro h0 h1), a, b]
  exact ⟨_, _, rfl, rfl, Quantity.h.user_strictMono u c⟩

/-- C68: `h_px` interpolates between `hL_p` and `hV_p`, and `x_ph` inverts it exactly: in every unit system, for every saturation
pressure accepted by the calls and every vapour fraction from 0 to 1 -/
theorem C68_fraction (u : UnitSystem) (p x : ℝ) (h0 : 0.000611657 < Quantity.p.si u p) (h1 : Quantity.p.si u p < 22.06395) (x0 : 0 ≤ x)
    (x1 : x ≤ 1) :
    ∃ hL hV h : ℝ, XSteam.hL_p .ideal u (.fin p) = pure (.fin hL) ∧ XSteam.hV_p .ideal u (.fin p) = pure (.fin hV) ∧
      XSteam.h_px .ideal u (.fin p) (.fin x) = pure (.fin h) ∧ h = hL + x * (hV - hL) ∧
      XSteam.x_ph .ideal u (.fin p) (.fin h) = pure (.fin x) := by
  obtain ⟨hL, hV, a, b, c⟩ := h4_lt h0 h1
  have hg : ¬ (1 < x ∨ x < 0 ∨ 22.064 ≤ Quantity.p.si u p) := by
    rintro (h | h | h) <;> linarith
  refine ⟨Quantity.h.user u hL, Quantity.h.user u hV, Quantity.h.user u (hL + x * (hV - hL)), ?_, ?_, ?_, ?_, ?_⟩
  · unfold XSteam.hL_p
    simp only [si, pure_bind, g1, g2, gt_num, fin_lt, if_pos (And.intro h0 h1), a]
  · unfold XSteam.hV_p
    simp only [si, pure_bind, g1, g2, gt_num, fin_lt, if_pos (And.intro h0 h1), b]
  · unfold XSteam.h_px
    simp only [si, pure_bind, g3, gt_num, fin_lt, a, b, x_ok x0 x1, ge_num, g4, g5, fin_le, if_neg hg, sub_ideal, mul_ideal, add_ideal]
  · cases u <;> simp only [Quantity.user, Quantity.scale, Quantity.offset] <;> ring
  · unfold XSteam.x_ph Region4.x4_ph
    have n1 : ¬ hV < hL + x * (hV - hL) := by nlinarith
    have n2 : ¬ hL + x * (hV - hL) < hL := by nlinarith
    have n3 : hV - hL ≠ 0 := by linarith [c]
    simp only [si, pure_bind, g1, g2, gt_num, fin_lt, if_pos (And.intro h0 h1), a, b, Quantity.si_user, if_neg n1, if_neg n2, sub_ideal,
      div_ideal n3]
    rw [show (hL + x * (hV - hL) - hL) / (hV - hL) = x by field_simp; ring]
    exact x_out x0 x1

/-- C68: outside the two phases `x_ph` is cut off at 0 and 1 -/
theorem C68_clamp (u : UnitSystem) (p h : ℝ) (h0 : 0.000611657 < Quantity.p.si u p) (h1 : Quantity.p.si u p < 22.06395) :
    ∃ hL hV x : ℝ, XSteam.hL_p .ideal u (.fin p) = pure (.fin hL) ∧ XSteam.hV_p .ideal u (.fin p) = pure (.fin hV) ∧
      XSteam.x_ph .ideal u (.fin p) (.fin h) = pure (.fin x) ∧ 0 ≤ x ∧ x ≤ 1 ∧ (h ≤ hL ↔ x = 0) ∧ (hV ≤ h ↔ x = 1) := by
  obtain ⟨hL, hV, a, b, c⟩ := h4_lt h0 h1
  have mono := Quantity.h.user_strictMono u
  have eh : h = Quantity.h.user u (Quantity.h.si u h) := (Quantity.user_si _ _ _).symm
  refine ⟨Quantity.h.user u hL, Quantity.h.user u hV, if hV < Quantity.h.si u h then 1 else if Quantity.h.si u h < hL then 0 else
    (Quantity.h.si u h - hL) / (hV - hL), ?_, ?_, ?_, ?_⟩
  · unfold XSteam.hL_p
    simp only [si, pure_bind, g1, g2, gt_num, fin_lt, if_pos (And.intro h0 h1), a]
  · unfold XSteam.hV_p
    simp only [si, pure_bind, g1, g2, gt_num, fin_lt, if_pos (And.intro h0 h1), b]
  · unfold XSteam.x_ph Region4.x4_ph
    have n3 : hV - hL ≠ 0 := by linarith [c]
    simp only [si, pure_bind, g1, g2, gt_num, fin_lt, if_pos (And.intro h0 h1), a, b, sub_ideal, div_ideal n3, g4, g5]
    split_ifs with c1 c2
    · simp only [pure_bind, x_out zero_le_one le_rfl]
    · simp only [pure_bind, x_out le_rfl zero_le_one]
    · have d : 0 < hV - hL := by linarith
      rw [not_lt] at c1 c2
      simp only [pure_bind, x_out (x := (Quantity.h.si u h - hL) / (hV - hL)) (div_nonneg (by linarith) d.le) ((div_le_one d).2 (by linarith))]
  · have d : 0 < hV - hL := by linarith
    have f1 : h ≤ Quantity.h.user u hL ↔ Quantity.h.si u h ≤ hL := by
      conv_lhs => rw [eh]
      exact mono.le_iff_le
    have f2 : Quantity.h.user u hV ≤ h ↔ hV ≤ Quantity.h.si u h := by
      conv_lhs => rw [eh]
      exact mono.le_iff_le
    rw [f1, f2]
    split_ifs with c1 c2
    · exact ⟨zero_le_one, le_rfl, ⟨fun h => by linarith, fun h => absurd h one_ne_zero⟩, ⟨fun _ => rfl, fun _ => c1.le⟩⟩
    · exact ⟨le_rfl, zero_le_one, ⟨fun _ => rfl, fun _ => c2.le⟩, ⟨fun h => by linarith, fun h => absurd h.symm one_ne_zero⟩⟩
    · rw [not_lt] at c1 c2
      refine ⟨div_nonneg (by linarith) d.le, (div_le_one d).2 (by linarith), ?_, ?_⟩
      · rw [div_eq_zero_iff]
        constructor
        · intro h; left; linarith
        · rintro (h | h) <;> linarith
      · rw [div_eq_one_iff_eq d.ne']
        constructor <;> intro h <;> linarith

/-- 200 bar meets the hypotheses -/
example : (∃ hL hV : ℝ, XSteam.hL_p .ideal .mks (.fin 200) = pure (.fin hL) ∧ XSteam.hV_p .ideal .mks (.fin 200) = pure (.fin hV) ∧ hL < hV) ∧
    ∃ h : ℝ, XSteam.h_px .ideal .mks (.fin 200) (.fin 0.3) = pure (.fin h) ∧ XSteam.x_ph .ideal .mks (.fin 200) (.fin h) = pure (.fin 0.3) := by
  have hp : Quantity.p.si .mks 200 = 20 := by norm_num [Quantity.si, Quantity.scale, Quantity.offset]
  obtain ⟨a, b, h, -, -, h1, -, h2⟩ := C68_fraction .mks 200 0.3 (by rw [hp]; norm_num) (by rw [hp]; norm_num) (by norm_num) (by norm_num)
  exact ⟨C68_latent_heat .mks 200 (by rw [hp]; norm_num) (by rw [hp]; norm_num), h, h1, h2⟩

/-- at 20 MPa `h4L_p` and `h4V_p` solve `p3sat_h = 20` to 10⁻⁵ MPa -/
example : ∃ a b : ℝ, Region4.h4L_p .ideal (.fin 20) = pure (.fin a) ∧ Region4.h4V_p .ideal (.fin 20) = pure (.fin b) ∧
    |psH a - 20| ≤ 1e-5 ∧ |psH b - 20| ≤ 1e-5 := by
  obtain ⟨a, a1, -, a2⟩ := C68_h4L_p 20 (by norm_num) (by norm_num)
  obtain ⟨b, b1, -, b2⟩ := C68_h4V_p 20 (by norm_num) (by norm_num)
  exact ⟨a, b, a1, b1, by norm_num at a2 ⊢; linarith, by norm_num at b2 ⊢; linarith⟩

end PyX
