import Verif.Props.RegionPT
import Mathlib.Analysis.SpecialFunctions.Pow.NNReal

/-!
# C41: the two equations of the border between regions 2 and 3

`B23p_T` is a parabola and `B23T_p` one branch of its inverse, with coefficients rounded to 14 digits.
-/

namespace PyX

open Classical Py Num Spec.PT

/-- the code of `B23T_p` in exact arithmetic -/
theorem B23T_p_eq {p : ℝ} (hp : 13.91883977887 ≤ p) : RegionBorders.B23T_p .ideal (.fin p) =
    pure (.fin (572.54459862746 + √((p - 13.91883977887) / 1.0192970039326e-03))) := by
  have h : 0 ≤ (p - 13.91883977887) / 1.0192970039326e-03 := div_nonneg (by linarith) (by norm_num)
  have e1 : FP.ideal.lit 572.54459862746 = .fin 572.54459862746 := by rw [lit_ideal]; norm_num
  have e2 : FP.ideal.lit 13.91883977887 = .fin 13.91883977887 := by rw [lit_ideal]; norm_num
  have e3 : FP.ideal.lit 1.0192970039326e-03 = .fin 1.0192970039326e-03 := by rw [lit_ideal]; norm_num
  have e4 : FP.ideal.lit 0.5 = .fin (1 / 2) := by rw [lit_ideal]; norm_num
  unfold RegionBorders.B23T_p
  simp only [e1, e2, e3, e4, sub_ideal]
  rw [div_ideal (by norm_num), pure_bind, pow_ideal_nonneg h (by norm_num), pure_bind, add_ideal, Real.sqrt_eq_rpow]

theorem b23_square (T : ℝ) : b23 T = 1.0192970039326e-03 * (T - 572.54459862746) ^ 2 +
    (1.0192970039326e-03 * (2 * 572.54459862746) - 1.1671859879975) * T +
    (348.05185628969 - 1.0192970039326e-03 * 572.54459862746 ^ 2) := by
  rw [b23]; ring

/-- the parabola in terms of the vertex used by `B23T_p` -/
theorem b23_vertex {T : ℝ} (h1 : 0 ≤ T) (h2 : T ≤ 1000) :
    |b23 T - (1.0192970039326e-03 * (T - 572.54459862746) ^ 2 + 13.91883977887)| ≤ 4e-11 := by
  rw [b23_square, abs_le]
  constructor <;> norm_num <;> linarith

/-- C41: from temperature to pressure and back, for every temperature from 623.15 K to 863.15 K -/
theorem C41_temperature (T : ℝ) (h1 : 623.15 ≤ T) (h2 : T ≤ 863.15) :
    ∃ p T', RegionBorders.B23p_T .ideal (.fin T) = pure (.fin p) ∧
      RegionBorders.B23T_p .ideal (.fin p) = pure (.fin T') ∧ |T' - T| ≤ 1e-9 := by
  have hv := abs_le.1 (b23_vertex (T := T) (by linarith) (by linarith))
  have hd : (50 : ℝ) ≤ T - 572.54459862746 := by linarith
  have hp : 13.91883977887 ≤ b23 T := by nlinarith
  refine ⟨_, _, B23p_T_eq T, B23T_p_eq hp, ?_⟩
  set d := T - 572.54459862746 with hdd
  set x := (b23 T - 13.91883977887) / 1.0192970039326e-03 with hx
  have hx' : x * 1.0192970039326e-03 = b23 T - 13.91883977887 := by rw [hx]; field_simp
  have hxl : (d - 1e-9) ^ 2 ≤ x := by nlinarith
  have hxu : x ≤ (d + 1e-9) ^ 2 := by nlinarith
  have l := Real.le_sqrt_of_sq_le hxl
  have r : √x ≤ d + 1e-9 := by
    rw [Real.sqrt_le_left (by linarith)]; exact hxu
  rw [abs_le]
  constructor <;> linarith

/-- C41: from pressure to temperature and back, for every pressure from 16.5 MPa to 100 MPa -/
theorem C41_pressure (p : ℝ) (h1 : 16.5 ≤ p) (h2 : p ≤ 101) :
    ∃ T p', RegionBorders.B23T_p .ideal (.fin p) = pure (.fin T) ∧
      RegionBorders.B23p_T .ideal (.fin T) = pure (.fin p') ∧ |p' - p| ≤ 1e-10 := by
  refine ⟨_, _, B23T_p_eq (by linarith), B23p_T_eq _, ?_⟩
  set x := (p - 13.91883977887) / 1.0192970039326e-03 with hx
  have hx' : x * 1.0192970039326e-03 = p - 13.91883977887 := by rw [hx]; field_simp
  have x0 : 0 ≤ x := by nlinarith
  have hs := Real.sq_sqrt x0
  have s0 := Real.sqrt_nonneg x
  have s1 : √x ≤ 400 := by
    rw [Real.sqrt_le_left (by norm_num)]; nlinarith
  have hv := abs_le.1 (b23_vertex (T := 572.54459862746 + √x) (by linarith) (by linarith))
  rw [add_sub_cancel_left, hs] at hv
  rw [abs_le]
  constructor <;> linarith

/-- C41: the border pressure rises with temperature -/
theorem C41_b23_mono (S T : ℝ) (h1 : 573 ≤ S) (hST : S < T) :
    ∃ p q, RegionBorders.B23p_T .ideal (.fin S) = pure (.fin p) ∧ RegionBorders.B23p_T .ideal (.fin T) = pure (.fin q) ∧
      p < q := by
  refine ⟨_, _, B23p_T_eq S, B23p_T_eq T, ?_⟩
  rw [b23, b23]
  nlinarith

/-- C41: the border temperature rises with pressure -/
theorem C41_b23T_mono (p q : ℝ) (h1 : 13.91883977887 ≤ p) (hpq : p < q) :
    ∃ S T, RegionBorders.B23T_p .ideal (.fin p) = pure (.fin S) ∧ RegionBorders.B23T_p .ideal (.fin q) = pure (.fin T) ∧
      S < T := by
  refine ⟨_, _, B23T_p_eq h1, B23T_p_eq (by linarith), ?_⟩
  have : √((p - 13.91883977887) / 1.0192970039326e-03) < √((q - 13.91883977887) / 1.0192970039326e-03) :=
    Real.sqrt_lt_sqrt (div_nonneg (by linarith) (by norm_num)) (div_lt_div_of_pos_right (by linarith) (by norm_num))
  linarith

/-- 700 K and 20 MPa meet the hypotheses -/
example : (∃ p T', RegionBorders.B23p_T .ideal (.fin 700) = pure (.fin p) ∧
      RegionBorders.B23T_p .ideal (.fin p) = pure (.fin T') ∧ |T' - 700| ≤ 1e-9) ∧
    (∃ T p', RegionBorders.B23T_p .ideal (.fin 20) = pure (.fin T) ∧
      RegionBorders.B23p_T .ideal (.fin T) = pure (.fin p') ∧ |p' - 20| ≤ 1e-10) :=
  ⟨C41_temperature 700 (by norm_num) (by norm_num), C41_pressure 20 (by norm_num) (by norm_num)⟩

end PyX
