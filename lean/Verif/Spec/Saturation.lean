import Mathlib.Data.Real.Basic
import Mathlib.Analysis.SpecialFunctions.Pow.Real

/-!
# The saturation line of IAPWS-IF97 (equation 29)

One implicit quadratic equation between `β = (p/MPa)^(1/4)` and `ϑ = T + n9/(T - n10)`, which the code
solves for `β` in one function and for `ϑ` in another.
-/

namespace Spec.Sat

noncomputable def n1 : ℝ := 1167.0521452767
noncomputable def n2 : ℝ := -724213.16703206
noncomputable def n3 : ℝ := -17.073846940092
noncomputable def n4 : ℝ := 12020.82470247
noncomputable def n5 : ℝ := -3232555.0322333
noncomputable def n6 : ℝ := 14.91510861353
noncomputable def n7 : ℝ := -4823.2657361591
noncomputable def n8 : ℝ := 405113.40542057
noncomputable def n9 : ℝ := -0.23855557567849
noncomputable def n10 : ℝ := 650.17534844798

/-- the left-hand side of the saturation equation -/
noncomputable def eq29 (β ϑ : ℝ) : ℝ :=
  β ^ 2 * ϑ ^ 2 + n1 * β ^ 2 * ϑ + n2 * β ^ 2 + n3 * β * ϑ ^ 2 + n4 * β * ϑ + n5 * β + n6 * ϑ ^ 2 + n7 * ϑ + n8

noncomputable def theta (T : ℝ) : ℝ := T + n9 / (T - n10)

/-- `p` (MPa) and `T` (K) are on the saturation line -/
def OnLine (p T : ℝ) : Prop := eq29 (p ^ (1 / 4 : ℝ)) (theta T) = 0

end Spec.Sat
