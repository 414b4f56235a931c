import Verif.Spec.Saturation

/-!
# The map of regions in the (p, T) plane, over the reals (MPa, K)

This follows figure 1 of IAPWS-IF97 with the limits the code documents: the saturation line has a band of
1e-5 MPa (code 4), region 5 reaches up to 2273.15 K and 50 MPa, and pressures start at 0.000611 MPa.
-/

namespace Spec.PT

open Spec.Sat

/-- pressure of the border between regions 2 and 3 (IAPWS-IF97 equation 5) -/
noncomputable def b23 (T : ℝ) : ℝ := 348.05185628969 - 1.1671859879975 * T + 0.0010192970039326 * T ^ 2

/-- `ps` is the saturation pressure at `T` -/
def Sat (ps T : ℝ) : Prop := 0 < ps ∧ ps < 23.4 ∧ OnLine ps T

/-- `(p, T)` counts as saturated -/
def Saturated (p T : ℝ) : Prop := ∃ ps, Sat ps T ∧ |p - ps| < 0.00001

/-- the part of the plane covered by regions 1 to 4 -/
def Box (p T : ℝ) : Prop := 273.15 < T ∧ T ≤ 1073.15 ∧ 0.000611 < p ∧ p ≤ 100

/-- the part of the plane covered by region 5 -/
def Hot (p T : ℝ) : Prop := 1073.15 < T ∧ T < 2273.15 ∧ 0.000611 < p ∧ p < 50

/-- the region with number `k` contains `(p, T)` -/
def InRegion (k : ℤ) (p T : ℝ) : Prop :=
  (k = 0 ∧ ¬ Box p T ∧ ¬ Hot p T) ∨
  (k = 5 ∧ Hot p T) ∨
  (k = 1 ∧ Box p T ∧ T ≤ 623.15 ∧ ¬ Saturated p T ∧ ∃ ps, Sat ps T ∧ ps < p) ∨
  (k = 2 ∧ Box p T ∧ T ≤ 623.15 ∧ ¬ Saturated p T ∧ ∃ ps, Sat ps T ∧ p < ps) ∨
  (k = 2 ∧ Box p T ∧ 623.15 < T ∧ p ≤ b23 T) ∨
  (k = 3 ∧ Box p T ∧ 623.15 < T ∧ b23 T < p ∧ ¬ (T < 647.096 ∧ Saturated p T)) ∨
  (k = 4 ∧ Box p T ∧ T ≤ 623.15 ∧ Saturated p T) ∨
  (k = 4 ∧ Box p T ∧ 623.15 < T ∧ b23 T < p ∧ T < 647.096 ∧ Saturated p T)

end Spec.PT
