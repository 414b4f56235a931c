import Mathlib.Data.Real.Basic

/-!
# The region of a state given by pressure and enthalpy or entropy

On an isobar below the pressures of region 3 the states are ordered by their enthalpy: compressed liquid from 273.15 K
(`h0`) to saturation (`hL`), wet steam up to saturated steam (`hV`), steam up to 1073.15 K (`h2`), and, up to 10 MPa,
hot steam up to 2273.15 K (`h5`).
-/

namespace PyX.Spec.PH

noncomputable def region (p h h0 hL hV h2 h5 : ℝ) : ℤ :=
  if h < h0 then 0 else if h ≤ hL then 1 else if h < hV then 4 else if h ≤ h2 then 2 else if p ≤ 10 ∧ h < h5 then 5 else 0

/-- the states of the regions 1, 2 and 5 which are classified alike by (p, T) and by (p, h): not those with a pressure
up to 0.000611657 MPa, not those in the gap of 10⁻⁴ MPa at the lower end of region 3, not those on the border to region 3
and, above the gap, on the isotherm 1073.15 K, and of region 5 those up to 10 MPa and from 1073.2 K -/
def Clear (b23 : ℝ → ℝ) (k : ℤ) (p T : ℝ) : Prop :=
  0.000611657 < p ∧
  (k = 1 ∧ (p < 16.5292 ∨ T < 623.15) ∨
   k = 2 ∧ (p ≤ 16.5291 ∨ 16.5292 ≤ p ∧ T < 1073.15 ∧ p + 1e-10 ≤ b23 T) ∨
   k = 5 ∧ p ≤ 10 ∧ 1073.2 ≤ T)

end PyX.Spec.PH

namespace PyX.Spec.PS

/-- the region by entropy below region 3, as implemented: entropies from 0 to that of the compressed liquid at 273.15 K
count as liquid -/
noncomputable def region (p s sL sV s2 s5 : ℝ) : ℤ :=
  if s < 0 ∨ s5 < s then 0 else if s2 < s then (if p ≤ 10 then 5 else 0) else if sV < s then 2 else if sL < s then 4 else 1

/-- the states of the regions 1, 2 and 5 which are classified alike by (p, T) and by (p, s): not those with a pressure
up to 0.000611657 MPa or in the gap of 2·10⁻⁴ MPa at the lower end of region 3, not the liquid with negative entropy
`s`, not those on the border to region 3, and of region 5 those up to 10 MPa and from 1073.2 K -/
def Clear (b23 : ℝ → ℝ) (k : ℤ) (p T s : ℝ) : Prop :=
  0.000611657 < p ∧ (p < 16.529 ∨ 16.5292 ≤ p) ∧
  (k = 1 ∧ 0 ≤ s ∨
   k = 2 ∧ (p < 16.529 ∨ p + 1e-10 ≤ b23 T) ∨
   k = 5 ∧ p ≤ 10 ∧ 1073.2 ≤ T)

end PyX.Spec.PS
