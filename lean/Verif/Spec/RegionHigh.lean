import Mathlib.Data.Real.Basic

/-!
# The region of a state given by pressure and enthalpy or entropy at the pressures of region 3

On an isobar between 16.5292 MPa and 100 MPa the states are ordered by enthalpy, and by entropy: liquid of region 1 from 273.15 K to
623.15 K, region 3 up to the border to region 2, and region 2 up to 1073.15 K. Below the critical pressure region 3 is split by the
wet steam between the saturated liquid (`a`) and the saturated steam (`b`).
-/

namespace PyX.Spec.High

/-- between the border to region 1 and the border to region 2, below the critical pressure -/
noncomputable def middle (x a b : ℝ) : ℤ := if a ≤ x ∧ x ≤ b then 4 else 3

/-- by enthalpy, with the region `m` between the borders of region 3 -/
noncomputable def byH (h hF h13 h23 hT : ℝ) (m : ℤ) : ℤ :=
  if h < hF then 0 else if h < h13 then 1 else if h < h23 then m else if h < hT then 2 else 0

/-- by entropy, with the region `m` between the borders of region 3; all entropies from 0 to the border of region 1 count as liquid -/
noncomputable def byS (s s13 s23 sT : ℝ) (m : ℤ) : ℤ :=
  if s < 0 ∨ sT < s then 0 else if s23 < s then 2 else if s13 < s then m else 1

end PyX.Spec.High
