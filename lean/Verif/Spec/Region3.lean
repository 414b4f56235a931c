import Verif.Spec.RegionPT

/-!
# Single-phase states of region 3

The equation of region 3 is written in density and temperature. Below the critical temperature not every density belongs to a
state which exists: the stable states are denser than the critical density at pressures above saturation, and less dense below.
The equation has further, unstable solutions inside the dome of the two-phase region; `1200 (647.096 - T) ≤ (322 - ρ)²` leaves
out the middle of the dome, where they are. Saturated liquid and vapour of the library's equations have
`(322 - ρ)² ≥ 1800 (647.096 - T)`.
-/

namespace Spec.R3

open Spec.PT

/-- `ρ` (kg/m³) is a density for a stable state of region 3 at `p` (MPa) and `T` (K) -/
structure Stable (p ρ T : ℝ) : Prop where
  region : InRegion 3 p T
  density : 96.6 ≤ ρ ∧ ρ ≤ 772.8
  dome : T < 647.096 → 1200 * (647.096 - T) ≤ (322 - ρ) ^ 2
  side : T < 647.096 → ∀ ps, Sat ps T → (322 ≤ ρ → ps ≤ p) ∧ (ρ ≤ 322 → p ≤ ps)

end Spec.R3
