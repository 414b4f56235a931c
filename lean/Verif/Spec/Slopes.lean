import Mathlib.Analysis.Calculus.Deriv.Basic
import Verif.Spec.Thermo

/-!
# Relations between the slopes of the properties and the properties (C82)
-/

namespace Spec

/-- Relations of thermodynamics between volume (m³/kg), enthalpy (kJ/kg) and entropy (kJ/(kg K)) as functions of pressure (MPa)
and temperature (K) on a set of states, and the heat capacities and the speed of sound (m/s) at the state `(p, T)`. -/
structure Slopes (A : ℝ → ℝ → Prop) (v h s : ℝ → ℝ → ℝ) (cp cv w p T : ℝ) : Prop where
  /-- the heat capacity at constant pressure -/
  heat : HasDerivWithinAt (fun T => h p T) cp {T | A p T} T
  /-- `T ∂s/∂T = cp` -/
  entropy : HasDerivWithinAt (fun T => s p T) (cp / T) {T | A p T} T
  /-- the slopes of the volume give those of entropy and enthalpy with the pressure, `cv` and `w` -/
  volume : ∃ vp vT : ℝ, HasDerivWithinAt (fun p => v p T) vp {p | A p T} p ∧
    HasDerivWithinAt (fun T => v p T) vT {T | A p T} T ∧
    HasDerivWithinAt (fun p => s p T) (-(1000 * vT)) {p | A p T} p ∧
    HasDerivWithinAt (fun p => h p T) (1000 * (v p T - T * vT)) {p | A p T} p ∧
    vp < 0 ∧ cp - cv = -(1000 * T * vT ^ 2 / vp) ∧ 0 < w ∧ w ^ 2 = -(10 ^ 6 * v p T ^ 2 * cp / (cv * vp))

end Spec
