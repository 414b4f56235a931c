import Mathlib.Analysis.Calculus.Deriv.Basic
import Mathlib.Analysis.Calculus.Deriv.Mul

/-!
# What it means for properties to come from one thermodynamic potential

Units throughout: MPa, K, m³/kg, kJ/kg, kJ/(kg K), m/s.  `1000` turns MPa·m³ into kJ.
-/

namespace Spec

/-- `v, s, h, u, cp` are the properties belonging to the Gibbs free energy `g(p,T)` at the point `(p,T)` -/
structure Gibbs (g v s h u cp : ℝ → ℝ → ℝ) (p T : ℝ) : Prop where
  /-- `v = ∂g/∂p` -/
  volume : HasDerivAt (fun p => g p T) (1000 * v p T) p
  /-- `s = -∂g/∂T` -/
  entropy : HasDerivAt (fun T => g p T) (-s p T) T
  /-- `h = g + T s` -/
  enthalpy : h p T = g p T + T * s p T
  /-- `u = h - p v` -/
  energy : u p T = h p T - 1000 * p * v p T
  /-- `cp = ∂h/∂T` -/
  heat : HasDerivAt (fun T => h p T) (cp p T) T

/-- `cv` from `cp - cv = -T (∂v/∂T)² / (∂v/∂p)` -/
def IsochoricHeat (T vp vT cp cv : ℝ) : Prop := vp ≠ 0 ∧ cp - cv = -(1000 * T * vT ^ 2 / vp)

/-- the speed of sound from `w² (-(∂v/∂p) - T (∂v/∂T)² / cp) = v²` -/
def SoundSpeed (T v vp vT cp w : ℝ) : Prop :=
  0 ≤ w ∧ cp ≠ 0 ∧ w ^ 2 * (-vp - 1000 * T * vT ^ 2 / cp) = 10 ^ 6 * v ^ 2

/-- `p, s, u, h` are the properties belonging to the Helmholtz free energy `f(ρ,T)` at the point `(ρ,T)`,
and `cv = ∂u/∂T` -/
structure Helmholtz (f p s u h cv : ℝ → ℝ → ℝ) (ρ T : ℝ) : Prop where
  /-- `p = ρ² ∂f/∂ρ` -/
  pressure : HasDerivAt (fun ρ => f ρ T) (1000 * p ρ T / ρ ^ 2) ρ
  /-- `s = -∂f/∂T` -/
  entropy : HasDerivAt (fun T => f ρ T) (-s ρ T) T
  /-- `u = f + T s` -/
  energy : u ρ T = f ρ T + T * s ρ T
  /-- `h = u + p/ρ` -/
  enthalpy : h ρ T = u ρ T + 1000 * p ρ T / ρ
  /-- `cv = ∂u/∂T` -/
  heat : HasDerivAt (fun T => u ρ T) (cv ρ T) T

/-- `cp` from `cp - cv = T (∂p/∂T)² / (ρ² ∂p/∂ρ)` -/
def IsobaricHeat (ρ T pρ pT cv cp : ℝ) : Prop := pρ ≠ 0 ∧ cp - cv = 1000 * T * pT ^ 2 / (ρ ^ 2 * pρ)

/-- the speed of sound from `w² = ∂p/∂ρ + T (∂p/∂T)² / (ρ² cv)` -/
def SoundSpeedρ (ρ T pρ pT cv w : ℝ) : Prop :=
  0 ≤ w ∧ cv ≠ 0 ∧ w ^ 2 = 10 ^ 6 * pρ + 10 ^ 9 * T * pT ^ 2 / (ρ ^ 2 * cv)

end Spec
