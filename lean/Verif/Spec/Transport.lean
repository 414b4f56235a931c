import Mathlib.Analysis.SpecialFunctions.Pow.Real

/-!
# The published correlations for viscosity and thermal conductivity

Ordinary water: viscosity of the IAPWS formulation 1985 (revised 2003), thermal conductivity of the IAPWS formulation 1985 for
industrial use (revised 1998). Densities in kg/m³, temperatures in K, viscosities in Pa s, conductivities in W/(m K).
-/

namespace Spec.Transport

open Real

/-- exponent of `1/T̄ - 1`, exponent of `ρ̄ - 1`, coefficient -/
def visc : List (ℕ × ℕ × ℝ) :=
  [(0, 0, 0.5132047), (1, 0, 0.3205656), (4, 0, -0.7782567), (5, 0, 0.1885447),
   (0, 1, 0.2151778), (1, 1, 0.7317883), (2, 1, 1.2410440), (3, 1, 1.4767830),
   (0, 2, -0.2818107), (1, 2, -1.0707860), (2, 2, -1.2631840),
   (0, 3, 0.1778064), (1, 3, 0.4605040), (2, 3, 0.2340379), (3, 3, -0.4924179),
   (0, 4, -0.0417661), (3, 4, 0.1600435), (1, 5, -0.01578386), (3, 6, -0.003629481)]

/-- viscosity of the dilute gas, without dimension -/
noncomputable def mu0 (t : ℝ) : ℝ := √t / (1 + 0.978197 / t + 0.579829 / t ^ 2 - 0.202354 / t ^ 3)

/-- contribution of the density, without dimension -/
noncomputable def mu1 (d t : ℝ) : ℝ := exp (d * (visc.map fun c => c.2.2 * (1 / t - 1) ^ c.1 * (d - 1) ^ c.2.1).sum)

/-- viscosity of water (Pa s) -/
noncomputable def mu (ρ T : ℝ) : ℝ := 55.071e-6 * mu0 (T / 647.226) * mu1 (ρ / 317.763) (T / 647.226)

/-- thermal conductivity of the dilute gas -/
noncomputable def lam0 (t : ℝ) : ℝ := √t * (0.0102811 + 0.0299621 * t + 0.0156146 * t ^ 2 - 0.00422464 * t ^ 3)

noncomputable def lam1 (d : ℝ) : ℝ := -0.397070 + 0.400302 * d + 1.060000 * exp (-0.171587 * (d + 2.392190) ^ 2)

noncomputable def dT (t : ℝ) : ℝ := |t - 1| + 0.00308976

noncomputable def Q (t : ℝ) : ℝ := 2 + 0.0822994 / dT t ^ (3 / 5 : ℝ)

noncomputable def S (t : ℝ) : ℝ := if 1 ≤ t then 1 / dT t else 10.0932 / dT t ^ (3 / 5 : ℝ)

noncomputable def lam2 (d t : ℝ) : ℝ :=
  (0.0701309 / t ^ 10 + 0.0118520) * d ^ (9 / 5 : ℝ) * exp (0.642857 * (1 - d ^ (14 / 5 : ℝ))) +
  0.00169937 * S t * d ^ Q t * exp (Q t / (1 + Q t) * (1 - d ^ (1 + Q t))) -
  1.02 * exp (-4.11717 * t ^ (3 / 2 : ℝ) - 6.17937 / d ^ 5)

/-- thermal conductivity of water (W/(m K)) -/
noncomputable def lam (ρ T : ℝ) : ℝ := lam0 (T / 647.26) + lam1 (ρ / 317.7) + lam2 (ρ / 317.7) (T / 647.26)

end Spec.Transport
