import Mathlib.Analysis.SpecialFunctions.Pow.Real

/-!
# Specification: melting and sublimation pressures (IAPWS R14-08)

Pressures in MPa, temperatures in K, each curve relative to its reference point `(T*, p*)`.
-/

namespace Spec.IceCurves

noncomputable section

/-- reference points -/
def tripleT : ℝ := 273.16
def tripleP : ℝ := 611.657e-6

/-- eq. (1), ice Ih, from 251.165 K up to the triple point -/
def ih (T : ℝ) : ℝ :=
  tripleP * (1 + 0.119539337e7 * (1 - (T / tripleT) ^ (3 : ℝ)) + 0.808183159e5 * (1 - (T / tripleT) ^ (25.75 : ℝ)) +
    0.333826860e4 * (1 - (T / tripleT) ^ (103.75 : ℝ)))

/-- eq. (2), ice III, reference point 251.165 K, 208.566 MPa -/
def iii (T : ℝ) : ℝ := 208.566 * (1 - 0.299948 * (1 - (T / 251.165) ^ 60))

/-- eq. (3), ice V, reference point 256.164 K, 350.1 MPa -/
def v (T : ℝ) : ℝ := 350.1 * (1 - 1.18721 * (1 - (T / 256.164) ^ 8))

/-- eq. (4), ice VI, reference point 273.31 K, 632.4 MPa -/
def vi (T : ℝ) : ℝ := 632.4 * (1 - 1.07476 * (1 - (T / 273.31) ^ (4.6 : ℝ)))

/-- eq. (5), the logarithm of the reduced melting pressure of ice VII -/
def viiLog (θ : ℝ) : ℝ :=
  0.173683e1 * (1 - θ⁻¹) - 0.544606e-1 * (1 - θ ^ 5) + 0.806106e-7 * (1 - θ ^ 22)

/-- eq. (5), ice VII, reference point 355 K, 2216 MPa -/
def vii (T : ℝ) : ℝ := 2216 * Real.exp (viiLog (T / 355))

/-- eq. (6), the logarithm of the reduced sublimation pressure -/
def sublLog (θ : ℝ) : ℝ :=
  θ⁻¹ * (-0.212144006e2 * θ ^ (0.333333333e-2 : ℝ) + 0.273203819e2 * θ ^ (0.120666667e1 : ℝ) -
    0.610598130e1 * θ ^ (0.170333333e1 : ℝ))

/-- eq. (6), sublimation pressure -/
def subl (T : ℝ) : ℝ := tripleP * Real.exp (sublLog (T / tripleT))

end

end Spec.IceCurves
