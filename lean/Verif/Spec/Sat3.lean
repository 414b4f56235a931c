import Verif.Spec.IF97

/-!
# The saturation pressure of region 3 as a function of enthalpy and of entropy

IAPWS SR3-03(2014), equations 10 and 11 (tables 17 and 19): on the saturation line between 623.15 K and the critical temperature
`p = 22 MPa Σ n (η - 1.02)^I (η - 0.608)^J` with `η = h/(2600 kJ/kg)`, and
`p = 22 MPa Σ n (σ - 1.03)^I (σ - 0.699)^J` with `σ = s/(5.2 kJ/(kg K))`.
-/

namespace Spec.Sat3

open IF97

def tableH : List Term :=
  [⟨0, 0, 0.600073641753024⟩, ⟨1, 1, -9.36203654849857⟩, ⟨1, 3, 24.6590798594147⟩, ⟨1, 4, -107.014222858224⟩,
   ⟨1, 36, -91582131580576.8⟩, ⟨5, 3, -8623.32011700662⟩, ⟨7, 0, -23.5837344740032⟩, ⟨8, 24, 2.52304969384128e17⟩,
   ⟨14, 16, -3.89718771997719e18⟩, ⟨20, 16, -3.33775713645296e22⟩, ⟨22, 3, 35649946963.6328⟩, ⟨24, 18, -1.48547544720641e26⟩,
   ⟨28, 8, 3.30611514838798e18⟩, ⟨36, 24, 8.13641294467829e37⟩]

def tableS : List Term :=
  [⟨0, 0, 0.639767553612785⟩, ⟨1, 1, -12.9727445396014⟩, ⟨1, 32, -2.24595125848403e15⟩, ⟨4, 7, 1774667.41801846⟩,
   ⟨12, 4, 7170793495.71538⟩, ⟨12, 14, -3.78829107169011e17⟩, ⟨16, 36, -9.55586736431328e34⟩, ⟨24, 10, 1.87269814676188e23⟩,
   ⟨28, 0, 119254746466.473⟩, ⟨32, 18, 1.10649277244882e36⟩]

noncomputable def psH (h : ℝ) : ℝ := 22 * poly tableH (h / 2600 - 1.02) (h / 2600 - 0.608)
noncomputable def psS (s : ℝ) : ℝ := 22 * poly tableS (s / 5.2 - 1.03) (s / 5.2 - 0.699)

end Spec.Sat3
