import Mathlib.Data.Real.Basic
import Mathlib.Data.Rat.Cast.Defs
import Mathlib.Analysis.SpecialFunctions.Log.Basic

/-!
# The fundamental equations of IAPWS-IF97

Written down as mathematics, independently of the Python code: the dimensionless Gibbs free energies of
regions 1, 2 and 5 and the dimensionless Helmholtz free energy of region 3.  Each is a sum of terms
`n xᴵ yᴶ` (plus a logarithm), so each is given by a list of triples `(I, J, n)`.

The region 5 equation is the one of the original IF97 release (5 residual terms, meant for `p ≤ 10 MPa`);
the revised release of 2007 has 6 and is meant for `p ≤ 50 MPa`.
-/

namespace Spec.IF97

/-- a term `n xᴵ yᴶ` -/
structure Term where
  I : ℤ
  J : ℤ
  n : ℚ

/-- the value of a sum of terms -/
noncomputable def poly (t : List Term) (x y : ℝ) : ℝ :=
  (t.map fun t => (t.n : ℝ) * x ^ t.I * y ^ t.J).sum

/-- the specific gas constant of water, kJ/(kg K) -/
noncomputable def R : ℝ := 0.461526

/-- region 1 -/
def region1 : List Term :=
  [⟨0, -2, 0.14632971213167⟩, ⟨0, -1, -0.84548187169114⟩, ⟨0, 0, -3.756360367204⟩,
   ⟨0, 1, 3.3855169168385⟩, ⟨0, 2, -0.95791963387872⟩, ⟨0, 3, 0.15772038513228⟩,
   ⟨0, 4, -0.016616417199501⟩, ⟨0, 5, 8.1214629983568e-04⟩, ⟨1, -9, 2.8319080123804e-04⟩,
   ⟨1, -7, -6.0706301565874e-04⟩, ⟨1, -1, -0.018990068218419⟩, ⟨1, 0, -0.032529748770505⟩,
   ⟨1, 1, -0.021841717175414⟩, ⟨1, 3, -5.283835796993e-05⟩, ⟨2, -3, -4.7184321073267e-04⟩,
   ⟨2, 0, -3.0001780793026e-04⟩, ⟨2, 1, 4.7661393906987e-05⟩, ⟨2, 3, -4.4141845330846e-06⟩,
   ⟨2, 17, -7.2694996297594e-16⟩, ⟨3, -4, -3.1679644845054e-05⟩, ⟨3, 0, -2.8270797985312e-06⟩,
   ⟨3, 6, -8.5205128120103e-10⟩, ⟨4, -5, -2.2425281908e-06⟩, ⟨4, -2, -6.5171222895601e-07⟩,
   ⟨4, 10, -1.4341729937924e-13⟩, ⟨5, -8, -4.0516996860117e-07⟩,
   ⟨8, -11, -1.2734301741641e-09⟩, ⟨8, -6, -1.7424871230634e-10⟩,
   ⟨21, -29, -6.8762131295531e-19⟩, ⟨23, -31, 1.4478307828521e-20⟩,
   ⟨29, -38, 2.6335781662795e-23⟩, ⟨30, -39, -1.1947622640071e-23⟩,
   ⟨31, -40, 1.8228094581404e-24⟩, ⟨32, -41, -9.3537087292458e-26⟩]

/-- region 2, ideal gas part -/
def region2Ideal : List Term :=
  [⟨0, 0, -9.6927686500217⟩, ⟨0, 1, 10.086655968018⟩, ⟨0, -5, -0.005608791128302⟩,
   ⟨0, -4, 0.071452738081455⟩, ⟨0, -3, -0.40710498223928⟩, ⟨0, -2, 1.4240819171444⟩,
   ⟨0, -1, -4.383951131945⟩, ⟨0, 2, -0.28408632460772⟩, ⟨0, 3, 0.021268463753307⟩]

/-- region 2, residual part -/
def region2 : List Term :=
  [⟨1, 0, -1.7731742473213e-03⟩, ⟨1, 1, -0.017834862292358⟩, ⟨1, 2, -0.045996013696365⟩,
   ⟨1, 3, -0.057581259083432⟩, ⟨1, 6, -0.05032527872793⟩, ⟨2, 1, -3.3032641670203e-05⟩,
   ⟨2, 2, -1.8948987516315e-04⟩, ⟨2, 4, -3.9392777243355e-03⟩, ⟨2, 7, -0.043797295650573⟩,
   ⟨2, 36, -2.6674547914087e-05⟩, ⟨3, 0, 2.0481737692309e-08⟩, ⟨3, 1, 4.3870667284435e-07⟩,
   ⟨3, 3, -3.227767723857e-05⟩, ⟨3, 6, -1.5033924542148e-03⟩, ⟨3, 35, -0.040668253562649⟩,
   ⟨4, 1, -7.8847309559367e-10⟩, ⟨4, 2, 1.2790717852285e-08⟩, ⟨4, 3, 4.8225372718507e-07⟩,
   ⟨5, 7, 2.2922076337661e-06⟩, ⟨6, 3, -1.6714766451061e-11⟩, ⟨6, 16, -2.1171472321355e-03⟩,
   ⟨6, 35, -23.895741934104⟩, ⟨7, 0, -5.905956432427e-18⟩, ⟨7, 11, -1.2621808899101e-06⟩,
   ⟨7, 25, -0.038946842435739⟩, ⟨8, 8, 1.1256211360459e-11⟩, ⟨8, 36, -8.2311340897998⟩,
   ⟨9, 13, 1.9809712802088e-08⟩, ⟨10, 4, 1.0406965210174e-19⟩, ⟨10, 10, -1.0234747095929e-13⟩,
   ⟨10, 14, -1.0018179379511e-09⟩, ⟨16, 29, -8.0882908646985e-11⟩, ⟨16, 50, 0.10693031879409⟩,
   ⟨18, 57, -0.33662250574171⟩, ⟨20, 20, 8.9185845355421e-25⟩, ⟨20, 35, 3.0629316876232e-13⟩,
   ⟨20, 48, -4.2002467698208e-06⟩, ⟨21, 21, -5.9056029685639e-26⟩,
   ⟨22, 53, 3.7826947613457e-06⟩, ⟨23, 39, -1.2768608934681e-15⟩,
   ⟨24, 26, 7.3087610595061e-29⟩, ⟨24, 40, 5.5414715350778e-17⟩, ⟨24, 58, -9.436970724121e-07⟩]

/-- region 5, ideal gas part -/
def region5Ideal : List Term :=
  [⟨0, 0, -13.179983674201⟩, ⟨0, 1, 6.8540841634434⟩, ⟨0, -3, -0.024805148933466⟩,
   ⟨0, -2, 0.36901534980333⟩, ⟨0, -1, -3.1161318213925⟩, ⟨0, 2, -0.32961626538917⟩]

/-- region 5, residual part -/
def region5 : List Term :=
  [⟨1, 0, -1.2563183589592e-04⟩, ⟨1, 1, 2.1774678714571e-03⟩, ⟨1, 3, -0.004594282089991⟩,
   ⟨2, 9, -3.9724828359569e-06⟩, ⟨3, 3, 1.2919228289784e-07⟩]

/-- region 3, coefficient of the logarithm -/
def region3Log : ℚ := 1.0658070028513

/-- region 3, power terms -/
def region3 : List Term :=
  [⟨0, 0, -15.732845290239⟩, ⟨0, 1, 20.944396974307⟩, ⟨0, 2, -7.6867707878716⟩,
   ⟨0, 7, 2.6185947787954⟩, ⟨0, 10, -2.808078114862⟩, ⟨0, 12, 1.2053369696517⟩,
   ⟨0, 23, -8.4566812812502e-03⟩, ⟨1, 2, -1.2654315477714⟩, ⟨1, 6, -1.1524407806681⟩,
   ⟨1, 15, 0.88521043984318⟩, ⟨1, 17, -0.64207765181607⟩, ⟨2, 0, 0.38493460186671⟩,
   ⟨2, 2, -0.85214708824206⟩, ⟨2, 6, 4.8972281541877⟩, ⟨2, 7, -3.0502617256965⟩,
   ⟨2, 22, 0.039420536879154⟩, ⟨2, 26, 0.12558408424308⟩, ⟨3, 0, -0.2799932969871⟩,
   ⟨3, 2, 1.389979956946⟩, ⟨3, 4, -2.018991502357⟩, ⟨3, 16, -8.2147637173963e-03⟩,
   ⟨3, 26, -0.47596035734923⟩, ⟨4, 0, 0.0439840744735⟩, ⟨4, 2, -0.44476435428739⟩,
   ⟨4, 4, 0.90572070719733⟩, ⟨4, 26, 0.70522450087967⟩, ⟨5, 1, 0.10770512626332⟩,
   ⟨5, 3, -0.32913623258954⟩, ⟨5, 26, -0.50871062041158⟩, ⟨6, 0, -0.022175400873096⟩,
   ⟨6, 2, 0.094260751665092⟩, ⟨6, 26, 0.16436278447961⟩, ⟨7, 2, -0.013503372241348⟩,
   ⟨8, 26, -0.014834345352472⟩, ⟨9, 2, 5.7922953628084e-04⟩, ⟨9, 26, 3.2308904703711e-03⟩,
   ⟨10, 0, 8.0964802996215e-05⟩, ⟨10, 1, -1.6557679795037e-04⟩, ⟨11, 26, -4.4923899061815e-05⟩]

/-- specific Gibbs free energy of region 1, kJ/kg, from `p` in MPa and `T` in K -/
noncomputable def g1 (p T : ℝ) : ℝ := R * T * poly region1 (7.1 - p / 16.53) (1386 / T - 1.222)

/-- specific Gibbs free energy of region 2 -/
noncomputable def g2 (p T : ℝ) : ℝ :=
  R * T * (Real.log p + poly region2Ideal 1 (540 / T) + poly region2 p (540 / T - 0.5))

/-- specific Gibbs free energy of region 5 -/
noncomputable def g5 (p T : ℝ) : ℝ :=
  R * T * (Real.log p + poly region5Ideal 1 (1000 / T) + poly region5 p (1000 / T))

/-- specific Helmholtz free energy of region 3, kJ/kg, from `ρ` in kg/m³ and `T` in K -/
noncomputable def f3 (ρ T : ℝ) : ℝ :=
  R * T * (region3Log * Real.log (ρ / 322) + poly region3 (ρ / 322) (647.096 / T))

end Spec.IF97
