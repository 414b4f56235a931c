import Verif.Lemmas.Back2
import Verif.Lemmas.Back3

/-!
# The backward equation for the temperature in subregion 3a, from pressure and enthalpy
-/

namespace PyX.Kron.T3a

open Spec.IF97

/-- its coefficients -/
def table : List Term :=
  [⟨-12, 0, -1.33645667811215e-07⟩, ⟨-12, 1, 4.55912656802978e-06⟩, ⟨-12, 2, -1.46294640700979e-05⟩, ⟨-12, 6,
    6.3934131297008e-03⟩, ⟨-12, 14, 372.783927268847⟩, ⟨-12, 16, -7186.54377460447⟩, ⟨-12, 20, 573494.7521034⟩, ⟨-12,
    22, -2675693.29111439⟩, ⟨-10, 1, -3.34066283302614e-05⟩, ⟨-10, 5, -2.45479214069597e-02⟩, ⟨-10, 12,
    47.8087847764996⟩, ⟨-8, 0, 7.64664131818904e-06⟩, ⟨-8, 2, 1.28350627676972e-03⟩, ⟨-8, 4, 1.71219081377331e-02⟩,
    ⟨-8, 10, -8.51007304583213⟩, ⟨-5, 2, -1.36513461629781e-02⟩, ⟨-3, 0, -3.84460997596657e-06⟩, ⟨-2, 1,
    3.37423807911655e-03⟩, ⟨-2, 3, -0.551624873066791⟩, ⟨-2, 4, 0.72920227710747⟩, ⟨-1, 0, -9.92522757376041e-03⟩,
    ⟨-1, 2, -0.119308831407288⟩, ⟨0, 0, 0.793929190615421⟩, ⟨0, 1, 0.454270731799386⟩, ⟨1, 1, 0.20999859125991⟩, ⟨3,
    0, -6.42109823904738e-03⟩, ⟨3, 1, -0.023515586860454⟩, ⟨4, 0, 2.52233108341612e-03⟩, ⟨4, 3,
    -7.64885133368119e-03⟩, ⟨10, 4, 1.36176427574291e-02⟩, ⟨12, 5, -1.33027883575669e-02⟩]

def Bp : List Mono :=
  [(911825313605956, 0, 1), (1278682625940160000, 0, 6), (74556785453769400000000, 0, 14),
    (114698950420680000000000000, 0, 20), (9561756955299920000000, 2, 12), (1529328263637808, 4, 0),
    (256701255353944000, 4, 2), (3424381627546620000, 4, 4), (674847615823310000, 10, 1), (145840455421494000000, 10,
    4), (158785838123084200000, 12, 0), (90854146359877200000, 12, 1), (41999718251982000000, 13, 1),
    (504466216683224000, 16, 0), (2723528551485820000, 22, 4)]

def Bn : List Mono :=
  [(26729133562243, 0, 0), (2925892814019580, 0, 2), (1437308754920894000000000, 0, 16),
    (535138658222878000000000000, 0, 22), (6681325666052280, 2, 1), (4909584281391940000, 2, 5),
    (1702014609166426000000, 4, 10), (2730269232595620000, 7, 2), (768921995193314, 9, 0), (110324974613358200000,
    10, 3), (1985045514752082000, 11, 0), (23861766281457600000, 11, 2), (1284219647809476000, 15, 0),
    (4703117372090800000, 15, 1), (1529770266736238000, 16, 3), (2660557671513380000, 24, 5)]

theorem same_B : same 200000000000000000000 0 0 0 0 (table.map (shiftI 12)) Bp Bn = true := by decide +kernel

def qB : Quot := ⟨.mono Bp Bn 24 22, [(200000000000000000000, 12, 0)], 12, 0⟩

theorem qB_eval {x : ℝ} (hx : 0 < x) (y : ℝ) : qB.eval x y = dpoly table 0 0 x y := by
  simp only [qB, Quot.eval, E.eval, evalN_cons', evalN_nil']
  rw [same_eq0 same_B, dpoly_shiftI _ _ hx.ne']
  push_cast
  field_simp
  ring

def job : Job := ⟨B3.qpTa, B3.qhTa, qB, B3.gTa, ⟨false, 0, 1⟩, 0, [], q0, q0, ⟨false, 0, 1⟩⟩

/-- above the critical temperature -/
def con0 : List Con := [B3.kMax, B3.kB23, B3.kA]
/-- below, the denser phase -/
def con1 : List Con := [B3.kMax, B3.kA, B3.kDome, B3.kLow]
/-- below, the lighter phase -/
def con2 : List Con := [B3.kB23, B3.kA, B3.kDome, B3.kHigh]

end PyX.Kron.T3a
