import Verif.Lemmas.Back2
import Verif.Lemmas.Back3

/-!
# The backward equation for the temperature in subregion 3b, from pressure and enthalpy
-/

namespace PyX.Kron.T3b

open Spec.IF97

/-- its coefficients -/
def table : List Term :=
  [⟨-12, 0, 3.2325457364492e-05⟩, ⟨-12, 1, -1.27575556587181e-04⟩, ⟨-10, 0, -4.75851877356068e-04⟩, ⟨-10, 1,
    1.56183014181602e-03⟩, ⟨-10, 5, 0.105724860113781⟩, ⟨-10, 10, -85.8514221132534⟩, ⟨-10, 12, 724.140095480911⟩,
    ⟨-8, 0, 2.96475810273257e-03⟩, ⟨-8, 1, -5.92721983365988e-03⟩, ⟨-8, 2, -1.26305422818666e-02⟩, ⟨-8, 4,
    -0.115716196364853⟩, ⟨-8, 10, 84.9000969739595⟩, ⟨-6, 0, -1.08602260086615e-02⟩, ⟨-6, 1, 1.54304475328851e-02⟩,
    ⟨-6, 2, 7.50455441524466e-02⟩, ⟨-4, 0, 2.52520973612982e-02⟩, ⟨-4, 1, -6.02507901232996e-02⟩, ⟨-3, 5,
    -3.07622221350501⟩, ⟨-2, 0, -5.74011959864879e-02⟩, ⟨-2, 4, 5.03471360939849⟩, ⟨-1, 2, -0.925081888584834⟩, ⟨-1,
    4, 3.91733882917546⟩, ⟨-1, 6, -77.314600713019⟩, ⟨-1, 10, 9493.08762098587⟩, ⟨-1, 14, -1410437.19679409⟩, ⟨-1,
    16, 8491662.30819026⟩, ⟨0, 0, 0.861095729446704⟩, ⟨0, 2, 0.32334644281172⟩, ⟨1, 1, 0.873281936020439⟩, ⟨3, 1,
    -0.436653048526683⟩, ⟨5, 1, 0.286596714529479⟩, ⟨6, 1, -0.131778331276228⟩, ⟨8, 1, 6.76682064330275e-03⟩]

def Bp : List Mono :=
  [(32325457364492, 0, 0), (1561830141816020, 2, 1), (105724860113781000, 2, 5), (724140095480911000000, 2, 12),
    (2964758102732570, 4, 0), (84900096973959500000, 4, 10), (15430447532885100, 6, 1), (75045544152446600, 6, 2),
    (25252097361298200, 8, 0), (5034713609398490000, 10, 4), (3917338829175460000, 11, 4), (9493087620985870000000,
    11, 10), (8491662308190260000000000, 11, 16), (861095729446704000, 12, 0), (323346442811720000, 12, 2),
    (873281936020439000, 13, 1), (286596714529479000, 17, 1), (6766820643302750, 20, 1)]

def Bn : List Mono :=
  [(127575556587181, 0, 1), (475851877356068, 2, 0), (85851422113253400000, 2, 10), (5927219833659880, 4, 1),
    (12630542281866600, 4, 2), (115716196364853000, 4, 4), (10860226008661500, 6, 0), (60250790123299600, 8, 1),
    (3076222213505010000, 9, 5), (57401195986487900, 10, 0), (925081888584834000, 11, 2), (77314600713019000000, 11,
    6), (1410437196794090000000000, 11, 14), (436653048526683000, 15, 1), (131778331276228000, 18, 1)]

theorem same_B : same 1000000000000000000 0 0 0 0 (table.map (shiftI 12)) Bp Bn = true := by decide +kernel

def qB : Quot := ⟨.mono Bp Bn 20 16, [(1000000000000000000, 12, 0)], 12, 0⟩

theorem qB_eval {x : ℝ} (hx : 0 < x) (y : ℝ) : qB.eval x y = dpoly table 0 0 x y := by
  simp only [qB, Quot.eval, E.eval, evalN_cons', evalN_nil']
  rw [same_eq0 same_B, dpoly_shiftI _ _ hx.ne']
  push_cast
  field_simp
  ring

def job : Job := ⟨B3.qpTb, B3.qhb, qB, B3.gTb, ⟨false, 0, 1⟩, 0, [], q0, q0, ⟨false, 0, 1⟩⟩

/-- above the critical temperature -/
def con0 : List Con := [B3.kMax, B3.kB23, B3.kB]
/-- below, the denser phase -/
def con1 : List Con := [B3.kMax, B3.kB, B3.kDome, B3.kLow]
/-- below, the lighter phase -/
def con2 : List Con := [B3.kB23, B3.kB, B3.kDome, B3.kHigh]

end PyX.Kron.T3b
