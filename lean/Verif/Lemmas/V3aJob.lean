import Verif.Lemmas.Back2
import Verif.Lemmas.Back3

/-!
# The backward equation for the volume in subregion 3a, from pressure and enthalpy
-/

namespace PyX.Kron.V3a

open Spec.IF97

/-- its coefficients -/
def table : List Term :=
  [⟨-12, 6, 5.29944062966028e-03⟩, ⟨-12, 8, -0.170099690234461⟩, ⟨-12, 12, 11.1323814312927⟩, ⟨-12, 18,
    -2178.98123145125⟩, ⟨-10, 4, -5.06061827980875e-04⟩, ⟨-10, 7, 0.556495239685324⟩, ⟨-10, 10, -9.43672726094016⟩,
    ⟨-8, 5, -0.297856807561527⟩, ⟨-8, 12, 93.9353943717186⟩, ⟨-6, 3, 1.92944939465981e-02⟩, ⟨-6, 4,
    0.421740664704763⟩, ⟨-6, 22, -3689141.2628233⟩, ⟨-4, 2, -7.37566847600639e-03⟩, ⟨-4, 3, -0.354753242424366⟩, ⟨-3,
    7, -1.99768169338727⟩, ⟨-2, 3, 1.15456297059049⟩, ⟨-2, 16, 5683.6687581596⟩, ⟨-1, 0, 8.08169540124668e-03⟩, ⟨-1,
    1, 0.172416341519307⟩, ⟨-1, 2, 1.04270175292927⟩, ⟨-1, 3, -0.297691372792847⟩, ⟨0, 0, 0.560394465163593⟩, ⟨0, 1,
    0.275234661176914⟩, ⟨1, 0, -0.148347894866012⟩, ⟨1, 1, -6.51142513478515e-02⟩, ⟨1, 2, -2.92468715386302⟩, ⟨2, 0,
    6.64876096952665e-02⟩, ⟨2, 2, 3.52335014263844⟩, ⟨3, 0, -1.46340792313332e-02⟩, ⟨4, 2, -2.24503486668184⟩, ⟨5, 2,
    1.10533464706142⟩, ⟨8, 2, -4.08757344495612e-02⟩]

def Bp : List Mono :=
  [(1059888125932056, 0, 6), (2226476286258540000, 0, 12), (111299047937064800, 2, 7), (18787078874343720000, 4, 12),
    (3858898789319620, 6, 3), (84348132940952600, 6, 4), (230912594118098000, 10, 3), (1136733751631920000000, 10,
    16), (1616339080249336, 11, 0), (34483268303861400, 11, 1), (208540350585854000, 11, 2), (112078893032718600, 12,
    0), (55046932235382800, 12, 1), (13297521939053300, 14, 0), (704670028527688000, 14, 2), (221066929412284000, 17,
    2)]

def Bn : List Mono :=
  [(34019938046892200, 0, 8), (435796246290250000000, 0, 18), (101212365596175, 2, 4), (1887345452188032000, 2, 10),
    (59571361512305400, 4, 5), (737828252564660000000000, 6, 22), (1475133695201278, 8, 2), (70950648484873200, 8,
    3), (399536338677454000, 9, 7), (59538274558569400, 11, 3), (29669578973202400, 13, 0), (13022850269570300, 13,
    1), (584937430772604000, 13, 2), (2926815846266640, 15, 0), (449006973336368000, 16, 2), (8175146889912240, 20,
    2)]

theorem same_B : same 200000000000000000 0 0 0 0 (table.map (shiftI 12)) Bp Bn = true := by decide +kernel

def qB : Quot := ⟨.mono Bp Bn 20 22, [(200000000000000000, 12, 0)], 12, 0⟩

theorem qB_eval {x : ℝ} (hx : 0 < x) (y : ℝ) : qB.eval x y = dpoly table 0 0 x y := by
  simp only [qB, Quot.eval, E.eval, evalN_cons', evalN_nil']
  rw [same_eq0 same_B, dpoly_shiftI _ _ hx.ne']
  push_cast
  field_simp
  ring

def job : Job := ⟨B3.qpVa, B3.qhVa, qB, B3.gVa, ⟨false, 0, 1⟩, 0, [], q0, q0, ⟨false, 0, 1⟩⟩

/-- above the critical temperature -/
def con0 : List Con := [B3.kMax, B3.kB23, B3.kA]
/-- below, the denser phase -/
def con1 : List Con := [B3.kMax, B3.kA, B3.kDome, B3.kLow]
/-- below, the lighter phase -/
def con2 : List Con := [B3.kB23, B3.kA, B3.kDome, B3.kHigh]

end PyX.Kron.V3a
