import Verif.Lemmas.Back2
import Verif.Lemmas.Back3

/-!
# The backward equation for the volume in subregion 3b, from pressure and enthalpy
-/

namespace PyX.Kron.V3b

open Spec.IF97

/-- its coefficients -/
def table : List Term :=
  [⟨-12, 0, -2.25196934336318e-09⟩, ⟨-12, 1, 1.40674363313486e-08⟩, ⟨-8, 0, 2.3378408528056e-06⟩, ⟨-8, 1,
    -3.31833715229001e-05⟩, ⟨-8, 3, 1.07956778514318e-03⟩, ⟨-8, 6, -0.271382067378863⟩, ⟨-8, 7, 1.07202262490333⟩,
    ⟨-8, 8, -0.853821329075382⟩, ⟨-6, 0, -2.15214194340526e-05⟩, ⟨-6, 1, 7.6965608822273e-04⟩, ⟨-6, 2,
    -4.31136580433864e-03⟩, ⟨-6, 5, 0.453342167309331⟩, ⟨-6, 6, -0.507749535873652⟩, ⟨-6, 10, -100.475154528389⟩,
    ⟨-4, 3, -0.219201924648793⟩, ⟨-4, 6, -3.21087965668917⟩, ⟨-4, 10, 607.567815637771⟩, ⟨-3, 0,
    5.57686450685932e-04⟩, ⟨-3, 2, 0.18749904002955⟩, ⟨-2, 1, 9.05368030448107e-03⟩, ⟨-2, 2, 0.285417173048685⟩, ⟨-1,
    0, 3.29924030996098e-02⟩, ⟨-1, 1, 0.239897419685483⟩, ⟨-1, 4, 4.82754995951394⟩, ⟨-1, 5, -11.8035753702231⟩, ⟨0,
    0, 0.169490044091791⟩, ⟨1, 0, -1.79967222507787e-02⟩, ⟨1, 1, 3.71810116332674e-02⟩, ⟨2, 2,
    -5.36288335065096e-02⟩, ⟨2, 6, 1.6069710109252⟩]

def Bp : List Mono :=
  [(703371816567430, 0, 1), (116892042640280000, 4, 0), (53978389257159000000, 4, 3), (53601131245166500000000, 4,
    7), (38482804411136500000, 6, 1), (22667108365466550000000, 6, 5), (30378390781888550000000000, 8, 10),
    (27884322534296600000, 9, 0), (9374952001477500000000, 9, 2), (452684015224053500000, 10, 1),
    (14270858652434250000000, 10, 2), (1649620154980490000000, 11, 0), (11994870984274150000000, 11, 1),
    (241377497975697000000000, 11, 4), (8474502204589550000000, 12, 0), (1859050581663370000000, 13, 1),
    (80348550546260000000000, 14, 6)]

def Bn : List Mono :=
  [(112598467168159, 0, 0), (1659168576145005000, 4, 1), (13569103368943150000000, 4, 6), (42691066453769100000000,
    4, 8), (1076070971702630000, 6, 0), (215568290216932000000, 6, 2), (25387476793682600000000, 6, 6),
    (5023757726419450000000000, 6, 10), (10960096232439650000000, 8, 3), (160543982834458500000000, 8, 6),
    (590178768511155000000000, 11, 5), (899836112538935000000, 13, 0), (2681441675325480000000, 14, 2)]

theorem same_B : same 50000000000000000000000 0 0 0 0 (table.map (shiftI 12)) Bp Bn = true := by decide +kernel

def qB : Quot := ⟨.mono Bp Bn 14 10, [(50000000000000000000000, 12, 0)], 12, 0⟩

theorem qB_eval {x : ℝ} (hx : 0 < x) (y : ℝ) : qB.eval x y = dpoly table 0 0 x y := by
  simp only [qB, Quot.eval, E.eval, evalN_cons', evalN_nil']
  rw [same_eq0 same_B, dpoly_shiftI _ _ hx.ne']
  push_cast
  field_simp
  ring

def job : Job := ⟨B3.qpVb, B3.qhb, qB, B3.gVb, ⟨false, 0, 1⟩, 0, [], q0, q0, ⟨false, 0, 1⟩⟩

/-- above the critical temperature -/
def con0 : List Con := [B3.kMax, B3.kB23, B3.kB]
/-- below, the denser phase -/
def con1 : List Con := [B3.kMax, B3.kB, B3.kDome, B3.kLow]
/-- below, the lighter phase -/
def con2 : List Con := [B3.kB23, B3.kB, B3.kDome, B3.kHigh]

end PyX.Kron.V3b
