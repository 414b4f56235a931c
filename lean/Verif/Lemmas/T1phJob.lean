import Verif.Lemmas.Back1

/-!
# The backward equation `T(p, h)` of region 1
-/

namespace PyX.Kron.T1ph

open Spec.IF97

/-- its coefficients -/
def table : List Term :=
  [⟨0, 0, -238.72489924521⟩, ⟨0, 1, 404.21188637945⟩, ⟨0, 2, 113.49746881718⟩, ⟨0, 6, -5.8457616048039⟩, ⟨0, 22,
    -1.528548241314e-04⟩, ⟨0, 32, -1.0866707695377e-06⟩, ⟨1, 0, -13.391744872602⟩, ⟨1, 1, 43.211039183559⟩, ⟨1, 2,
    -54.010067170506⟩, ⟨1, 3, 30.535892203916⟩, ⟨1, 4, -6.5964749423638⟩, ⟨1, 10, 9.3965400878363e-03⟩, ⟨1, 32,
    1.157364750534e-07⟩, ⟨2, 10, -2.5858641282073e-05⟩, ⟨2, 32, -4.0644363084799e-09⟩, ⟨3, 10, 6.6456186191635e-08⟩,
    ⟨3, 32, 8.0670734103027e-11⟩, ⟨4, 32, -9.3477771213947e-13⟩, ⟨5, 32, 5.8265442020601e-15⟩, ⟨6, 32,
    -1.5020185953503e-17⟩]

def Bp : List Mono :=
  [(404211886379450000000000000000000, 0, 1), (113497468817180000000000000000000, 0, 2),
    (43211039183559000000000000000000, 1, 1), (30535892203916000000000000000000, 1, 3),
    (9396540087836300000000000000, 1, 10), (115736475053400000000000, 1, 32), (66456186191635000000000, 3, 10),
    (80670734103027000000, 3, 32), (5826544202060100, 5, 32)]

def Bn : List Mono :=
  [(238724899245210000000000000000000, 0, 0), (5845761604803900000000000000000, 0, 6), (152854824131400000000000000,
    0, 22), (1086670769537700000000000, 0, 32), (13391744872602000000000000000000, 1, 0),
    (54010067170506000000000000000000, 1, 2), (6596474942363800000000000000000, 1, 4), (25858641282073000000000000,
    2, 10), (4064436308479900000000, 2, 32), (934777712139470000, 4, 32), (15020185953503, 6, 32)]

theorem same_B : same 1000000000000000000000000000000 0 0 0 0 table Bp Bn = true := by decide +kernel

def qB : Quot := ⟨.mono Bp Bn 6 32, [(1000000000000000000000000000000, 0, 0)], 0, 0⟩

theorem qB_eval (x y : ℝ) : qB.eval x y = dpoly table 0 0 x y := by
  simp only [qB, Quot.eval, E.eval, evalN_cons', evalN_nil']
  rw [same_eq0 same_B]
  push_cast
  field_simp
  ring

/-- temperature from pressure and enthalpy -/
def job : Job := ⟨B1.qp, B1.qh, qB, B1.qT, ⟨false, 0, 1⟩, 0, [], q0, q0, ⟨false, 0, 1⟩⟩

end PyX.Kron.T1ph
