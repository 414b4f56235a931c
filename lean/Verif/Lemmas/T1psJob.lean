import Verif.Lemmas.Back1

/-!
# The backward equation `T(p, s)` of region 1
-/

namespace PyX.Kron.T1ps

open Spec.IF97

/-- its coefficients -/
def table : List Term :=
  [⟨0, 0, 174.78268058307⟩, ⟨0, 1, 34.806930892873⟩, ⟨0, 2, 6.5292584978455⟩, ⟨0, 3, 0.33039981775489⟩, ⟨0, 11,
    -1.9281382923196e-07⟩, ⟨0, 31, -2.4909197244573e-23⟩, ⟨1, 0, -0.26107636489332⟩, ⟨1, 1, 0.22592965981586⟩, ⟨1, 2,
    -0.064256463395226⟩, ⟨1, 3, 7.8876289270526e-03⟩, ⟨1, 12, 3.5672110607366e-10⟩, ⟨1, 31, 1.7332496994895e-24⟩, ⟨2,
    0, 5.6608900654837e-04⟩, ⟨2, 1, -3.2635483139717e-04⟩, ⟨2, 2, 4.4778286690632e-05⟩, ⟨2, 9, -5.1322156908507e-10⟩,
    ⟨2, 31, -4.2522657042207e-26⟩, ⟨3, 10, 2.6400441360689e-13⟩, ⟨3, 32, 7.8124600459723e-29⟩, ⟨4, 32,
    -3.0732199903668e-31⟩]

def Bp : List Mono :=
  [(4369567014576750000000000000000000000000000000, 0, 0), (870173272321825000000000000000000000000000000, 0, 1),
    (163231462446137500000000000000000000000000000, 0, 2), (8259995443872250000000000000000000000000000, 0, 3),
    (5648241495396500000000000000000000000000000, 1, 1), (197190723176315000000000000000000000000000, 1, 3),
    (8918027651841500000000000000000000, 1, 12), (43331242487237500000, 1, 31),
    (14152225163709250000000000000000000000000, 2, 0), (1119457167265800000000000000000000000000, 2, 2),
    (6600110340172250000000000000000, 3, 10), (1953115011493075, 3, 32)]

def Bn : List Mono :=
  [(4820345730799000000000000000000000000, 0, 11), (622729931114325000000, 0, 31),
    (6526909122333000000000000000000000000000000, 1, 0), (1606411584880650000000000000000000000000000, 1, 2),
    (8158870784929250000000000000000000000000, 2, 1), (12830539227126750000000000000000000, 2, 9),
    (1063066426055175000, 2, 31), (7683049975917, 4, 32)]

theorem same_B : same 25000000000000000000000000000000000000000000 0 0 0 0 table Bp Bn = true := by decide +kernel

def qB : Quot := ⟨.mono Bp Bn 4 32, [(25000000000000000000000000000000000000000000, 0, 0)], 0, 0⟩

theorem qB_eval (x y : ℝ) : qB.eval x y = dpoly table 0 0 x y := by
  simp only [qB, Quot.eval, E.eval, evalN_cons', evalN_nil']
  rw [same_eq0 same_B]
  push_cast
  field_simp
  ring

/-- `gamma1.s p T + 2` -/
def qs : Quot := ⟨.add (.mul (cst 230763) B1.eS) (.mono [(500000000000000000000000000000000000000000000000, 0, 17)] [] 32 59), [(250000000000000000000000000000000000000000000000, 0, 17)], 0, 17⟩

theorem qs_eval {p T : ℝ} (hv : Liquid p T) : qs.eval (7.1 - p / 16.53) (B1.z T) = gamma1.s p T + 2 := by
  have z0 := B1.z_pos hv
  simp only [qs, Quot.eval, E.eval, evalN_cons', evalN_nil', eval_cst]
  rw [B1.eS_eval hv, div_eq_iff (by positivity), R]
  push_cast
  ring

/-- temperature from pressure and entropy -/
def job : Job := ⟨B1.qp, qs, qB, B1.qT, ⟨false, 0, 1⟩, 0, [], q0, q0, ⟨false, 0, 1⟩⟩

end PyX.Kron.T1ps
