import Verif.Lemmas.Back1

/-!
# The backward equation `p(h, s)` of region 1
-/

namespace PyX.Kron.P1hs

open Spec.IF97

/-- its coefficients -/
def table : List Term :=
  [⟨0, 0, -0.691997014660582⟩, ⟨0, 1, -18.361254878756⟩, ⟨0, 2, -9.28332409297335⟩, ⟨0, 4, 65.9639569909906⟩, ⟨0, 5,
    -16.2060388912024⟩, ⟨0, 6, 450.620017338667⟩, ⟨0, 8, 854.68067822417⟩, ⟨0, 14, 6075.23214001162⟩, ⟨1, 0,
    32.6487682621856⟩, ⟨1, 1, -26.9408844582931⟩, ⟨1, 4, -319.9478483343⟩, ⟨1, 6, -928.35430704332⟩, ⟨2, 0,
    30.3634537455249⟩, ⟨2, 1, -65.0540422444146⟩, ⟨2, 10, -4309.9131651613⟩, ⟨3, 4, -747.512324096068⟩, ⟨4, 1,
    730.000345529245⟩, ⟨4, 4, 1142.84032569021⟩, ⟨5, 0, -436.407041874559⟩]

def Bp : List Mono :=
  [(32981978495495300, 0, 4), (225310008669333500, 0, 6), (427340339112085000, 0, 8), (3037616070005810000, 0, 14),
    (16324384131092800, 1, 0), (15181726872762450, 2, 0), (365000172764622500, 4, 1), (571420162845105000, 4, 4)]

def Bn : List Mono :=
  [(345998507330291, 0, 0), (9180627439378000, 0, 1), (4641662046486675, 0, 2), (8103019445601200, 0, 5),
    (13470442229146550, 1, 1), (159973924167150000, 1, 4), (464177153521660000, 1, 6), (32527021122207300, 2, 1),
    (2154956582580650000, 2, 10), (373756162048034000, 3, 4), (218203520937279500, 5, 0)]

theorem same_B : same 500000000000000 0 0 0 0 table Bp Bn = true := by decide +kernel

def qB : Quot := ⟨.mono Bp Bn 5 14, [(5000000000000, 0, 0)], 0, 0⟩

theorem qB_eval (x y : ℝ) : qB.eval x y = 100 * dpoly table 0 0 x y := by
  simp only [qB, Quot.eval, E.eval, evalN_cons', evalN_nil']
  rw [same_eq0 same_B]
  push_cast
  field_simp
  ring

/-- `gamma1.h p T / 3400 + 0.05` -/
def qh : Quot := ⟨.add (.mul (cst 159918759) (.mono B1.Gp B1.Gn 32 58)) (.mono [(21250000000000000000000000000000000000000000000, 0, 16)] [] 32 58), [(425000000000000000000000000000000000000000000000, 0, 16)], 0, 16⟩

theorem qh_eval {p T : ℝ} (hv : Liquid p T) : qh.eval (7.1 - p / 16.53) (B1.z T) = gamma1.h p T / 3400 + 0.05 := by
  have z0 := B1.z_pos hv
  have x0 := B1.x_pos hv
  have h := sameZ_eq B1.same_G x0.ne' z0.ne'
  have e : (B1.z T)⁻¹ = 1386 / T - 1.222 := inv_inv _
  rw [e] at h
  have hg : gamma1.h p T = R * 1386 * dpoly region1 0 1 (7.1 - p / 16.53) (1386 / T - 1.222) := by
    simp only [Gamma.h, gamma1]
  simp only [qh, Quot.eval, E.eval, evalN_cons', evalN_nil', eval_cst]
  rw [hg, div_eq_iff (by positivity), h, R]
  push_cast
  ring

/-- `gamma1.s p T / 7.6 + 0.05` -/
def qs : Quot := ⟨.add (.mul (cst 230763) B1.eS) (.mono [(95000000000000000000000000000000000000000000000, 0, 17)] [] 32 59), [(1900000000000000000000000000000000000000000000000, 0, 17)], 0, 17⟩

theorem qs_eval {p T : ℝ} (hv : Liquid p T) : qs.eval (7.1 - p / 16.53) (B1.z T) = gamma1.s p T / 7.6 + 0.05 := by
  have z0 := B1.z_pos hv
  simp only [qs, Quot.eval, E.eval, evalN_cons', evalN_nil', eval_cst]
  rw [B1.eS_eval hv, div_eq_iff (by positivity), R]
  push_cast
  ring

/-- pressure from enthalpy and entropy -/
def job : Job := ⟨qh, qs, qB, B1.qp, ⟨false, 0, 1⟩, 0, [], q0, q0, ⟨false, 0, 1⟩⟩

end PyX.Kron.P1hs
