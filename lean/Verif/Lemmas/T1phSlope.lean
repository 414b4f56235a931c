import Verif.Lemmas.Cells
import Verif.Lemmas.T1phJob

/-!
# `T1_ph` changes by less than 4 K per MPa along lines of constant enthalpy
-/

namespace PyX.Kron.T1ph

open _root_.Spec.IF97 Kron

/-- `4 - ∂T/∂p`, times `5·10²⁹` -/
def up : E := .mono [(2000000000000000000000000000000, 0, 0), (6695872436301000000000000000000, 0, 0), (27005033585253000000000000000000,
    0, 2), (3298237471181900000000000000000, 0, 4), (25858641282073000000000000, 1, 10), (4064436308479900000000, 1, 32),
    (1869555424278940000, 3, 32), (45060557860509, 5, 32)] [(21605519591779500000000000000000, 0, 1), (15267946101958000000000000000000,
    0, 3), (4698270043918150000000000000, 0, 10), (57868237526700000000000, 0, 32), (99684279287452500000000, 2, 10),
    (121006101154540500000, 2, 32), (14566360505150250, 4, 32)] 5 32
/-- `4 + ∂T/∂p`, times `5·10²⁹` -/
def dn : E := .mono [(2000000000000000000000000000000, 0, 0), (21605519591779500000000000000000, 0, 1), (15267946101958000000000000000000,
    0, 3), (4698270043918150000000000000, 0, 10), (57868237526700000000000, 0, 32), (99684279287452500000000, 2, 10),
    (121006101154540500000, 2, 32), (14566360505150250, 4, 32)] [(6695872436301000000000000000000, 0, 0),
    (27005033585253000000000000000000, 0, 2), (3298237471181900000000000000000, 0, 4), (25858641282073000000000000, 1, 10),
    (4064436308479900000000, 1, 32), (1869555424278940000, 3, 32), (45060557860509, 5, 32)] 5 32


/-- the cells cover the pressures up to 100.08 MPa and `0.99 ≤ y < 1.69` -/
def cell (k : ℕ) : Rect := ⟨Nat.mul 834 (Nat.div k 14), 834, 100, Nat.add 99 (Nat.mul 5 (Nat.mod k 14)), 5, 100⟩

theorem up_ok : (List.range 168).all (fun k => (cell k).leaf 6 33 up) = true := by decide +kernel
theorem dn_ok : (List.range 168).all (fun k => (cell k).leaf 6 33 dn) = true := by decide +kernel

theorem cell_sound {e : E} (h : (List.range 168).all (fun k => (cell k).leaf 6 33 e) = true) {x y : ℝ} (x0 : 0 ≤ x) (x1 : x < 100.08)
    (y0 : 0.99 ≤ y) (y1 : y < 1.69) : 0 < e.eval x y := by
  have i0 := Nat.floor_le (show 0 ≤ 100 * x / 834 by positivity)
  have i1 := Nat.lt_floor_add_one (100 * x / 834)
  have j0 := Nat.floor_le (show 0 ≤ (100 * y - 99) / 5 by norm_num at *; linarith)
  have j1 := Nat.lt_floor_add_one ((100 * y - 99) / 5)
  have hi : ⌊100 * x / 834⌋₊ < 12 := (Nat.floor_lt (by positivity)).2 (by norm_num at *; linarith)
  have hj : ⌊(100 * y - 99) / 5⌋₊ < 14 := (Nat.floor_lt (by norm_num at *; linarith)).2 (by norm_num at *; linarith)
  generalize ⌊100 * x / 834⌋₊ = i at *
  generalize ⌊(100 * y - 99) / 5⌋₊ = j at *
  have l := List.all_eq_true.1 h (14 * i + j) (List.mem_range.2 (by omega))
  have e1 : Nat.div (14 * i + j) 14 = i := by show (14 * i + j) / 14 = i; omega
  have e2 : Nat.mod (14 * i + j) 14 = j := by show (14 * i + j) % 14 = j; omega
  refine Rect.leaf_sound (by norm_num) (by norm_num) l (by simp [cell]) (by simp [cell]) ?_ ?_ ?_ ?_ <;>
    simp only [cell, e1, e2, Nat.mul_eq, Nat.add_eq] <;> push_cast <;> linarith

theorem up_eval {x y : ℝ} : up.eval x y = 500000000000000000000000000000 * (4 - dpoly table 1 0 x y) := by
  simp only [up, E.eval, evalN_cons', evalN_nil', dpoly, Term.d, table, ff, List.map_cons, List.map_nil, List.sum_cons, List.sum_nil]
  norm_num
  ring

theorem dn_eval {x y : ℝ} : dn.eval x y = 500000000000000000000000000000 * (4 + dpoly table 1 0 x y) := by
  simp only [dn, E.eval, evalN_cons', evalN_nil', dpoly, Term.d, table, ff, List.map_cons, List.map_nil, List.sum_cons, List.sum_nil]
  norm_num
  ring

theorem slope {x y : ℝ} (x0 : 0 ≤ x) (x1 : x < 100.08) (y0 : 0.99 ≤ y) (y1 : y < 1.69) : |dpoly table 1 0 x y| ≤ 4 := by
  have a := cell_sound up_ok x0 x1 y0 y1
  have b := cell_sound dn_ok x0 x1 y0 y1
  rw [up_eval] at a
  rw [dn_eval] at b
  rw [abs_le]
  constructor <;> linarith

theorem lipschitz {x x' y : ℝ} (x0 : 0 < x) (x1 : x < 100.08) (x0' : 0 < x') (x1' : x' < 100.08) (y0 : 0.99 ≤ y) (y1 : y < 1.69) :
    |dpoly table 0 0 x' y - dpoly table 0 0 x y| ≤ 4 * |x' - x| := by
  have := Convex.norm_image_sub_le_of_norm_hasDerivWithin_le (f := fun x => dpoly table 0 0 x y) (f' := fun x => dpoly table 1 0 x y)
    (s := Set.Ioo 0 100.08) (C := 4) (fun z hz => (dpoly_x table 0 0 y hz.1.ne').hasDerivWithinAt)
    (fun z hz => slope hz.1.le hz.2 y0 y1) (convex_Ioo _ _) ⟨x0, x1⟩ ⟨x0', x1'⟩
  exact this

end PyX.Kron.T1ph
