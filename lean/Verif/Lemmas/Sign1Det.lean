import Verif.Lemmas.Sign1

/-!
# Region 1: the equation is stable
-/

namespace PyX.Kron.R1

open Spec.IF97 PyX

set_option maxRecDepth 20000
set_option Elab.async false

namespace det

def tree0 : Tree :=
  .sy (.sx .leaf .leaf) .leaf

theorem check0 : check 10 24 e_det lims tree0 84 121 80 64 23 64 = true := by decide +kernel

def tree1 : Tree :=
  .sy (.sx .leaf (.sy (.sx .leaf .leaf) .leaf)) (.sx .leaf .leaf)

theorem check1 : check 10 24 e_det lims tree1 205 121 80 64 23 64 = true := by decide +kernel

def tree2 : Tree :=
  .sx (.sy .leaf .leaf) (.sy .leaf .leaf)

theorem check2 : check 10 24 e_det lims tree2 42 121 40 87 23 64 = true := by decide +kernel

def tree3 : Tree :=
  .sy (.sx .leaf .leaf) (.sx .leaf .leaf)

theorem check3 : check 10 24 e_det lims tree3 652 121 160 128 23 128 = true := by decide +kernel

def tree4 : Tree :=
  .sy (.sx .leaf (.sy .leaf .leaf)) (.sx .leaf .leaf)

theorem check4 : check 10 24 e_det lims tree4 773 121 160 128 23 128 = true := by decide +kernel

def tree5 : Tree :=
  .sx (.sy .leaf .leaf) (.sy (.sx .leaf .leaf) .leaf)

theorem check5 : check 10 24 e_det lims tree5 326 121 80 151 23 128 = true := by decide +kernel

def tree6 : Tree :=
  .sx (.sy (.sx .leaf .leaf) .leaf) (.sy (.sx .leaf .leaf) (.sx .leaf .leaf))

theorem check6 : check 10 24 e_det lims tree6 894 121 160 256 23 256 = true := by decide +kernel

def tree7 : Tree :=
  .sx .leaf .leaf

theorem check7 : check 10 24 e_det lims tree7 894 121 160 279 23 256 = true := by decide +kernel

def tree8 : Tree :=
  .sx (.sy (.sx (.sx .leaf .skip) .skip) (.sy .leaf .leaf)) .skip

theorem check8 : check 10 24 e_det lims tree8 1015 121 160 128 23 128 = true := by decide +kernel

def tree9 : Tree :=
  .sx (.sy (.sx .leaf .leaf) .leaf) (.sy (.sx .leaf .skip) (.sx .leaf .leaf))

theorem check9 : check 10 24 e_det lims tree9 447 121 80 151 23 128 = true := by decide +kernel

def tree10 : Tree :=
  .sx (.sy (.sx .leaf .leaf) .leaf) (.sy (.sx .leaf (.sy .leaf .leaf)) (.sx .leaf .leaf))

theorem check10 : check 10 24 e_det lims tree10 163 121 40 87 23 64 = true := by decide +kernel

def tree11 : Tree :=
  .sx (.sy (.sx .leaf .leaf) .leaf) (.sy (.sx .leaf (.sy .leaf .leaf)) .leaf)

theorem check11 : check 10 24 e_det lims tree11 21 121 20 55 23 32 = true := by decide +kernel

def tree12 : Tree :=
  .sy (.sx (.sy .leaf .leaf) (.sy .leaf .leaf)) (.sx (.sy .leaf .leaf) (.sy .leaf .leaf))

theorem check12 : check 10 24 e_det lims tree12 21 121 20 39 23 16 = true := by decide +kernel

end det

open det

def tree_det : Tree :=
  .sy (.sy (.sx (.sy (.sx tree0 tree1) tree2) (.sy (.sx (.sy (.sx tree3 tree4) tree5) (.sy (.sx (.sy tree6 tree7) tree8) tree9)) tree10)) tree11) tree12

theorem check_det : check 10 24 e_det lims tree_det 21 121 20 8 23 8 = true :=
  check_sy (check_sy (check_sx (check_sy (check_sx check0 check1) check2) (check_sy (check_sx (check_sy (check_sx check3 check4) check5)
    (check_sy (check_sx (check_sy check6 check7) check8) check9)) check10)) check11) check12

/-- region 1 is stable -/
theorem stable {p T : ℝ} (hv : Liquid p T) : gamma1.Stable (p / 16.53) (1386 / T) := by
  have hy := y_pos hv
  have hx := x_pos hv
  obtain ⟨s1, s2, s3⟩ := signs hv
  have a4 := of_check hv (by norm_num) (by norm_num) ok_det check_det
  rw [det_eq hx.ne' hy.ne'] at a4
  refine ⟨s1, s2, s3, ?_⟩
  have := pos_of_mul_pos_right (pos_of_mul_pos_right a4 (by norm_num)) (by positivity)
  linarith

end PyX.Kron.R1
