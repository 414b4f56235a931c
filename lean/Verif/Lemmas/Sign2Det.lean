import Verif.Lemmas.Sign2

/-!
# Region 2: the equation is stable
-/

namespace PyX.Kron.R2

open Spec.IF97 PyX

set_option maxRecDepth 20000
set_option Elab.async false

namespace det

def tree0 : Tree :=
  .leaf

theorem check0 : check 6 14 e_det lims tree0 0 100 4 0 3 16 = true := by decide +kernel

def tree1 : Tree :=
  .sy .leaf (.sx .leaf (.sy .leaf (.sx .leaf .leaf)))

theorem check1 : check 6 14 e_det lims tree1 0 100 8 3 3 16 = true := by decide +kernel

def tree2 : Tree :=
  .sx .leaf (.sy .leaf (.sx .leaf .leaf))

theorem check2 : check 6 14 e_det lims tree2 100 100 8 6 3 32 = true := by decide +kernel

def tree3 : Tree :=
  .sx .leaf (.sy .leaf (.sx .leaf .leaf))

theorem check3 : check 6 14 e_det lims tree3 200 100 16 18 3 64 = true := by decide +kernel

def tree4 : Tree :=
  .sx (.sy (.sx .leaf .leaf) (.sx .leaf (.sy .leaf (.sx .leaf .leaf)))) (.sy (.sx .leaf (.sy .leaf (.sx .leaf
    .leaf))) (.sx (.sy (.sx .leaf .leaf) (.sx .leaf (.sx .leaf .skip))) (.sx (.sy .leaf .skip) .skip)))

theorem check4 : check 6 14 e_det lims tree4 200 100 16 21 3 64 = true := by decide +kernel

def tree5 : Tree :=
  .sy (.sx (.sy .leaf (.sx .leaf (.sy .leaf (.sx .leaf .leaf)))) (.sy (.sx .leaf .leaf) (.sx (.sy .leaf (.sx .leaf
    .skip)) (.sx (.sx (.sy .leaf .skip) .skip) .skip)))) (.sx (.sy (.sx (.sy (.sx .leaf .leaf) (.sx .leaf .skip))
    (.sx (.sx (.sx (.sx (.sy .leaf .skip) .skip) .skip) .skip) .skip)) .skip) .skip)

theorem check5 : check 6 14 e_det lims tree5 300 100 16 9 3 32 = true := by decide +kernel

def tree6 : Tree :=
  .sx (.sy .leaf .leaf) (.sy .leaf (.sx .leaf (.sy .leaf .leaf)))

theorem check6 : check 6 14 e_det lims tree6 100 100 4 0 3 16 = true := by decide +kernel

def tree7 : Tree :=
  .sx (.sy .leaf (.sx (.sy .leaf (.sx .leaf .leaf)) (.sy .leaf (.sx .leaf .leaf)))) (.sy (.sx .leaf .leaf) (.sx (.sy
    .leaf (.sx (.sy .leaf .skip) (.sy .leaf .skip))) (.sy (.sx .leaf .leaf) .skip)))

theorem check7 : check 6 14 e_det lims tree7 200 100 8 6 3 32 = true := by decide +kernel

def tree8 : Tree :=
  .sx (.sy (.sx (.sy (.sx (.sy .leaf (.sx .leaf .leaf)) (.sy .leaf .skip)) .skip) (.sx (.sx (.sx (.sx (.sy (.sy .leaf
    .skip) .skip) .skip) .skip) .skip) .skip)) .skip) .skip

theorem check8 : check 6 14 e_det lims tree8 200 100 8 9 3 32 = true := by decide +kernel

def tree9 : Tree :=
  .sy (.sx (.sy (.sx (.sy .leaf .leaf) (.sy .leaf (.sx .leaf .leaf))) (.sx (.sy (.sx .leaf (.sy .leaf .skip)) .skip)
    (.sx (.sx (.sx (.sy (.sy .leaf .skip) .skip) .skip) .skip) .skip))) (.sy (.sx (.sy .leaf (.sx .leaf .leaf)) (.sy
    .leaf (.sx (.sy .leaf .skip) (.sy .leaf .skip)))) .skip)) .skip

theorem check9 : check 6 14 e_det lims tree9 300 100 8 3 3 16 = true := by decide +kernel

def tree10 : Tree :=
  .leaf

theorem check10 : check 6 14 e_det lims tree10 0 100 16 12 3 32 = true := by decide +kernel

def tree11 : Tree :=
  .sx (.sy .leaf (.sx .leaf .leaf)) (.sy (.sx .leaf (.sy .leaf (.sx .leaf .leaf))) (.sx (.sy .leaf (.sx .leaf .leaf))
    (.sy (.sx .leaf .leaf) (.sx .leaf .skip))))

theorem check11 : check 6 14 e_det lims tree11 100 100 16 24 3 64 = true := by decide +kernel

def tree12 : Tree :=
  .sx (.sy (.sx .leaf (.sy .leaf (.sx .leaf .leaf))) (.sx (.sy .leaf (.sx .leaf .leaf)) (.sx .leaf .skip))) (.sx (.sy
    (.sy (.sx .leaf .leaf) .skip) .skip) .skip)

theorem check12 : check 6 14 e_det lims tree12 100 100 16 27 3 64 = true := by decide +kernel

def tree13 : Tree :=
  .sx (.sy (.sx .leaf (.sy (.sx .leaf .leaf) (.sx .leaf (.sy (.sx .leaf .leaf) (.sx .leaf .skip))))) (.sx .leaf (.sx
    (.sy .leaf (.sx .leaf .skip)) .skip))) (.sx (.sx (.sx (.sy (.sy .leaf .skip) .skip) .skip) .skip) .skip)

theorem check13 : check 6 14 e_det lims tree13 0 100 8 15 3 32 = true := by decide +kernel

def tree14 : Tree :=
  .sx (.sx (.sy (.sy (.sy (.sx (.sy (.sx .leaf .leaf) (.sx .leaf .leaf)) (.sy (.sx .leaf (.sy .leaf .skip)) .skip))
    (.sx (.sx (.sx (.sx .leaf .skip) .skip) .skip) .skip)) .skip) .skip) .skip) .skip

theorem check14 : check 6 14 e_det lims tree14 100 100 8 6 3 16 = true := by decide +kernel

def tree15 : Tree :=
  .sy (.sy .leaf (.sx .leaf (.sy .leaf (.sx .leaf .skip)))) (.sy (.sx .leaf (.sx .leaf .skip)) (.sx .leaf (.sx .leaf
    .skip)))

theorem check15 : check 6 14 e_det lims tree15 0 100 32 18 3 32 = true := by decide +kernel

def tree16 : Tree :=
  .sx (.sy (.sy .leaf (.sy .leaf (.sx .leaf .leaf))) (.sy (.sy (.sx .leaf .leaf) (.sx .leaf .leaf)) (.sx .leaf
    .skip))) .skip

theorem check16 : check 6 14 e_det lims tree16 0 100 32 21 3 32 = true := by decide +kernel

def tree17 : Tree :=
  .skip

theorem check17 : check 6 14 e_det lims tree17 100 100 32 9 3 16 = true := by decide +kernel

def tree18 : Tree :=
  .skip

theorem check18 : check 6 14 e_det lims tree18 100 100 16 9 3 16 = true := by decide +kernel

def tree19 : Tree :=
  .skip

theorem check19 : check 6 14 e_det lims tree19 100 100 8 9 3 16 = true := by decide +kernel

def tree20 : Tree :=
  .skip

theorem check20 : check 6 14 e_det lims tree20 100 100 4 3 3 8 = true := by decide +kernel

def tree21 : Tree :=
  .sy .leaf (.sx (.sy .leaf (.sx .leaf (.sy .leaf .leaf))) (.sy .leaf (.sx (.sy .leaf .leaf) (.sy .leaf .leaf))))

theorem check21 : check 6 14 e_det lims tree21 400 100 8 0 3 16 = true := by decide +kernel

def tree22 : Tree :=
  .sy .leaf (.sx (.sy .leaf (.sx (.sy .leaf .leaf) (.sy .leaf (.sx .leaf (.sy .leaf .skip))))) (.sy .leaf (.sx (.sy
    .leaf (.sx (.sy .leaf .skip) (.sy .leaf .skip))) (.sy .leaf (.sx (.sy .leaf .skip) .skip)))))

theorem check22 : check 6 14 e_det lims tree22 500 100 8 0 3 16 = true := by decide +kernel

def tree23 : Tree :=
  .sx (.sy (.sx (.sy (.sx (.sy (.sx .leaf .leaf) .skip) (.sy (.sx .leaf (.sy .leaf .skip)) .skip)) .skip) (.sy (.sx
    (.sy (.sx (.sy .leaf .skip) (.sy .leaf .skip)) .skip) (.sx (.sx (.sy (.sy .leaf .skip) .skip) .skip) .skip))
    .skip)) .skip) .skip

theorem check23 : check 6 14 e_det lims tree23 200 100 4 3 3 16 = true := by decide +kernel

def tree24 : Tree :=
  .sy .leaf (.sx (.sy .leaf (.sx (.sy .leaf .skip) (.sy .leaf .skip))) (.sy (.sx (.sy .leaf .leaf) (.sy .leaf .leaf))
    (.sx (.sy (.sx .leaf (.sy .leaf .skip)) .skip) (.sy (.sx (.sy .leaf .skip) (.sy .leaf .skip)) .skip))))

theorem check24 : check 6 14 e_det lims tree24 600 100 8 0 3 16 = true := by decide +kernel

def tree25 : Tree :=
  .sy (.sx (.sy .leaf .leaf) (.sy .leaf .leaf)) (.sx (.sy (.sx (.sy .leaf .leaf) (.sy .leaf .leaf)) (.sx (.sx (.sy
    (.sy .leaf .skip) .skip) .skip) .skip)) (.sy (.sx (.sy .leaf .leaf) (.sy .leaf .leaf)) .skip))

theorem check25 : check 6 14 e_det lims tree25 700 100 8 0 3 16 = true := by decide +kernel

def tree26 : Tree :=
  .skip

theorem check26 : check 6 14 e_det lims tree26 300 100 4 3 3 16 = true := by decide +kernel

def tree27 : Tree :=
  .skip

theorem check27 : check 6 14 e_det lims tree27 100 100 2 3 3 8 = true := by decide +kernel

def tree28 : Tree :=
  .sx (.sx (.sx (.sx (.sx (.sx (.sx (.sy (.sy (.sy (.sy (.sy .leaf (.sy .leaf .leaf)) (.sy (.sy (.sy (.sx .leaf
    .leaf) (.sx .leaf .skip)) (.sx .leaf .skip)) (.sx .leaf .skip))) (.sx (.sy .leaf (.sx .leaf .skip)) .skip)) (.sx
    (.sx (.sy (.sy .leaf (.sx .leaf .skip)) (.sx .leaf .skip)) .skip) .skip)) (.sx (.sx (.sx (.sx (.sx (.sy .leaf
    (.sx (.sx .leaf .skip) .skip)) .skip) .skip) .skip) .skip) .skip)) .skip) .skip) .skip) .skip) .skip) .skip)
    .skip

theorem check28 : check 6 14 e_det lims tree28 0 100 1 3 3 4 = true := by decide +kernel

end det

open det

def tree_det : Tree :=
  .sy (.sx (.sy (.sx (.sy tree0 (.sx tree1 (.sy tree2 (.sx (.sy tree3 tree4) tree5)))) (.sy tree6 (.sx (.sy tree7 tree8) tree9))) (.sx (.sy (.sx
    (.sy (.sx tree10 (.sy tree11 tree12)) tree13) tree14) (.sx (.sx (.sx (.sy tree15 tree16) tree17) tree18) tree19)) tree20)) (.sy (.sx (.sy (.sx tree21
    tree22) tree23) (.sy (.sx tree24 tree25) tree26)) tree27)) tree28

theorem check_det : check 6 14 e_det lims tree_det 0 100 1 0 3 2 = true :=
  check_sy (check_sx (check_sy (check_sx (check_sy check0 (check_sx check1 (check_sy check2 (check_sx (check_sy check3 check4) check5))))
    (check_sy check6 (check_sx (check_sy check7 check8) check9))) (check_sx (check_sy (check_sx (check_sy (check_sx check10 (check_sy check11
    check12)) check13) check14) (check_sx (check_sx (check_sx (check_sy check15 check16) check17) check18) check19)) check20)) (check_sy (check_sx
    (check_sy (check_sx check21 check22) check23) (check_sy (check_sx check24 check25) check26)) check27)) check28

/-- region 2 is stable -/
theorem stable {p T : ℝ} (hv : Vapour p T) : gamma2.Stable p (540 / T) := by
  have hy := y_pos hv
  have h0 := hv.p0
  have e : 540 / T - 1 / 2 + 1 / 2 = 540 / T := by ring
  have hτ : 0 < 540 / T := by linarith
  obtain ⟨s1, s2, s3⟩ := signs hv
  have a4 := of_check hv (by norm_num) (by norm_num) ok_det check_det
  rw [det_eq h0.ne' hy.ne' (by rw [e]; exact hτ.ne'), e] at a4
  refine ⟨s1, s2, s3, ?_⟩
  have := pos_of_mul_pos_right (pos_of_mul_pos_right a4 (by norm_num)) (by positivity)
  linarith

end PyX.Kron.R2
