import Verif.Lemmas.Sign2

/-!
# Steam expands when heated
-/

namespace PyX.Kron.R2

open Spec Spec.IF97 Kron

theorem ok_c : e_c.ok = true := by decide +kernel
def tree_c : Tree :=
  .sx (.sy (.sx (.sy (.sx .leaf (.sy .leaf (.sx (.sy .leaf (.sx (.sy .leaf (.sx .leaf .leaf)) (.sy .leaf (.sx
    (.sy .leaf (.sx .leaf .leaf)) (.sy .leaf (.sx .leaf .skip)))))) (.sy .leaf (.sx (.sy (.sx .leaf (.sy .leaf
    .leaf)) (.sx (.sy .leaf .skip) (.sx (.sx (.sx (.sx (.sy .leaf .skip) .skip) .skip) .skip) .skip))) (.sy
    (.sx (.sy .leaf .leaf) (.sy .leaf .leaf)) .skip)))))) (.sx (.sy (.sx (.sy .leaf (.sx .leaf (.sy (.sx .leaf
    .leaf) (.sx (.sy .leaf .leaf) .skip)))) (.sy (.sx (.sy .leaf (.sx .leaf (.sy .leaf (.sx .leaf .skip))))
    (.sy (.sx .leaf (.sy .leaf (.sx .leaf .leaf))) (.sx (.sy (.sx .leaf .leaf) .skip) .skip))) (.sx (.sx (.sx
    (.sy .leaf .skip) .skip) .skip) .skip))) (.sx (.sx (.sy (.sy .leaf (.sx .leaf (.sx .leaf .skip))) (.sx
    .leaf .skip)) .skip) .skip)) (.sx (.sx (.sy (.sy (.sy (.sx (.sy (.sx .leaf .leaf) (.sx .leaf .skip)) (.sy
    (.sx .leaf .leaf) .skip)) .skip) .skip) .skip) .skip) .skip))) (.sy (.sx (.sy .leaf (.sx (.sy (.sx (.sy
    .leaf .leaf) (.sy .leaf (.sx (.sy .leaf .leaf) (.sy .leaf .leaf)))) (.sx (.sy (.sx (.sy .leaf .skip) (.sy
    .leaf .skip)) .skip) (.sx (.sx (.sx (.sx (.sy (.sy .leaf .skip) .skip) .skip) .skip) .skip) .skip))) (.sy
    (.sx (.sy .leaf (.sx (.sy .leaf .leaf) (.sy .leaf .leaf))) (.sy .leaf (.sx (.sy .leaf .skip) (.sy .leaf
    .skip)))) .skip))) (.sy (.sx (.sy .leaf .leaf) (.sy .leaf .leaf)) (.sx (.sy (.sx (.sy .leaf (.sx (.sy
    .leaf .skip) (.sy .leaf .skip))) (.sy (.sx (.sy .leaf .leaf) (.sy .leaf .leaf)) (.sx (.sx (.sx (.sy .leaf
    .skip) .skip) .skip) .skip))) .skip) (.sy (.sx (.sy (.sx (.sy .leaf .leaf) (.sy .leaf .leaf)) .skip) (.sy
    (.sx (.sy .leaf .leaf) (.sy .leaf .leaf)) .skip)) .skip)))) .skip)) (.sx (.sx (.sx (.sx (.sx (.sx (.sy
    (.sy (.sy .leaf (.sx .leaf .skip)) (.sx (.sx .leaf .skip) .skip)) (.sx (.sx (.sx (.sx (.sx .leaf .skip)
    .skip) .skip) .skip) .skip)) .skip) .skip) .skip) .skip) .skip) .skip)) (.sy (.sx (.sy (.sx (.sy (.sx (.sy
    .leaf (.sx .leaf (.sy .leaf .leaf))) (.sy .leaf (.sx (.sy .leaf (.sx .leaf (.sy .leaf .leaf))) (.sy .leaf
    (.sx (.sy .leaf .leaf) (.sy .leaf .leaf)))))) (.sx (.sy (.sx (.sy (.sx (.sy .leaf .skip) (.sy .leaf
    .skip)) .skip) (.sy (.sx (.sy .leaf .skip) (.sy .leaf .skip)) .skip)) .skip) (.sy (.sx (.sy (.sx (.sy
    .leaf .skip) (.sy .leaf .skip)) .skip) (.sx (.sx (.sy (.sy .leaf .skip) .skip) .skip) .skip)) .skip)))
    (.sy (.sx (.sy .leaf (.sx (.sy .leaf (.sx (.sy .leaf .leaf) (.sy .leaf .leaf))) (.sy .leaf (.sx (.sy .leaf
    .leaf) (.sy .leaf .leaf))))) (.sy .leaf (.sx (.sy .leaf (.sx (.sy .leaf .leaf) (.sy .leaf .leaf))) (.sy
    .leaf (.sx (.sy .leaf (.sx .leaf (.sx (.sy .leaf .skip) .skip))) (.sy .leaf .skip)))))) .skip)) .skip)
    (.sy (.sx (.sy (.sx (.sy .leaf (.sx (.sy .leaf (.sx (.sy .leaf .skip) (.sy .leaf .skip))) (.sy .leaf (.sx
    (.sy .leaf .skip) (.sy .leaf .skip))))) (.sy .leaf (.sx (.sy .leaf (.sx (.sy .leaf .skip) (.sy (.sx .leaf
    .leaf) .skip))) (.sy .leaf (.sx (.sy (.sx (.sy .leaf .skip) (.sy .leaf .skip)) .skip) (.sy (.sx (.sy .leaf
    .skip) (.sy .leaf .skip)) .skip)))))) .skip) (.sy (.sx (.sy .leaf (.sx (.sy (.sx (.sy .leaf .leaf) (.sy
    .leaf .leaf)) (.sx (.sy (.sx (.sy .leaf .skip) (.sx (.sx (.sy .leaf .skip) .skip) .skip)) .skip) .skip))
    (.sy (.sx (.sy .leaf .leaf) (.sy .leaf .leaf)) .skip))) (.sy .leaf (.sx (.sy (.sx (.sy .leaf .leaf) (.sy
    .leaf .leaf)) .skip) (.sy (.sx (.sy .leaf .leaf) (.sy .leaf .leaf)) .skip)))) .skip)) .skip)) .skip)
theorem check_c : check 6 12 e_c lims tree_c 0 100 1 0 3 2 = true := by decide +kernel

theorem expand {p T : ℝ} (hv : Vapour p T) : 0 < gamma2.gp p (540 / T) - 540 / T * gamma2.gpt p (540 / T) := by
  have h := of_check hv (by norm_num) (by norm_num) ok_c check_c
  rw [c_eq hv.p0.ne' (y_pos hv).ne'] at h
  have e : 540 / T - 1 / 2 + 1 / 2 = 540 / T := by ring
  rw [e] at h
  exact pos_of_mul_pos_right (pos_of_mul_pos_right h (by norm_num)) hv.p0.le

end PyX.Kron.R2
