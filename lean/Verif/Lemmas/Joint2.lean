import Verif.Lemmas.Joint

/-!
# Regions 2 and 5 on the isotherm 1073.15 K, from 10 to 50 MPa
-/

namespace PyX.Kron

open Spec.IF97 PyX

set_option maxRecDepth 20000

variable {p : ℝ}

def barsW : List Bar :=
  [⟨1000, 1250, 107315, 107315, ⟨1000, 250, 100, 137, 0, 42926⟩⟩,
   ⟨1250, 1500, 107315, 107315, ⟨1250, 250, 100, 137, 0, 42926⟩⟩,
   ⟨1500, 1750, 107315, 107315, ⟨1500, 250, 100, 137, 0, 42926⟩⟩,
   ⟨1750, 2000, 107315, 107315, ⟨1750, 250, 100, 137, 0, 42926⟩⟩,
   ⟨2000, 2250, 107315, 107315, ⟨2000, 250, 100, 137, 0, 42926⟩⟩,
   ⟨2250, 2500, 107315, 107315, ⟨2250, 250, 100, 137, 0, 42926⟩⟩,
   ⟨2500, 2750, 107315, 107315, ⟨2500, 250, 100, 137, 0, 42926⟩⟩,
   ⟨2750, 3000, 107315, 107315, ⟨2750, 250, 100, 137, 0, 42926⟩⟩,
   ⟨3000, 3250, 107315, 107315, ⟨3000, 250, 100, 137, 0, 42926⟩⟩,
   ⟨3250, 3500, 107315, 107315, ⟨3250, 250, 100, 137, 0, 42926⟩⟩,
   ⟨3500, 3750, 107315, 107315, ⟨3500, 250, 100, 137, 0, 42926⟩⟩,
   ⟨3750, 4000, 107315, 107315, ⟨3750, 250, 100, 137, 0, 42926⟩⟩,
   ⟨4000, 4250, 107315, 107315, ⟨4000, 250, 100, 137, 0, 42926⟩⟩,
   ⟨4250, 4500, 107315, 107315, ⟨4250, 250, 100, 137, 0, 42926⟩⟩,
   ⟨4500, 4750, 107315, 107315, ⟨4500, 250, 100, 137, 0, 42926⟩⟩,
   ⟨4750, 5001, 107315, 107315, ⟨4750, 251, 100, 137, 0, 42926⟩⟩]

theorem barsW_chain : chainP 1000 barsW 5001 = true := by decide +kernel

def barsH : List Bar :=
  [⟨1000, 1100, 107315, 107315, ⟨1000, 100, 100, 137, 0, 42926⟩⟩,
   ⟨1100, 1200, 107315, 107315, ⟨1100, 100, 100, 137, 0, 42926⟩⟩,
   ⟨1200, 1300, 107315, 107315, ⟨1200, 100, 100, 137, 0, 42926⟩⟩,
   ⟨1300, 1400, 107315, 107315, ⟨1300, 100, 100, 137, 0, 42926⟩⟩,
   ⟨1400, 1500, 107315, 107315, ⟨1400, 100, 100, 137, 0, 42926⟩⟩,
   ⟨1500, 1600, 107315, 107315, ⟨1500, 100, 100, 137, 0, 42926⟩⟩,
   ⟨1600, 1700, 107315, 107315, ⟨1600, 100, 100, 137, 0, 42926⟩⟩,
   ⟨1700, 1800, 107315, 107315, ⟨1700, 100, 100, 137, 0, 42926⟩⟩,
   ⟨1800, 1900, 107315, 107315, ⟨1800, 100, 100, 137, 0, 42926⟩⟩,
   ⟨1900, 2000, 107315, 107315, ⟨1900, 100, 100, 137, 0, 42926⟩⟩,
   ⟨2000, 2100, 107315, 107315, ⟨2000, 100, 100, 137, 0, 42926⟩⟩,
   ⟨2100, 2200, 107315, 107315, ⟨2100, 100, 100, 137, 0, 42926⟩⟩,
   ⟨2200, 2300, 107315, 107315, ⟨2200, 100, 100, 137, 0, 42926⟩⟩,
   ⟨2300, 2400, 107315, 107315, ⟨2300, 100, 100, 137, 0, 42926⟩⟩,
   ⟨2400, 2500, 107315, 107315, ⟨2400, 100, 100, 137, 0, 42926⟩⟩,
   ⟨2500, 2600, 107315, 107315, ⟨2500, 100, 100, 137, 0, 42926⟩⟩,
   ⟨2600, 2700, 107315, 107315, ⟨2600, 100, 100, 137, 0, 42926⟩⟩,
   ⟨2700, 2800, 107315, 107315, ⟨2700, 100, 100, 137, 0, 42926⟩⟩,
   ⟨2800, 2900, 107315, 107315, ⟨2800, 100, 100, 137, 0, 42926⟩⟩,
   ⟨2900, 3000, 107315, 107315, ⟨2900, 100, 100, 137, 0, 42926⟩⟩,
   ⟨3000, 3100, 107315, 107315, ⟨3000, 100, 100, 137, 0, 42926⟩⟩,
   ⟨3100, 3200, 107315, 107315, ⟨3100, 100, 100, 137, 0, 42926⟩⟩,
   ⟨3200, 3300, 107315, 107315, ⟨3200, 100, 100, 137, 0, 42926⟩⟩,
   ⟨3300, 3400, 107315, 107315, ⟨3300, 100, 100, 137, 0, 42926⟩⟩,
   ⟨3400, 3500, 107315, 107315, ⟨3400, 100, 100, 137, 0, 42926⟩⟩,
   ⟨3500, 3600, 107315, 107315, ⟨3500, 100, 100, 137, 0, 42926⟩⟩,
   ⟨3600, 3700, 107315, 107315, ⟨3600, 100, 100, 137, 0, 42926⟩⟩,
   ⟨3700, 3800, 107315, 107315, ⟨3700, 100, 100, 137, 0, 42926⟩⟩,
   ⟨3800, 3900, 107315, 107315, ⟨3800, 100, 100, 137, 0, 42926⟩⟩,
   ⟨3900, 4000, 107315, 107315, ⟨3900, 100, 100, 137, 0, 42926⟩⟩,
   ⟨4000, 4100, 107315, 107315, ⟨4000, 100, 100, 137, 0, 42926⟩⟩,
   ⟨4100, 4200, 107315, 107315, ⟨4100, 100, 100, 137, 0, 42926⟩⟩,
   ⟨4200, 4300, 107315, 107315, ⟨4200, 100, 100, 137, 0, 42926⟩⟩,
   ⟨4300, 4400, 107315, 107315, ⟨4300, 100, 100, 137, 0, 42926⟩⟩,
   ⟨4400, 4500, 107315, 107315, ⟨4400, 100, 100, 137, 0, 42926⟩⟩,
   ⟨4500, 4600, 107315, 107315, ⟨4500, 100, 100, 137, 0, 42926⟩⟩,
   ⟨4600, 4700, 107315, 107315, ⟨4600, 100, 100, 137, 0, 42926⟩⟩,
   ⟨4700, 4800, 107315, 107315, ⟨4700, 100, 100, 137, 0, 42926⟩⟩,
   ⟨4800, 4900, 107315, 107315, ⟨4800, 100, 100, 137, 0, 42926⟩⟩,
   ⟨4900, 5001, 107315, 107315, ⟨4900, 101, 100, 137, 0, 42926⟩⟩]

theorem barsH_chain : chainP 1000 barsH 5001 = true := by decide +kernel

theorem hW_ok : barsI 107315 (qHup hUP hUN) barsH = true := by decide +kernel

theorem sW_ok : barsI 107315 (qSup sUP sUN) barsW = true := by decide +kernel

theorem hW (h0 : 10 ≤ p) (h2 : p ≤ 50) :
    gamma2.h p 1073.15 < (4160.7062903082629) * p ^ 0 + (-4.5185402587932) * p ^ 1 + (-0.0093803117369) * p ^ 2 + (0.0001553220591) * p ^ 3 := by
  have := hup (P := hUP) (N := hUN) (by simp [hUP]) (by simp [hUN]) (vapour_1073 (by linarith) (by linarith))
    (barsI_sound barsH_chain hW_ok (by norm_num) (by norm_num; linarith) (by norm_num; linarith))
  refine lt_of_lt_of_le this (le_of_eq ?_)
  simp only [cub, hUP, hUN, evalN_cons', evalN_nil']
  push_cast
  ring

theorem sW (h0 : 10 ≤ p) (h2 : p ≤ 50) :
    gamma2.s p 1073.15 / R + Real.log p < (18.4297289980112) * p ^ 0 + (-0.0073091180586) * p ^ 1 + (-0.0000168348072) * p ^ 2 + (0.0000002090669) * p ^ 3 := by
  have := sup (P := sUP) (N := sUN) (by simp [sUP]) (by simp [sUN]) (vapour_1073 (by linarith) (by linarith))
    (barsI_sound barsW_chain sW_ok (by norm_num) (by norm_num; linarith) (by norm_num; linarith))
  refine lt_of_lt_of_le this (le_of_eq ?_)
  simp only [cub, sUP, sUN, evalN_cons', evalN_nil']
  push_cast
  ring

theorem h5_warm (h0 : 0 < p) (h1 : p ≤ 50) : (4160.7062903082629) * p ^ 0 + (-4.5185402587932) * p ^ 1 + (-0.0093803117369) * p ^ 2 + (0.0001553220591) * p ^ 3 < gamma5.h p 1073.2 := by
  have h2 : p ^ 2 ≤ 2500 := by nlinarith
  have h3 : p ^ 3 ≤ 125000 := by nlinarith [pow_pos h0 2]
  have h4 := pow_pos h0 2
  have h5 := pow_pos h0 3
  simp only [Gamma.h, gamma5, dpoly, region5, region5Ideal, Term.d, List.map_cons, List.map_nil, List.sum_cons, List.sum_nil, R, ff]
  field_simp
  norm_num
  nlinarith

theorem s5_warm (h0 : 0 < p) (h1 : p ≤ 50) : (18.4297289980112) * p ^ 0 + (-0.0073091180586) * p ^ 1 + (-0.0000168348072) * p ^ 2 + (0.0000002090669) * p ^ 3 < gamma5.s p 1073.2 / R + Real.log p := by
  rw [Gamma.s, mul_div_cancel_left₀ _ Gamma.R_pos.ne']
  have h2 : p ^ 2 ≤ 2500 := by nlinarith
  have h3 : p ^ 3 ≤ 125000 := by nlinarith [pow_pos h0 2]
  have h4 := pow_pos h0 2
  have h5 := pow_pos h0 3
  simp only [gamma5, dpoly, region5, region5Ideal, Term.d, List.map_cons, List.map_nil, List.sum_cons, List.sum_nil, ff]
  field_simp
  norm_num
  nlinarith

theorem h25' (h0 : 0 < p) (h1 : p ≤ 50) : gamma2.h p 1073.15 < gamma5.h p 1073.2 := by
  rcases le_or_gt p 10 with h | h
  · exact h25 h0 h
  · exact (hW h.le h1).trans (h5_warm h0 h1)

theorem s25' (h0 : 0 < p) (h1 : p ≤ 50) : gamma2.s p 1073.15 < gamma5.s p 1073.2 := by
  rcases le_or_gt p 10 with h | h
  · exact s25 h0 h
  · have := (sW h.le h1).trans (s5_warm h0 h1)
    exact (div_lt_div_iff_of_pos_right Gamma.R_pos).1 (by linarith)

end PyX.Kron
