import Verif.Props.Backward
import Verif.Lemmas.P3sat
import Verif.Spec.Sat3
import Mathlib.Analysis.Calculus.Deriv.MeanValue

/-!
# The saturation pressure of region 3 as a function of enthalpy and of entropy

Each of the two functions rises to a maximum near the critical point and falls again.
-/

namespace PyX

open Classical Py Num Spec.IF97 Spec.Sat3 Univ

/-! ## The code evaluates the published equations -/

theorem p3sat_h_eq (h : ℝ) : RegionBorders.p3sat_h .ideal (.fin h) = pure (.fin (psH h)) := by
  have iI : RegionBorders.p3sat_h.Ii = tableH.map Term.I := rfl
  have iJ : RegionBorders.p3sat_h.Ji = tableH.map Term.J := rfl
  have in' : RegionBorders.p3sat_h.ni = tableH.map Term.n := rfl
  have q1 : ((1.02 : ℚ) : ℝ) = 1.02 := by norm_num
  have q2 : ((0.608 : ℚ) : ℝ) = 0.608 := by norm_num
  have e := backsum (N := 14) (a := h / 2600 - 1.02) (b := h / 2600 - 0.608) tableH rfl
    (fun t ht => .inr ((by decide : ∀ t ∈ tableH, 0 ≤ t.I) t ht)) (fun t ht => .inr ((by decide : ∀ t ∈ tableH, 0 ≤ t.J) t ht))
  simp only [lit_ideal] at e
  unfold RegionBorders.p3sat_h psH
  rw [iI, iJ, in']
  simp only [ofInt_eq, Int.cast_ofNat, Int.cast_zero, lit_ideal, q1, q2, pure_bind, sub_ideal, div_ideal (show (2600 : ℝ) ≠ 0 by norm_num), e, mul_ideal,
    poly_eq]
  rw [mul_comm]

theorem p3sat_s_eq (s : ℝ) : RegionBorders.p3sat_s .ideal (.fin s) = pure (.fin (psS s)) := by
  have iI : RegionBorders.p3sat_s.Ii = tableS.map Term.I := rfl
  have iJ : RegionBorders.p3sat_s.Ji = tableS.map Term.J := rfl
  have in' : RegionBorders.p3sat_s.ni = tableS.map Term.n := rfl
  have q1 : ((1.03 : ℚ) : ℝ) = 1.03 := by norm_num
  have q2 : ((0.699 : ℚ) : ℝ) = 0.699 := by norm_num
  have q3 : ((5.2 : ℚ) : ℝ) = 5.2 := by norm_num
  have e := backsum (N := 10) (a := s / 5.2 - 1.03) (b := s / 5.2 - 0.699) tableS rfl
    (fun t ht => .inr ((by decide : ∀ t ∈ tableS, 0 ≤ t.I) t ht)) (fun t ht => .inr ((by decide : ∀ t ∈ tableS, 0 ≤ t.J) t ht))
  simp only [lit_ideal] at e
  unfold RegionBorders.p3sat_s psS
  rw [iI, iJ, in']
  simp only [ofInt_eq, Int.cast_ofNat, Int.cast_zero, lit_ideal, q1, q2, q3, pure_bind, sub_ideal, div_ideal (show (5.2 : ℝ) ≠ 0 by norm_num), e, mul_ideal,
    poly_eq]
  rw [mul_comm]

/-! ## Integer coefficients -/

theorem psH_eq (h : ℝ) : psH h * hDen = 22 * psum hTs (h / 2600 - (2652000 : ℤ) / (2600000 : ℕ)) (h / 2600 - (1580800 : ℤ) / (2600000 : ℕ)) := by
  have e1 : ((2652000 : ℤ) : ℝ) / (2600000 : ℕ) = 1.02 := by norm_num
  have e2 : ((1580800 : ℤ) : ℝ) / (2600000 : ℕ) = 0.608 := by norm_num
  rw [e1, e2]
  generalize ex : h / 2600 - 1.02 = x
  generalize ez : h / 2600 - 0.608 = z
  simp only [psH, ex, ez, poly, tableH, List.map_cons, List.map_nil, List.sum_cons, List.sum_nil, hTs, psum, hDen]
  norm_num
  ring

theorem psS_eq (s : ℝ) : psS s * sDen = 22 * psum sTs (s / 5.2 - (5356000 : ℤ) / (5200000 : ℕ)) (s / 5.2 - (3634800 : ℤ) / (5200000 : ℕ)) := by
  have e1 : ((5356000 : ℤ) : ℝ) / (5200000 : ℕ) = 1.03 := by norm_num
  have e2 : ((3634800 : ℤ) : ℝ) / (5200000 : ℕ) = 0.699 := by norm_num
  rw [e1, e2]
  generalize ex : s / 5.2 - 1.03 = x
  generalize ez : s / 5.2 - 0.699 = z
  simp only [psS, ex, ez, poly, tableS, List.map_cons, List.map_nil, List.sum_cons, List.sum_nil, sTs, psum, sDen]
  norm_num
  ring

/-! ## Derivatives -/

theorem psH_deriv (h : ℝ) : HasDerivAt psH (22 / (2600 * hDen) *
    psum (dts hTs) (h / 2600 - (2652000 : ℤ) / (2600000 : ℕ)) (h / 2600 - (1580800 : ℤ) / (2600000 : ℕ))) h := by
  have d := (psum_deriv hTs ((2652000 : ℤ) / (2600000 : ℕ)) ((1580800 : ℤ) / (2600000 : ℕ)) (h / 2600)).comp h ((hasDerivAt_id h).div_const 2600)
  refine ((d.const_mul (22 / hDen : ℝ)).congr_deriv ?_).congr_of_eventuallyEq (.of_forall fun x => ?_)
  · rw [show (2600 : ℝ) * hDen = hDen * 2600 by ring]
    field_simp
  · have := psH_eq x
    have n : (hDen : ℝ) ≠ 0 := by norm_num [hDen]
    simp only [Function.comp, id]
    rw [div_mul_eq_mul_div, eq_div_iff n, this]

theorem psS_deriv (s : ℝ) : HasDerivAt psS (22 / (5.2 * sDen) *
    psum (dts sTs) (s / 5.2 - (5356000 : ℤ) / (5200000 : ℕ)) (s / 5.2 - (3634800 : ℤ) / (5200000 : ℕ))) s := by
  have d := (psum_deriv sTs ((5356000 : ℤ) / (5200000 : ℕ)) ((3634800 : ℤ) / (5200000 : ℕ)) (s / 5.2)).comp s ((hasDerivAt_id s).div_const 5.2)
  refine ((d.const_mul (22 / sDen : ℝ)).congr_deriv ?_).congr_of_eventuallyEq (.of_forall fun x => ?_)
  · rw [show (5.2 : ℝ) * sDen = sDen * 5.2 by ring]
    field_simp
  · have := psS_eq x
    have n : (sDen : ℝ) ≠ 0 := by norm_num [sDen]
    simp only [Function.comp, id]
    rw [div_mul_eq_mul_div, eq_div_iff n, this]

theorem psH_cont : Continuous psH := continuous_iff_continuousAt.2 fun h => (psH_deriv h).continuousAt
theorem psS_cont : Continuous psS := continuous_iff_continuousAt.2 fun h => (psS_deriv h).continuousAt

/-! ## Bounds -/

variable {h s : ℝ}

/-- the saturation pressure stays below the critical pressure -/
theorem psH_lt (h0 : 1450 ≤ h) (h1 : h < 2910) : psH h < 22.064 := by
  have := cover_sound (y := h / 2600) (by norm_num) hTop_deg hTop_ok (by push_cast; linarith) (by push_cast; linarith)
  have e := psH_eq h
  push_cast at this e
  norm_num [hDen] at this e ⊢
  linarith

theorem psS_lt (h0 : 3.43 ≤ s) (h1 : s < 6.23) : psS s < 22.064 := by
  have := cover_sound (y := s / 5.2) (by norm_num) sTop_deg sTop_ok (by norm_num at h0 ⊢; linarith) (by norm_num at h1 ⊢; linarith)
  have e := psS_eq s
  push_cast at this e
  norm_num [sDen] at this e ⊢
  linarith

theorem psS_lt' (h0 : 3.39 ≤ s) (h1 : s < 3.432) : psS s < 45 := by
  have := cover_sound (y := s / 5.2) (by norm_num) sLow_deg sLow_ok (by norm_num at h0 ⊢; linarith) (by norm_num at h1 ⊢; linarith)
  have e := psS_eq s
  push_cast at this e
  norm_num [sDen] at this e ⊢
  linarith

theorem psH_mid (h0 : 2087 ≤ h) (h1 : h < 2087.5) : 22.06395 < psH h := by
  have := cover_sound (y := h / 2600) (by norm_num) hMid_deg hMid_ok (by push_cast; linarith) (by norm_num at h1 ⊢; linarith)
  have e := psH_eq h
  rw [psum_neg] at this
  push_cast at this e
  norm_num [hDen] at this e ⊢
  linarith

theorem psS_mid (h0 : 4.412 ≤ s) (h1 : s ≤ 4.413) : 22.063 ≤ psS s := by
  rcases h1.lt_or_eq with h1 | rfl
  · have := cover_sound (y := s / 5.2) (by norm_num) sMid_deg sMid_ok (by norm_num at h0 ⊢; linarith) (by norm_num at h1 ⊢; linarith)
    have e := psS_eq s
    rw [psum_neg] at this
    push_cast at this e
    norm_num [sDen] at this e ⊢
    linarith
  · have e := psS_eq 4.413
    norm_num [sDen, sTs, psum] at e ⊢
    linarith

theorem psH_strictMono : StrictMonoOn psH (Set.Icc 1500 2087) := by
  refine strictMonoOn_of_deriv_pos (convex_Icc _ _) psH_cont.continuousOn fun h hh => ?_
  rw [interior_Icc] at hh
  have := cover_sound (y := h / 2600) (by norm_num) hUp_deg hUp_ok (by push_cast; linarith [hh.1]) (by push_cast; linarith [hh.2])
  rw [(psH_deriv h).deriv]
  rw [psum_neg] at this
  exact mul_pos (by norm_num [hDen]) (by push_cast at this ⊢; linarith)

theorem psH_strictAnti : StrictAntiOn psH (Set.Icc 2087.5 2880) := by
  refine strictAntiOn_of_deriv_neg (convex_Icc _ _) psH_cont.continuousOn fun h hh => ?_
  rw [interior_Icc] at hh
  have := cover_sound (y := h / 2600) (by norm_num) hDown_deg hDown_ok (by have := hh.1; norm_num at this ⊢; linarith) (by push_cast; linarith [hh.2])
  rw [(psH_deriv h).deriv]
  exact mul_neg_of_pos_of_neg (by norm_num [hDen]) (by push_cast at this ⊢; linarith)

theorem psS_strictMono : StrictMonoOn psS (Set.Icc 3.6 4.412) := by
  refine strictMonoOn_of_deriv_pos (convex_Icc _ _) psS_cont.continuousOn fun h hh => ?_
  rw [interior_Icc] at hh
  have h0 := hh.1
  have h1 := hh.2
  have := cover_sound (y := h / 5.2) (by norm_num) sUp_deg sUp_ok (by norm_num at h0 ⊢; linarith) (by norm_num at h1 ⊢; linarith)
  rw [(psS_deriv h).deriv]
  rw [psum_neg] at this
  exact mul_pos (by norm_num [sDen]) (by push_cast at this ⊢; linarith)

theorem psS_strictAnti : StrictAntiOn psS (Set.Icc 4.413 5.5) := by
  refine strictAntiOn_of_deriv_neg (convex_Icc _ _) psS_cont.continuousOn fun h hh => ?_
  rw [interior_Icc] at hh
  have h0 := hh.1
  have h1 := hh.2
  have := cover_sound (y := h / 5.2) (by norm_num) sDown_deg sDown_ok (by norm_num at h0 ⊢; linarith) (by norm_num at h1 ⊢; linarith)
  rw [(psS_deriv h).deriv]
  exact mul_neg_of_pos_of_neg (by norm_num [sDen]) (by push_cast at this ⊢; linarith)

/-- at most 1 MPa per kJ/kg -/
theorem psH_lip {a b : ℝ} (ha : a ∈ Set.Icc (1670 : ℝ) 2569) (hb : b ∈ Set.Icc (1670 : ℝ) 2569) : |psH a - psH b| ≤ 1 * |a - b| := by
  refine Convex.norm_image_sub_le_of_norm_hasDerivWithin_le (fun x _ => (psH_deriv x).hasDerivWithinAt) (fun x hx => ?_) (convex_Icc _ _) hb ha
  have h1 := cover_sound (y := x / 2600) (by norm_num) hLip1_deg hLip1_ok (by push_cast; linarith [hx.1]) (by push_cast; linarith [hx.2])
  have h2 := cover_sound (y := x / 2600) (by norm_num) hLip2_deg hLip2_ok (by push_cast; linarith [hx.1]) (by push_cast; linarith [hx.2])
  rw [psum_neg] at h2
  generalize psum (dts hTs) _ _ = d at *
  rw [Real.norm_eq_abs, abs_le]
  norm_num [hDen] at h1 h2 ⊢
  constructor <;> linarith

end PyX
