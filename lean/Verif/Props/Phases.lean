import Verif.Props.Monotone
import Verif.Props.Derived
import Verif.Props.Borders
import Verif.Lemmas.CellsData
import Mathlib.Topology.Order.IntermediateValue

/-!
# Liquid and vapour on both sides of their boundaries

Enthalpies at saturation against the estimates of `region_ph`; enthalpy and entropy of the liquid and of the vapour are
separated by 2000 kJ/kg and 4 kJ/(kg K).
-/

namespace PyX.Kron

open Spec.Sat Spec.PT Spec.IF97 PyX

variable {p T : ℝ}

theorem psat_273 : psat 273.15 < 0.000611657 := by
  have h := psat_le (T := 273.15) (Tk := 273.15) (β := 0.157235) (by norm_num) (by norm_num) (by norm_num) (by norm_num)
    (by norm_num [eqQ, thQ])
  norm_num at h ⊢
  linarith

theorem psat_6232 : 16.5292 < psat 623.2 := by
  have h := le_psat (T := 623.2) (Tk := 623.2) (β := 2.0165) (by norm_num) (by norm_num) (by norm_num) (by norm_num) (by norm_num)
    (by norm_num [eqQ, thQ])
  norm_num at h ⊢
  linarith

theorem psat_62315 : 16.5291 < psat 623.15 := by
  have h := le_psat (T := 623.15) (Tk := 623.15) (β := 2.01633344) (by norm_num) (by norm_num) (by norm_num) (by norm_num) (by norm_num)
    (by norm_num [eqQ, thQ])
  norm_num at h ⊢
  linarith

theorem tsat_ge (h0 : 0.000611657 < p) (h1 : p < 22.06395) {x : ℝ} (hx : psat x ≤ p) (hx1 : x ≤ 647) : x ≤ tsat p := by
  by_contra hc
  rw [not_le] at hc
  have := psat_mono (by linarith [(tsat_range h0 h1).1]) hc (by linarith)
  rw [psat_tsat h0 h1] at this
  linarith

theorem tsat_lt (h0 : 0.000611657 < p) (h1 : p < 22.06395) {x : ℝ} (hx0 : 165 ≤ x) (hx : p < psat x) : tsat p < x := by
  by_contra hc
  rw [not_lt] at hc
  have := psat_mono' hx0 hc (by linarith [(tsat_range h0 h1).2])
  rw [psat_tsat h0 h1] at this
  linarith

theorem tsat_le (h0 : 0.000611657 < p) (h1 : p < 22.06395) {x : ℝ} (hx0 : 165 ≤ x) (hx : p ≤ psat x) : tsat p ≤ x := by
  by_contra hc
  rw [not_le] at hc
  have := psat_mono hx0 hc (by linarith [(tsat_range h0 h1).2])
  rw [psat_tsat h0 h1] at this
  linarith

/-- the saturated liquid -/
theorem liquid_sat (h0 : 0.000611657 < p) (h1 : p < 16.5292) : Liquid p (tsat p) := by
  have h2 : p < 22.06395 := by linarith
  refine ⟨by linarith, tsat_ge h0 h2 (psat_273.trans h0).le (by norm_num), (tsat_lt h0 h2 (by norm_num) (h1.trans psat_6232)).le, ?_⟩
  rw [psat_tsat h0 h2]

/-- the saturated vapour -/
theorem vapour_sat (h0 : 0.000611657 < p) (h1 : p ≤ 16.5291) : Vapour p (tsat p) := by
  have h2 : p < 22.06395 := by linarith
  have h3 : tsat p < 623.15 := tsat_lt h0 h2 (by norm_num) (by linarith [psat_62315])
  refine ⟨by linarith, by linarith, tsat_ge h0 h2 (psat_273.trans h0).le (by norm_num), by linarith, fun _ => ?_, fun h => ?_⟩
  · rw [psat_tsat h0 h2]
  · linarith

/-- the saturated liquid against the estimate of `region_ph` -/
theorem hL_fit (h0 : 0.000611657 < p) (h1 : p < 16.5292) :
    gamma1.h p (tsat p) < 109.6635 * Real.log p + 40.3481 * p + 834.58 := by
  have h2 : p < 22.06395 := by linarith
  have hv := liquid_sat h0 h1
  have e := psat_tsat h0 h2
  obtain ⟨c, hc, c0, c1⟩ := chain_sound (T := tsat p) cellsL_chain (by norm_num; linarith [hv.T0])
    (by have := tsat_lt h0 h2 (by norm_num) (h1.trans psat_6232); norm_num at this ⊢; linarith)
  have := Cell.okL_sound (allOk_sound cellsL_ok hc) (T := tsat p) (by rw [e]; exact hv) c0 c1
  rwa [e] at this

/-- the saturated vapour against the estimate of `region_ph` -/
theorem hV_fit (h0 : 0.000611657 < p) (h1 : p ≤ 16.5291) :
    45.1768 * Real.log p - 20.158 * p + 2754.4 < gamma2.h p (tsat p) := by
  have h2 : p < 22.06395 := by linarith
  have hv := vapour_sat h0 h1
  have e := psat_tsat h0 h2
  obtain ⟨c, hc, c0, c1⟩ := chain_sound (T := tsat p) cellsV_chain (by norm_num; linarith [hv.T0])
    (by have := tsat_lt h0 h2 (x := 623.2) (by norm_num) (by linarith [psat_6232]); norm_num at this ⊢; linarith)
  have := Cell.okV_sound (allOk_sound cellsV_ok hc) (T := tsat p) (by rw [e]; exact hv) c0 c1
  rwa [e] at this

theorem hL_fit' (h0 : 0.000611657 < p) (h1 : p < 16.5292) :
    109.6635 * Real.log p + 40.3481 * p + 634.58 < gamma1.h p (tsat p) := by
  have h2 : p < 22.06395 := by linarith
  have hv := liquid_sat h0 h1
  have e := psat_tsat h0 h2
  obtain ⟨c, hc, c0, c1⟩ := chain_sound (T := tsat p) cellsLd_chain (by norm_num; linarith [hv.T0])
    (by have := tsat_lt h0 h2 (by norm_num) (h1.trans psat_6232); norm_num at this ⊢; linarith)
  have := Cell.okLd_sound (allOk_sound cellsLd_ok hc) (T := tsat p) (by rw [e]; exact hv) (by rw [e]; linarith) c0 c1
  rwa [e] at this

theorem hV_fit' (h0 : 0.000611657 < p) (h1 : p ≤ 16.5291) :
    gamma2.h p (tsat p) < 45.1768 * Real.log p - 20.158 * p + 2854.4 := by
  have h2 : p < 22.06395 := by linarith
  have hv := vapour_sat h0 h1
  have e := psat_tsat h0 h2
  obtain ⟨c, hc, c0, c1⟩ := chain_sound (T := tsat p) cellsVu_chain (by norm_num; linarith [hv.T0])
    (by have := tsat_lt h0 h2 (x := 623.2) (by norm_num) (by linarith [psat_6232]); norm_num at this ⊢; linarith)
  have := Cell.okVu_sound (allOk_sound cellsVu_ok hc) (T := tsat p) (by rw [e]; exact hv) c0 c1
  rwa [e] at this

theorem s1_sat (h0 : 0.000611657 < p) (h1 : p < 16.5292) : gamma1.s p (tsat p) < 4 := by
  have h2 : p < 22.06395 := by linarith
  have hv := liquid_sat h0 h1
  have e := psat_tsat h0 h2
  obtain ⟨c, hc, c0, c1⟩ := chain_sound (T := tsat p) cellsS1_chain (by norm_num; linarith [hv.T0])
    (by have := tsat_lt h0 h2 (by norm_num) (h1.trans psat_6232); norm_num at this ⊢; linarith)
  have := Cell.okS1_sound (allOk_sound cellsS1_ok hc) (T := tsat p) (by rw [e]; exact hv) c0 c1
  rwa [e] at this

theorem s2_sat (h0 : 0.000611657 < p) (h1 : p ≤ 16.5291) : 4 < gamma2.s p (tsat p) := by
  have h2 : p < 22.06395 := by linarith
  have hv := vapour_sat h0 h1
  have e := psat_tsat h0 h2
  obtain ⟨c, hc, c0, c1⟩ := chain_sound (T := tsat p) cellsS2_chain (by norm_num; linarith [hv.T0])
    (by have := tsat_lt h0 h2 (x := 623.2) (by norm_num) (by linarith [psat_6232]); norm_num at this ⊢; linarith)
  have := Cell.okS2_sound (allOk_sound cellsS2_ok hc) (T := tsat p) (by rw [e]; exact hv) c0 c1
  rwa [e] at this

theorem h1_le {T' : ℝ} (h : Liquid p T) (h' : Liquid p T') (hT : T ≤ T') : gamma1.h p T ≤ gamma1.h p T' := by
  rcases hT.eq_or_lt with rfl | hT
  · exact le_rfl
  · exact (h1_lt h h' hT).le

theorem s1_le {T' : ℝ} (h : Liquid p T) (h' : Liquid p T') (hT : T ≤ T') : gamma1.s p T ≤ gamma1.s p T' := by
  rcases hT.eq_or_lt with rfl | hT
  · exact le_rfl
  · exact (s1_lt h h' hT).le

theorem h2_le {T' : ℝ} (h : Vapour p T) (h' : T' ≤ 1073.15) (hT : T ≤ T') : gamma2.h p T ≤ gamma2.h p T' := by
  rcases hT.eq_or_lt with rfl | hT
  · exact le_rfl
  · exact (h2_lt h h' hT).le

theorem s2_le {T' : ℝ} (h : Vapour p T) (h' : T' ≤ 1073.15) (hT : T ≤ T') : gamma2.s p T ≤ gamma2.s p T' := by
  rcases hT.eq_or_lt with rfl | hT
  · exact le_rfl
  · exact (s2_lt h h' hT).le

theorem log_lt_16 (h0 : 0 < p) (h1 : p < 16.5292) : Real.log p < 2.81 := by
  have l := (lnQ_sound 0 4 (a := 1653) (A := 100) (by norm_num) (by norm_num)).2
  have l3 : (lnQ 0 4 1653 100).2 ≤ 790900000000000 := by decide +kernel
  have l3' : ((lnQ 0 4 1653 100).2 : ℝ) ≤ 790900000000000 := by exact_mod_cast l3
  have := Real.log_lt_log h0 (show p < 1653 / 100 by norm_num; linarith)
  push_cast at l
  norm_num at l this
  linarith

theorem log_gt_0006 (h0 : 0.000611657 < p) : -7.41 < Real.log p := by
  have l := (lnQ_sound 11 0 (a := 611657) (A := 1000000000) (by norm_num) (by norm_num)).1
  have l3 : -2085000000000000 ≤ (lnQ 11 0 611657 1000000000).1 := by decide +kernel
  have l3' : (-2085000000000000 : ℝ) ≤ ((lnQ 11 0 611657 1000000000).1 : ℝ) := by exact_mod_cast l3
  have := Real.log_lt_log (by norm_num) (show 611657 / 1000000000 < p by norm_num; linarith)
  push_cast at l
  norm_num at l this
  linarith

/-- a liquid has less than 2000 kJ/kg and 4 kJ/(kg K) -/
theorem liquid_low (hv : Liquid p T) (hT : T ≤ 623.15) (h0 : 0.000611657 < p) : gamma1.h p T < 2000 ∧ gamma1.s p T < 4 := by
  rcases lt_or_ge p 16.5292 with hp | hp
  · have hs := liquid_sat h0 hp
    have hT' : T ≤ tsat p := tsat_ge h0 (by linarith) hv.sat (by linarith)
    refine ⟨?_, ?_⟩
    · have := log_lt_16 (by linarith) hp
      linarith [h1_le hv hs hT', hL_fit h0 hp]
    · linarith [s1_le hv hs hT', s1_sat h0 hp]
  · have hs : Liquid p 623.15 := ⟨hv.p1, by norm_num, by norm_num, by
      have : psat 623.15 ≤ b23 623.15 := psat_b23
      have h3 : b23 623.15 ≤ 16.5292 := by norm_num [b23]
      linarith⟩
    have hp1 := hv.p1
    exact ⟨(h1_le hv hs hT).trans_lt (h1_of_eH1 hs (barsL_sound barsLH_chain barsLH_ok hs (by norm_num) (by norm_num; linarith) (by norm_num; linarith))),
      (s1_le hv hs hT).trans_lt (s1_of_eS1 hs (barsL_sound barsLS_chain barsLS_ok hs (by norm_num) (by norm_num; linarith) (by norm_num; linarith)))⟩

/-- on every isobar above 16.5291 MPa the vapour begins close to the border -/
theorem edge (hv : Vapour p T) (h0 : 16.5291 < p) :
    ∃ x, x ≤ T ∧ Vapour p x ∧ 623.1 ≤ x ∧ x < 863.2 ∧ b23 x - 0.03 ≤ p ∧ p ≤ b23 x + 0.03 := by
  have b0 : b23 623.15 ≤ 16.5292 := by norm_num [b23]
  have b1 : 16.5291 ≤ b23 623.15 := by norm_num [b23]
  have b2 : b23 623.16 ≤ 16.5303 := by norm_num [b23]
  rcases le_or_gt T 623.15 with hT | hT
  · have h3 : 623.1 ≤ T := by
      by_contra hc
      rw [not_le] at hc
      have h4 := psat_le (T := T) (Tk := 623.1) (β := 2.0162) (by linarith [hv.T0]) (by norm_num; linarith) (by norm_num) (by norm_num)
        (by norm_num [eqQ, thQ])
      have := hv.sat hT
      norm_num at h4
      linarith
    have h5 := hv.sat hT
    have h6 := psat_mono' (by linarith [hv.T0]) hT (by norm_num)
    have h7 := psat_b23
    have h8 := b23_mono (by linarith) hT
    have h9 : 16.51 ≤ b23 623.1 := by norm_num [b23]
    have h10 := b23_mono (T := 623.1) (by norm_num) h3
    exact ⟨T, le_rfl, hv, h3, by linarith, by linarith, by linarith⟩
  · rcases le_or_gt p (b23 623.15) with hb | hb
    · have m1 : min T 623.16 ≤ 623.16 := min_le_right _ _
      have m2 : 623.15 < min T 623.16 := lt_min hT (by norm_num)
      have m3 := b23_mono (T := 623.15) (by norm_num) m2.le
      have m4 := b23_mono (T := min T 623.16) (by linarith) m1
      have m5 : min T 623.16 ≤ T := min_le_left _ _
      refine ⟨min T 623.16, m5, ⟨hv.p0, hv.p1, by linarith, by linarith, fun h => by linarith, fun _ => by linarith⟩, by linarith, by linarith,
        by linarith, by linarith⟩
    · have hc : ContinuousOn b23 (Set.Icc 623.15 T) := by unfold b23; fun_prop
      obtain ⟨x, ⟨x0, x1⟩, hx⟩ := intermediate_value_Icc hT.le hc ⟨hb.le, hv.border hT⟩
      have x2 : x ≠ 623.15 := by rintro rfl; linarith
      have x3 : 623.15 < x := lt_of_le_of_ne x0 (Ne.symm x2)
      have x4 : x < 863.2 := by
        by_contra hh
        rw [not_lt] at hh
        have := b23_mono (by norm_num) hh
        have h3 : 100 < b23 863.2 := by norm_num [b23]
        linarith [hv.p1]
      exact ⟨x, x1, ⟨hv.p0, hv.p1, by linarith, by linarith [hv.T1], fun h => by linarith, fun _ => hx.ge⟩, by linarith, x4, by linarith, by linarith⟩

/-- a vapour has more than 2000 kJ/kg and 4 kJ/(kg K) -/
theorem vapour_high (hv : Vapour p T) (h0 : 0.000611657 < p) : 2000 < gamma2.h p T ∧ 4 < gamma2.s p T := by
  rcases le_or_gt p 16.5291 with hp | hp
  · have hs := vapour_sat h0 hp
    have hT' : tsat p ≤ T := by
      rcases le_or_gt T 623.15 with hT | hT
      · exact tsat_le h0 (by linarith) (by linarith [hv.T0]) (hv.sat hT)
      · exact (tsat_lt h0 (by linarith) (by norm_num) (hp.trans_lt psat_62315)).le.trans hT.le
    refine ⟨?_, ?_⟩
    · have := log_gt_0006 h0
      have h3 := h2_le hs hv.T1 hT'
      have h4 := hV_fit h0 hp
      rcases le_or_gt p 5 with h5 | h5
      · linarith
      · have := Real.log_nonneg (show 1 ≤ p by linarith)
        linarith
    · linarith [s2_le hs hv.T1 hT', s2_sat h0 hp]
  · obtain ⟨x, x1, hx, x2, x3, x4, x5⟩ := edge hv hp
    exact ⟨(h2_of_eH2 hx (barsV_sound barsVH_chain barsVH_ok (by norm_num at x2 ⊢; linarith) (by norm_num at x3 ⊢; linarith) x4 x5)).trans_le (h2_le hx hv.T1 x1),
      (s2_of_eS2 hx (barsV_sound barsVS_chain barsVS_ok (by norm_num at x2 ⊢; linarith) (by norm_num at x3 ⊢; linarith) x4 x5)).trans_le (s2_le hx hv.T1 x1)⟩

/-! ## The ends of the isobars -/

theorem liquid_273 (h0 : 0.000611657 < p) (h1 : p ≤ 100) : Liquid p 273.15 :=
  ⟨h1, le_rfl, by norm_num, (psat_273.trans h0).le⟩

theorem liquid_623 (h0 : 16.5292 ≤ p) (h1 : p ≤ 100) : Liquid p 623.15 := by
  have : psat 623.15 ≤ b23 623.15 := psat_b23
  have h3 : b23 623.15 ≤ 16.5292 := by norm_num [b23]
  exact ⟨h1, by norm_num, by norm_num, by linarith⟩

theorem vapour_1073 (h0 : 0 < p) (h1 : p ≤ 100) : Vapour p 1073.15 :=
  ⟨h0, h1, by norm_num, le_rfl, fun h => absurd h (by norm_num), fun _ => by
    have : 100 ≤ b23 1073.15 := by norm_num [b23]
    linarith⟩

theorem h1_273_lt (h0 : 0.000611657 < p) (h1 : p ≤ 100) : gamma1.h p 273.15 < 0.963 * p + 2.2 :=
  h1_of_eG (liquid_273 h0 h1) (barsL_sound barsG_chain barsG_ok (liquid_273 h0 h1) (by norm_num) (by norm_num; linarith) (by norm_num; linarith))

theorem h2_1073_gt (h0 : 0 < p) (h1 : p < 16.5292) : 4000 < gamma2.h p 1073.15 :=
  h2_of_eTop (vapour_1073 h0 (by linarith)) (barsI_sound barsTop_chain barsTop_ok (by norm_num) (by norm_num; linarith) (by norm_num; linarith))

theorem h5_cold (h0 : 0 < p) (h1 : p ≤ 10) : 4160.7352 - 4.5256 * p - 0.0069876 * p ^ 2 < gamma5.h p 1073.2 := by
  simp only [Gamma.h, gamma5, dpoly, region5, region5Ideal, Term.d, List.map_cons, List.map_nil, List.sum_cons, List.sum_nil, R, ff]
  norm_num
  nlinarith [mul_nonneg h0.le (sub_nonneg.2 h1), pow_pos h0 3, mul_nonneg h0.le (mul_nonneg h0.le (sub_nonneg.2 h1))]

theorem s5_cold (h0 : 0 < p) (h1 : p ≤ 10) :
    18.4297295 - 0.00731155 * p - 0.00001395 * p ^ 2 < gamma5.s p 1073.2 / R + Real.log p := by
  rw [Gamma.s, mul_div_cancel_left₀ _ Gamma.R_pos.ne']
  simp only [gamma5, dpoly, region5, region5Ideal, Term.d, List.map_cons, List.map_nil, List.sum_cons, List.sum_nil, ff]
  norm_num
  nlinarith [mul_nonneg h0.le (sub_nonneg.2 h1), pow_pos h0 3, mul_nonneg h0.le (mul_nonneg h0.le (sub_nonneg.2 h1))]

theorem s5_hot (h0 : 0 < p) (h1 : p ≤ 100) : 20 < gamma5.s p 2273.15 / R + Real.log p := by
  rw [Gamma.s, mul_div_cancel_left₀ _ Gamma.R_pos.ne']
  simp only [gamma5, dpoly, region5, region5Ideal, Term.d, List.map_cons, List.map_nil, List.sum_cons, List.sum_nil, ff]
  norm_num
  nlinarith [mul_nonneg h0.le (sub_nonneg.2 h1), pow_pos h0 3, mul_nonneg h0.le (mul_nonneg h0.le (sub_nonneg.2 h1))]

/-- the hottest state of region 2 is below 1073.2 K in region 5 -/
theorem h25 (h0 : 0 < p) (h1 : p ≤ 10) : gamma2.h p 1073.15 < gamma5.h p 1073.2 :=
  (h2_of_eQh (vapour_1073 h0 (by linarith)) (barsI_sound barsQh_chain barsQh_ok (by norm_num) (by norm_num; linarith) (by norm_num; linarith))).trans
    (h5_cold h0 h1)

theorem s25 (h0 : 0 < p) (h1 : p ≤ 10) : gamma2.s p 1073.15 < gamma5.s p 1073.2 := by
  have := (s2_of_eQs (vapour_1073 h0 (by linarith)) (barsI_sound barsQs_chain barsQs_ok (by norm_num) (by norm_num; linarith)
    (by norm_num; linarith))).trans (s5_cold h0 h1)
  exact (div_lt_div_iff_of_pos_right Gamma.R_pos).1 (by linarith)

theorem s25_hot (h0 : 0 < p) (h1 : p ≤ 100) : gamma2.s p 1073.15 < gamma5.s p 2273.15 := by
  have := s2_of_eS19 (vapour_1073 h0 h1) (barsI_sound barsS19_chain barsS19_ok (by norm_num) (by norm_num; linarith) (by norm_num; linarith))
  have := s5_hot h0 h1
  exact (div_lt_div_iff_of_pos_right Gamma.R_pos).1 (by linarith)

/-- the border temperature of `B23T_p` -/
noncomputable def b23T (p : ℝ) : ℝ := 572.54459862746 + √((p - 13.91883977887) / 1.0192970039326e-03)

theorem b23T_sq (h0 : 16.5 ≤ p) : 1.0192970039326e-03 * (b23T p - 572.54459862746) ^ 2 = p - 13.91883977887 := by
  rw [b23T, add_sub_cancel_left, Real.sq_sqrt (div_nonneg (by linarith) (by norm_num))]
  field_simp

theorem b23T_range (h0 : 16.5292 ≤ p) (h1 : p ≤ 100) : 623.15 < b23T p ∧ b23T p < 864 := by
  have e := b23T_sq (p := p) (by linarith)
  have h3 : 572.54459862746 ≤ b23T p := by rw [b23T]; linarith [Real.sqrt_nonneg ((p - 13.91883977887) / 1.0192970039326e-03)]
  constructor <;> nlinarith

theorem b23_b23T (h0 : 16.5292 ≤ p) (h1 : p ≤ 100) : p < b23 (b23T p) ∧ b23 (b23T p) < p + 5e-11 := by
  have e := b23T_sq (p := p) (by linarith)
  obtain ⟨a, b⟩ := b23T_range h0 h1
  rw [b23_square, e]
  norm_num
  constructor <;> linarith

theorem vapour_b23T (h0 : 16.5292 ≤ p) (h1 : p ≤ 100) : Vapour p (b23T p) := by
  obtain ⟨a, b⟩ := b23T_range h0 h1
  exact ⟨by linarith, h1, by linarith, by linarith, fun h => by linarith, fun _ => (b23_b23T h0 h1).1.le⟩

theorem b23T_lt (h0 : 16.5292 ≤ p) (h1 : p ≤ 100) (hT : 600 ≤ T) (h : p + 1e-10 ≤ b23 T) : b23T p < T := by
  by_contra hc
  rw [not_lt] at hc
  have := b23_mono hT hc
  linarith [(b23_b23T h0 h1).2]

end PyX.Kron
