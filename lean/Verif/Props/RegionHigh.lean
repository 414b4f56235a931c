import Verif.Props.RegionPS
import Verif.Props.Wet3
import Verif.Lemmas.BarsHigh
import Verif.Spec.RegionHigh

/-!
# C69: `region_ph` and `region_ps` classify exactly at the pressures of region 3
-/

namespace PyX

open Classical Py Num _root_.Spec.Sat _root_.Spec.PT _root_.Spec.IF97 _root_.Spec.Sat3 Kron

variable {p T : ℝ}

/-! ## The borders of region 3 -/

theorem log_16 (h0 : 16.5292 ≤ p) : 2.8 ≤ Real.log p := by
  have h1 := Real.exp_one_lt_d9
  rw [Real.le_log_iff_exp_le (by linarith), show (2.8 : ℝ) = ((14 : ℕ) : ℝ) * (1 / 5) by norm_num]
  have h2 : Real.exp (((14 : ℕ) : ℝ) * (1 / 5)) ^ 5 ≤ 16.5292 ^ 5 := by
    rw [← Real.exp_nat_mul, show ((5 : ℕ) : ℝ) * (((14 : ℕ) : ℝ) * (1 / 5)) = ((14 : ℕ) : ℝ) * 1 by norm_num, Real.exp_nat_mul]
    calc Real.exp 1 ^ 14 ≤ 2.7182818286 ^ 14 := pow_le_pow_left₀ (Real.exp_pos 1).le h1.le 14
      _ ≤ _ := by norm_num
  exact (le_of_pow_le_pow_left₀ (by norm_num) (by norm_num) h2).trans h0

theorem h13_gt (h0 : 16.5292 ≤ p) (h1 : p ≤ 100) : 1500 < gamma1.h p 623.15 := by
  have l := liquid_623 h0 h1
  exact h1_of_eH1w l (barsL_sound barsLw_chain barsLw_ok l (by norm_num) (by norm_num; linarith) (by norm_num; linarith))

theorem s13_gt (h0 : 16.5292 ≤ p) (h1 : p ≤ 100) : 3.39 < gamma1.s p 623.15 := by
  have l := liquid_623 h0 h1
  have := s1_of_eS1w l (barsL_sound barsLw_chain barsLs_ok l (by norm_num) (by norm_num; linarith) (by norm_num; linarith))
  rw [lt_div_iff₀ Gamma.R_pos] at this
  norm_num [R] at this ⊢
  linarith

theorem s13_gt' (h0 : 16.5292 ≤ p) (h1 : p < 70) : 3.43 < gamma1.s p 623.15 := by
  have l := liquid_623 h0 (by linarith)
  have := s1_of_eS1w l (barsL_sound barsLo_chain barsLo_ok l (by norm_num) (by norm_num; linarith) (by norm_num; linarith))
  rw [lt_div_iff₀ Gamma.R_pos] at this
  norm_num [R] at this ⊢
  linarith

theorem s13_gt'' (h0 : 16.5292 ≤ p) (h1 : p < 22.7) : 3.6 < gamma1.s p 623.15 := by
  have l := liquid_623 h0 (by linarith)
  have := s1_of_eS1w l (barsL_sound barsLc_chain barsLc_ok l (by norm_num) (by norm_num; linarith) (by norm_num; linarith))
  rw [lt_div_iff₀ Gamma.R_pos] at this
  norm_num [R] at this ⊢
  linarith

theorem b23T_near (h0 : 16.5292 ≤ p) (h1 : p ≤ 100) :
    623.1 ≤ b23T p ∧ b23T p < 863.2 ∧ b23 (b23T p) - 0.03 ≤ p ∧ p ≤ b23 (b23T p) + 0.03 := by
  obtain ⟨a, b⟩ := b23_b23T h0 h1
  obtain ⟨c, d⟩ := b23T_range h0 h1
  refine ⟨by linarith, ?_, by linarith, by linarith⟩
  by_contra hh
  rw [not_lt] at hh
  have := b23_mono (by norm_num) hh
  have h3 : 100.0001 < b23 863.2 := by norm_num [b23]
  linarith

theorem h23_lt (h0 : 16.5292 ≤ p) (h1 : p ≤ 100) : gamma2.h p (b23T p) < 2880 := by
  obtain ⟨a, b, c, d⟩ := b23T_near h0 h1
  exact h2_of_eH2w (vapour_b23T h0 h1) (barsV_sound barsVH_chain barsVw_ok (by norm_num at a ⊢; linarith) (by norm_num at b ⊢; linarith) c d)

theorem s23_lt (h0 : 16.5292 ≤ p) (h1 : p ≤ 100) : gamma2.s p (b23T p) < 6.23 := by
  obtain ⟨a, b, c, d⟩ := b23T_near h0 h1
  have := s2_of_eS2w (vapour_b23T h0 h1) (barsV_sound barsVH_chain barsVs_ok (by norm_num at a ⊢; linarith) (by norm_num at b ⊢; linarith) c d)
  have l := log_16 h0
  have h2 : gamma2.s p (b23T p) / R < 13.2 := by norm_num at this ⊢; linarith
  rw [div_lt_iff₀ Gamma.R_pos] at h2
  norm_num [R] at h2 ⊢
  linarith

theorem s23_lt' (h0 : 16.5292 ≤ p) (h1 : p < 22.07) : gamma2.s p (b23T p) < 5.5 := by
  obtain ⟨a, -, c, d⟩ := b23T_near h0 (by linarith)
  have b : b23T p < 662.5 := by
    by_contra hh
    rw [not_lt] at hh
    have := b23_mono (by norm_num) hh
    have h3 : 22.11 < b23 662.5 := by norm_num [b23]
    linarith
  have := s2_of_eS2w (vapour_b23T h0 (by linarith)) (barsV_sound barsVc_chain barsVc_ok (by norm_num at a ⊢; linarith) (by norm_num at b ⊢; linarith) c d)
  have l := log_16 h0
  have h2 : gamma2.s p (b23T p) / R < 11.9 := by norm_num at this ⊢; linarith
  rw [div_lt_iff₀ Gamma.R_pos] at h2
  norm_num [R] at h2 ⊢
  linarith

/-! ## Pressure and enthalpy -/

private theorem e1 : FP.ideal.lit 0.000611657 = .fin 0.000611657 := by rw [lit_ideal]; norm_num
private theorem e2 : Num.ofInt 100 = .fin 100 := by rw [ofInt_eq]; norm_num
private theorem e3 : FP.ideal.lit 0.963 = .fin 0.963 := by rw [lit_ideal]; norm_num
private theorem e4 : FP.ideal.lit 2.2 = .fin 2.2 := by rw [lit_ideal]; norm_num
private theorem e5 : FP.ideal.lit 273.15 = .fin 273.15 := by rw [lit_ideal]; norm_num

theorem region_ph_high (h0 : 16.5292 ≤ p) (h1 : p ≤ 100) (h : ℝ) :
    (RegionSelection.region_ph .ideal (.fin p) (.fin h)).out = .ok (Spec.High.byH h (gamma1.h p 273.15) (gamma1.h p 623.15)
      (gamma2.h p (b23T p)) (gamma2.h p 1073.15) (if psH h < p then 3 else 4)) := by
  have hp : 0.000611657 < p := by linarith
  unfold Spec.High.byH
  rcases lt_or_ge h (gamma1.h p 273.15) with hh | hh
  · have q1 := h1_pT_eq (dom1_of_liquid (by linarith) (liquid_273 hp h1))
    have a1 := h1_273_lt hp h1
    unfold RegionSelection.region_ph
    simp only [e1, e2, e3, e4, e5, fin_lt, gt_num, mul_ideal, add_ideal, q1, pure_bind]
    rw [if_neg (by push Not; constructor <;> linarith), if_pos (by linarith), if_pos hh, if_pos hh, out_warn]
    rfl
  · rw [region_ph_gate hp h1 hh, region_ph_rest_high h0 h1, if_neg (not_lt.2 hh)]
    by_cases c1 : h < gamma1.h p 623.15
    · rw [if_pos c1, if_pos c1]; rfl
    rw [if_neg c1, if_neg c1]
    by_cases c2 : h < gamma2.h p (b23T p)
    · rw [if_pos c2, if_pos c2, p3sat_h_eq, pure_bind]
      simp only [fin_lt]
      split <;> rfl
    rw [if_neg c2, if_neg c2]
    by_cases c3 : h < gamma2.h p 1073.15
    · rw [if_pos c3, if_pos c3]; rfl
    · rw [if_neg c3, if_neg c3, out_warn]; rfl

/-- the borders on the isobar, which are in this order -/
theorem order_h (h0 : 16.5292 ≤ p) (h1 : p ≤ 100) : gamma1.h p 273.15 < gamma1.h p 623.15 ∧ gamma1.h p 623.15 < 2000 ∧
    2000 < gamma2.h p (b23T p) ∧ gamma2.h p (b23T p) < gamma2.h p 1073.15 := by
  have hp : 0.000611657 < p := by linarith
  have v := vapour_b23T h0 h1
  exact ⟨h1_lt (liquid_273 hp h1) (liquid_623 h0 h1) (by norm_num), (liquid_low (liquid_623 h0 h1) le_rfl hp).1, (vapour_high v hp).1,
    h2_lt v le_rfl (by linarith [(b23T_range h0 h1).2])⟩

/-- C69: from the critical pressure to 100 MPa `region_ph` is the comparison of the enthalpy with the enthalpies at 273.15 K, at
623.15 K, at the border between regions 2 and 3 and at 1073.15 K; between the second and the third it is region 3 -/
theorem C69_ph_super (p : ℝ) (h0 : 22.064 ≤ p) (h1 : p ≤ 100) :
    ∃ tb hF h13 h23 hT : ℝ, RegionBorders.B23T_p .ideal (.fin p) = pure (.fin tb) ∧
      Region1.h1_pT .ideal (.fin p) (.fin 273.15) = pure (.fin hF) ∧
      Region1.h1_pT .ideal (.fin p) (.fin 623.15) = pure (.fin h13) ∧
      Region2.h2_pT .ideal (.fin p) (.fin tb) = pure (.fin h23) ∧
      Region2.h2_pT .ideal (.fin p) (.fin 1073.15) = pure (.fin hT) ∧
      hF < h13 ∧ h13 < 2000 ∧ 2000 < h23 ∧ h23 < hT ∧
      ∀ h : ℝ, (RegionSelection.region_ph .ideal (.fin p) (.fin h)).out = .ok (Spec.High.byH h hF h13 h23 hT 3) := by
  have hp : 0.000611657 < p := by linarith
  have p0 : 16.5292 ≤ p := by linarith
  obtain ⟨o1, o2, o3, o4⟩ := order_h p0 h1
  refine ⟨b23T p, _, _, _, _, B23T_p_eq (by linarith), h1_pT_eq (dom1_of_liquid (by linarith) (liquid_273 hp h1)),
    h1_pT_eq (dom1_of_liquid (by linarith) (liquid_623 p0 h1)), h2_pT_eq (dom2_of_vapour (vapour_b23T p0 h1)),
    h2_pT_eq (dom2_of_vapour (vapour_1073 (by linarith) h1)), o1, o2, o3, o4, fun h => ?_⟩
  rw [region_ph_high p0 h1]
  unfold Spec.High.byH
  split_ifs with c1 c2 c3 c4 c5 <;> try rfl
  have := h13_gt p0 h1
  have := h23_lt p0 h1
  exact absurd ((psH_lt (by linarith) (by linarith)).trans_le h0) c4

/-- C69: from 16.5292 MPa to 22.06395 MPa there are exactly two enthalpies with the saturation pressure `p` according to
`p3sat_h`, and `region_ph` returns region 4 exactly between them, within the borders to the regions 1 and 2 -/
theorem C69_ph_sub (p : ℝ) (h0 : 16.5292 ≤ p) (h1 : p < 22.06395) :
    ∃ tb hF h13 h23 hT a b : ℝ, RegionBorders.B23T_p .ideal (.fin p) = pure (.fin tb) ∧
      Region1.h1_pT .ideal (.fin p) (.fin 273.15) = pure (.fin hF) ∧
      Region1.h1_pT .ideal (.fin p) (.fin 623.15) = pure (.fin h13) ∧
      Region2.h2_pT .ideal (.fin p) (.fin tb) = pure (.fin h23) ∧
      Region2.h2_pT .ideal (.fin p) (.fin 1073.15) = pure (.fin hT) ∧
      RegionBorders.p3sat_h .ideal (.fin a) = pure (.fin p) ∧ RegionBorders.p3sat_h .ideal (.fin b) = pure (.fin p) ∧
      (∀ x ∈ Set.Icc (1500 : ℝ) 2880, RegionBorders.p3sat_h .ideal (.fin x) = pure (.fin p) → x = a ∨ x = b) ∧
      hF < h13 ∧ h13 < 2000 ∧ 2000 < h23 ∧ h23 < hT ∧ 1670 < a ∧ a < 2087 ∧ 2087 < b ∧ b < 2569 ∧
      ∀ h : ℝ, (RegionSelection.region_ph .ideal (.fin p) (.fin h)).out =
        .ok (Spec.High.byH h hF h13 h23 hT (Spec.High.middle h a b)) := by
  have hp : 0.000611657 < p := by linarith
  have p1 : p ≤ 100 := by linarith
  obtain ⟨o1, o2, o3, o4⟩ := order_h h0 p1
  obtain ⟨a, ha, ea⟩ := liquid_root (by linarith : 16.529 ≤ p) h1
  obtain ⟨b, hb, eb⟩ := vapour_root (by linarith : 16.529 ≤ p) h1
  have ha' : a ∈ Set.Icc (1500 : ℝ) 2087 := ⟨by linarith [ha.1], by linarith [ha.2]⟩
  have hb' : b ∈ Set.Icc (2087.5 : ℝ) 2880 := ⟨by linarith [hb.1], by linarith [hb.2]⟩
  have key : ∀ x ∈ Set.Icc (1500 : ℝ) 2880, psH x < p ↔ x < a ∨ b < x := by
    intro x hx
    rcases lt_or_ge x 2087.2 with h2 | h2
    · rw [← ea, psH_lt_iff_liquid ha' (by linarith) hx.1 (by linarith)]
      constructor
      · exact .inl
      · rintro (h | h)
        · exact h
        · linarith [hb'.1]
    · rw [← eb, psH_lt_iff_vapour hb' (by linarith) (by linarith) hx.2]
      constructor
      · exact .inr
      · rintro (h | h)
        · linarith [ha'.2]
        · exact h
  refine ⟨b23T p, _, _, _, _, a, b, B23T_p_eq (by linarith), h1_pT_eq (dom1_of_liquid (by linarith) (liquid_273 hp p1)),
    h1_pT_eq (dom1_of_liquid (by linarith) (liquid_623 h0 p1)), h2_pT_eq (dom2_of_vapour (vapour_b23T h0 p1)),
    h2_pT_eq (dom2_of_vapour (vapour_1073 (by linarith) p1)), by rw [p3sat_h_eq, ea], by rw [p3sat_h_eq, eb], fun x hx e => ?_, o1, o2, o3, o4,
    by linarith [ha.1], by linarith [ha.2], by linarith [hb.1], by linarith [hb.2], fun h => ?_⟩
  · rw [p3sat_h_eq] at e
    have e' : psH x = p := by injection e with _ e; injection e with e; injection e
    rcases lt_or_ge x 2087 with h2 | h2
    · exact .inl (psH_strictMono.injOn ⟨hx.1, h2.le⟩ ha' (e'.trans ea.symm))
    · rcases le_or_gt 2087.5 x with h3 | h3
      · exact .inr (psH_strictAnti.injOn ⟨h3, hx.2⟩ hb' (e'.trans eb.symm))
      · linarith [psH_mid h2 h3]
  · rw [region_ph_high h0 p1]
    have a1 := h13_gt h0 p1
    have a2 := h23_lt h0 p1
    unfold Spec.High.byH Spec.High.middle
    split_ifs with c1 c2 c3 c4 c5 c6 <;> try rfl
    · rcases (key h ⟨by linarith, by linarith⟩).1 c4 with h | h
      · linarith [c5.1]
      · linarith [c5.2]
    · refine absurd ?_ c4
      rw [key h ⟨by linarith, by linarith⟩]
      by_contra hc
      push Not at hc
      exact c6 ⟨hc.1, hc.2⟩

/-! ## Pressure and entropy -/

private theorem f3 : Num.ofInt 0 = .fin 0 := by rw [ofInt_eq]; norm_num
private theorem f4 : FP.ideal.lit 2273.15 = .fin 2273.15 := by rw [lit_ideal]; norm_num
private theorem f15 : Num.ofInt 10 = .fin 10 := by rw [ofInt_eq]; norm_num
private theorem f16 : FP.ideal.lit 1073.15 = .fin 1073.15 := by rw [lit_ideal]; norm_num

theorem region_ps_high' (h0 : 16.5292 ≤ p) (h1 : p ≤ 100) (s : ℝ) :
    (RegionSelection.region_ps .ideal (.fin p) (.fin s)).out = .ok (Spec.High.byS s (gamma1.s p 623.15)
      (gamma2.s p (b23T p)) (gamma2.s p 1073.15) (if psS s < p then 3 else 4)) := by
  have hp : 0 < p := by linarith
  unfold Spec.High.byS
  by_cases c : 0 ≤ s ∧ s ≤ gamma2.s p 1073.15
  · have hn : ¬ (s < 0 ∨ gamma2.s p 1073.15 < s) := by
      push Not
      exact c
    rw [region_ps_high h0 h1 c.1 c.2, if_neg hn, p3sat_s_eq, pure_bind]
    simp only [fin_lt]
    split_ifs <;> rfl
  · have q5 := s2_pT_eq (dom2_of_vapour (vapour_1073 hp h1))
    have q6 := s5_pT_eq (p := p) (T := 2273.15) ⟨hp, by norm_num⟩
    rw [not_and_or, not_le, not_le] at c
    rw [if_pos c]
    unfold RegionSelection.region_ps
    simp only [e1, e2, f3, f4, f15, f16, fin_lt, fin_le, gt_num, q5, q6, pure_bind,
      if_neg (show ¬ p < 0.000611657 by linarith), if_neg (show ¬ 100 < p by linarith), if_neg (show ¬ p ≤ 10 by linarith)]
    by_cases c1 : s < 0
    · simp [c1]
      rfl
    by_cases c2 : gamma5.s p 2273.15 < s
    · simp [c1, c2]
      rfl
    have c3 : gamma2.s p 1073.15 < s := c.resolve_left c1
    simp [c1, c2, c3]
    rfl

/-- the borders on the isobar, which are in this order -/
theorem order_s (h0 : 16.5292 ≤ p) (h1 : p ≤ 100) : gamma1.s p 623.15 < 4 ∧ 4 < gamma2.s p (b23T p) ∧ gamma2.s p (b23T p) < gamma2.s p 1073.15 := by
  have hp : 0.000611657 < p := by linarith
  have v := vapour_b23T h0 h1
  exact ⟨(liquid_low (liquid_623 h0 h1) le_rfl hp).2, (vapour_high v hp).2, s2_lt v le_rfl (by linarith [(b23T_range h0 h1).2])⟩

/-- C69: from the critical pressure to 100 MPa `region_ps` is the comparison of the entropy with 0 and with the entropies at
623.15 K, at the border between regions 2 and 3 and at 1073.15 K; between the first two of these it is region 3 -/
theorem C69_ps_super (p : ℝ) (h0 : 22.064 ≤ p) (h1 : p ≤ 100) :
    ∃ tb s13 s23 sT : ℝ, RegionBorders.B23T_p .ideal (.fin p) = pure (.fin tb) ∧
      Region1.s1_pT .ideal (.fin p) (.fin 623.15) = pure (.fin s13) ∧
      Region2.s2_pT .ideal (.fin p) (.fin tb) = pure (.fin s23) ∧
      Region2.s2_pT .ideal (.fin p) (.fin 1073.15) = pure (.fin sT) ∧
      3.39 < s13 ∧ s13 < 4 ∧ 4 < s23 ∧ s23 < sT ∧
      ∀ s : ℝ, (RegionSelection.region_ps .ideal (.fin p) (.fin s)).out = .ok (Spec.High.byS s s13 s23 sT 3) := by
  have p0 : 16.5292 ≤ p := by linarith
  obtain ⟨o2, o3, o4⟩ := order_s p0 h1
  refine ⟨b23T p, _, _, _, B23T_p_eq (by linarith), s1_pT_eq (dom1_of_liquid (by linarith) (liquid_623 p0 h1)),
    s2_pT_eq (dom2_of_vapour (vapour_b23T p0 h1)), s2_pT_eq (dom2_of_vapour (vapour_1073 (by linarith) h1)), s13_gt p0 h1, o2, o3, o4, fun s => ?_⟩
  rw [region_ps_high' p0 h1]
  unfold Spec.High.byS
  split_ifs with c1 c2 c3 c4 <;> try rfl
  refine absurd ?_ c4
  rw [not_lt] at c2
  have a2 := s23_lt p0 h1
  rcases lt_or_ge s 3.432 with h | h
  · have hp : 70 ≤ p := by
      by_contra hc
      rw [not_le] at hc
      have a := s13_gt'' p0
      rcases lt_or_ge p 22.7 with h2 | h2
      · linarith [s13_gt'' p0 h2]
      · have := s13_gt' p0 hc
        exact c4 ((psS_lt (by linarith) (by linarith)).trans_le h0)
    exact (psS_lt' (by linarith [s13_gt p0 h1]) h).trans_le (by linarith)
  · exact (psS_lt (by linarith) (by linarith)).trans_le h0

theorem psS_num : psS 3.6 < 16.5 ∧ psS 5.5 < 16.5 := by
  have e : ∀ h : ℝ, psS h = psS h * Univ.sDen / Univ.sDen := fun h => by
    rw [mul_div_cancel_right₀]
    norm_num [Univ.sDen]
  refine ⟨?_, ?_⟩ <;> rw [e, psS_eq] <;> norm_num [Univ.sTs, Univ.psum, Univ.sDen]

/-- C69: from 16.5292 MPa to 22.063 MPa there are exactly two entropies with the saturation pressure `p` according to
`p3sat_s`, and `region_ps` returns region 4 exactly between them, within the borders to the regions 1 and 2 -/
theorem C69_ps_sub (p : ℝ) (h0 : 16.5292 ≤ p) (h1 : p < 22.063) :
    ∃ tb s13 s23 sT a b : ℝ, RegionBorders.B23T_p .ideal (.fin p) = pure (.fin tb) ∧
      Region1.s1_pT .ideal (.fin p) (.fin 623.15) = pure (.fin s13) ∧
      Region2.s2_pT .ideal (.fin p) (.fin tb) = pure (.fin s23) ∧
      Region2.s2_pT .ideal (.fin p) (.fin 1073.15) = pure (.fin sT) ∧
      RegionBorders.p3sat_s .ideal (.fin a) = pure (.fin p) ∧ RegionBorders.p3sat_s .ideal (.fin b) = pure (.fin p) ∧
      (∀ x ∈ Set.Icc (3.6 : ℝ) 5.5, RegionBorders.p3sat_s .ideal (.fin x) = pure (.fin p) → x = a ∨ x = b) ∧
      3.6 < s13 ∧ s13 < 4 ∧ 4 < s23 ∧ s23 < sT ∧ 3.6 ≤ a ∧ a ≤ 4.412 ∧ 4.413 ≤ b ∧ b ≤ 5.5 ∧
      ∀ s : ℝ, (RegionSelection.region_ps .ideal (.fin p) (.fin s)).out = .ok (Spec.High.byS s s13 s23 sT (Spec.High.middle s a b)) := by
  have p1 : p ≤ 100 := by linarith
  obtain ⟨o2, o3, o4⟩ := order_s h0 p1
  obtain ⟨n1, n2⟩ := psS_num
  have m1 := psS_mid (s := 4.412) le_rfl (by norm_num)
  have m2 := psS_mid (s := 4.413) (by norm_num) le_rfl
  obtain ⟨a, ha, ea⟩ := intermediate_value_Icc (show (3.6 : ℝ) ≤ 4.412 by norm_num) psS_cont.continuousOn
    (show p ∈ Set.Icc _ _ from ⟨by linarith, by linarith⟩)
  obtain ⟨b, hb, eb⟩ := intermediate_value_Icc' (show (4.413 : ℝ) ≤ 5.5 by norm_num) psS_cont.continuousOn
    (show p ∈ Set.Icc _ _ from ⟨by linarith, by linarith⟩)
  have key : ∀ x ∈ Set.Icc (3.6 : ℝ) 5.5, psS x < p ↔ x < a ∨ b < x := by
    intro x hx
    rcases le_or_gt x 4.412 with h2 | h2
    · rw [← ea, psS_strictMono.lt_iff_lt ⟨hx.1, h2⟩ ha]
      constructor
      · exact .inl
      · rintro (h | h)
        · exact h
        · linarith [hb.1]
    · rcases le_or_gt 4.413 x with h3 | h3
      · rw [← eb, psS_strictAnti.lt_iff_gt ⟨h3, hx.2⟩ hb]
        constructor
        · exact .inr
        · rintro (h | h)
          · linarith [ha.2]
          · exact h
      · have := psS_mid h2.le h3.le
        constructor
        · intro; linarith
        · rintro (h | h)
          · linarith [ha.2]
          · linarith [hb.1]
  refine ⟨b23T p, _, _, _, a, b, B23T_p_eq (by linarith), s1_pT_eq (dom1_of_liquid (by linarith) (liquid_623 h0 p1)),
    s2_pT_eq (dom2_of_vapour (vapour_b23T h0 p1)), s2_pT_eq (dom2_of_vapour (vapour_1073 (by linarith) p1)),
    by rw [p3sat_s_eq, ea], by rw [p3sat_s_eq, eb], fun x hx e => ?_, s13_gt'' h0 (by linarith), o2, o3, o4,
    ha.1, ha.2, hb.1, hb.2, fun s => ?_⟩
  · rw [p3sat_s_eq] at e
    have e' : psS x = p := by injection e with _ e; injection e with e; injection e
    rcases le_or_gt x 4.412 with h2 | h2
    · exact .inl (psS_strictMono.injOn ⟨hx.1, h2⟩ ha (e'.trans ea.symm))
    · rcases le_or_gt 4.413 x with h3 | h3
      · exact .inr (psS_strictAnti.injOn ⟨h3, hx.2⟩ hb (e'.trans eb.symm))
      · linarith [psS_mid h2.le h3.le]
  · rw [region_ps_high' h0 p1]
    have a1 := s13_gt'' h0 (by linarith)
    have a2 := s23_lt' h0 (by linarith)
    unfold Spec.High.byS Spec.High.middle
    split_ifs with c1 c2 c3 c4 c5 c6 <;> try rfl
    · rcases (key s ⟨by linarith, by linarith⟩).1 c4 with h | h
      · linarith [c5.1]
      · linarith [c5.2]
    · refine absurd ?_ c4
      rw [key s ⟨by linarith, by linarith⟩]
      by_contra hc
      push Not at hc
      exact c6 ⟨hc.1, hc.2⟩

/-! ## Concrete cases -/

/-- 2000 kJ/kg is region 3 at 30 MPa and wet steam at 17 MPa -/
example : (RegionSelection.region_ph .ideal (.fin 30) (.fin 2000)).out = .ok 3 ∧
    (RegionSelection.region_ph .ideal (.fin 17) (.fin 2000)).out = .ok 4 := by
  obtain ⟨tb, hF, h13, h23, hT, -, -, -, -, -, o1, o2, o3, o4, H⟩ := C69_ph_super 30 (by norm_num) (by norm_num)
  obtain ⟨tb', hF', h13', h23', hT', a, b, -, -, -, -, -, ea, -, -, o1', o2', o3', o4', a0, a1, b0, b1, H'⟩ := C69_ph_sub 17 (by norm_num) (by norm_num)
  refine ⟨?_, ?_⟩
  · rw [H, Spec.High.byH, if_neg (by linarith), if_neg (by linarith), if_pos (by linarith)]
  · have e : psH 2000 = psH 2000 * Univ.hDen / Univ.hDen := by
      rw [mul_div_cancel_right₀]
      norm_num [Univ.hDen]
    have h : 17 < psH 2000 := by
      rw [e, psH_eq]
      norm_num [Univ.hTs, Univ.psum, Univ.hDen]
    rw [p3sat_h_eq] at ea
    have ea' : psH a = 17 := by injection ea with _ e; injection e with e; injection e
    rw [← ea', psH_strictMono.lt_iff_lt ⟨by linarith, by linarith⟩ ⟨by norm_num, by norm_num⟩] at h
    rw [H', Spec.High.byH, if_neg (by linarith), if_neg (by linarith), if_pos (by linarith), Spec.High.middle, if_pos ⟨by linarith, by linarith⟩]

/-- 4 kJ/(kg K) is region 3 at 30 MPa and wet steam at 17 MPa -/
example : (RegionSelection.region_ps .ideal (.fin 30) (.fin 4)).out = .ok 3 ∧
    (RegionSelection.region_ps .ideal (.fin 17) (.fin 4)).out = .ok 4 := by
  obtain ⟨tb, s13, s23, sT, -, -, -, -, o0, o1, o2, o3, H⟩ := C69_ps_super 30 (by norm_num) (by norm_num)
  obtain ⟨tb', s13', s23', sT', a, b, -, -, -, -, ea, -, -, o0', o1', o2', o3', a0, a1, b0, b1, H'⟩ := C69_ps_sub 17 (by norm_num) (by norm_num)
  refine ⟨?_, ?_⟩
  · rw [H, Spec.High.byS, if_neg (by rintro (h | h) <;> linarith), if_neg (by linarith), if_pos (by linarith)]
  · have e : psS 4 = psS 4 * Univ.sDen / Univ.sDen := by
      rw [mul_div_cancel_right₀]
      norm_num [Univ.sDen]
    have h : 17 < psS 4 := by
      rw [e, psS_eq]
      norm_num [Univ.sTs, Univ.psum, Univ.sDen]
    rw [p3sat_s_eq] at ea
    have ea' : psS a = 17 := by injection ea with _ e; injection e with e; injection e
    rw [← ea', psS_strictMono.lt_iff_lt ⟨by linarith, by linarith⟩ ⟨by norm_num, by norm_num⟩] at h
    rw [H', Spec.High.byS, if_neg (by rintro (h | h) <;> linarith), if_neg (by linarith), if_pos (by linarith), Spec.High.middle,
      if_pos ⟨by linarith, by linarith⟩]

end PyX
