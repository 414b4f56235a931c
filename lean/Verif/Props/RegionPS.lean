import Verif.Props.RegionPH

/-!
# C54: `region_ps` classifies by the entropies at the boundaries, and agrees with `region_pT`
-/

namespace PyX

open Classical Py Num Spec.Sat Spec.PT Spec.IF97 Kron

variable {p T : ℝ}

private theorem e1 : FP.ideal.lit 0.000611657 = .fin 0.000611657 := by rw [lit_ideal]; norm_num
private theorem e2 : Num.ofInt 100 = .fin 100 := by rw [ofInt_eq]; norm_num
private theorem e3 : Num.ofInt 0 = .fin 0 := by rw [ofInt_eq]; norm_num
private theorem e4 : FP.ideal.lit 2273.15 = .fin 2273.15 := by rw [lit_ideal]; norm_num
private theorem e5 : FP.ideal.lit 273.15 = .fin 273.15 := by rw [lit_ideal]; norm_num
private theorem e6 : FP.ideal.lit 16.529 = .fin 16.529 := by rw [lit_ideal]; norm_num
private theorem e15 : Num.ofInt 10 = .fin 10 := by rw [ofInt_eq]; norm_num
private theorem e16 : FP.ideal.lit 1073.15 = .fin 1073.15 := by rw [lit_ideal]; norm_num
private theorem e18 : FP.ideal.lit 623.15 = .fin 623.15 := by rw [lit_ideal]; norm_num

theorem dom1_623 (h0 : 0 < p) (h1 : p ≤ 100) : Dom1 p 623.15 := by
  refine ⟨h0.ne', by norm_num, ?_, by norm_num⟩
  have : p / 16.53 ≤ 100 / 16.53 := div_le_div_of_nonneg_right h1 (by norm_num)
  norm_num at this ⊢
  intro h'; linarith

theorem region_ps_low (h0 : 0.000611657 < p) (h1 : p < 16.529) (s : ℝ) :
    (RegionSelection.region_ps .ideal (.fin p) (.fin s)).out = .ok (Spec.PS.region p s
      (gamma1.s p (tsat p)) (gamma2.s p (tsat p)) (gamma2.s p 1073.15) (gamma5.s p 2273.15)) := by
  have hp : 0 < p := by linarith
  have q1 := s1_pT_eq (dom1_of_liquid hp (liquid_273 h0 (by linarith)))
  have q2 := T4_p_eq h0 (by linarith)
  have q3 := s1_pT_eq (dom1_of_liquid hp (liquid_sat h0 (by linarith)))
  have q4 := s2_pT_eq (dom2_of_vapour (vapour_sat h0 (by linarith)))
  have q5 := s2_pT_eq (dom2_of_vapour (vapour_1073 hp (by linarith)))
  have q6 := s5_pT_eq (p := p) (T := 2273.15) ⟨hp, by norm_num⟩
  have q7 := s1_pT_eq (dom1_623 hp (by linarith))
  unfold RegionSelection.region_ps
  simp only [e1, e2, e3, e4, e5, e6, e15, e16, e18, fin_lt, fin_le, gt_num, q1, q2, q3, q4, q5, q6, q7, pure_bind,
    if_neg (show ¬ p < 0.000611657 by linarith), if_neg (show ¬ 100 < p by linarith), if_neg (show ¬ 16.529 < p by linarith), if_pos h1, if_pos h0]
  unfold Spec.PS.region
  by_cases c1 : s < 0
  · simp [c1]
    rfl
  by_cases c2 : gamma5.s p 2273.15 < s
  · simp [c1, c2]
    rfl
  by_cases c3 : gamma2.s p 1073.15 < s
  · by_cases c4 : p ≤ 10
    · simp [c1, c2, c3, c4, out_pure]
    · simp [c1, c2, c3, c4]
      rfl
  by_cases c4 : gamma2.s p (tsat p) < s
  · simp [c1, c2, c3, c4, out_pure]
  by_cases c5 : gamma1.s p (tsat p) < s
  · simp [c1, c2, c3, c4, c5, out_pure, h1.not_gt]
  · simp [c1, c2, c3, c4, c5, out_pure, h1.not_gt]

/-- C54: below region 3 `region_ps` is the comparison of the entropy with 0 and with the exact entropies at saturation,
at 1073.15 K and at 2273.15 K, which are in this order -/
theorem C54_exact (p : ℝ) (h0 : 0.000611657 < p) (h1 : p < 16.529) :
    ∃ ts sL sV s2 s5 : ℝ, Region4.T4_p .ideal (.fin p) = pure (.fin ts) ∧
      Region1.s1_pT .ideal (.fin p) (.fin ts) = pure (.fin sL) ∧
      Region2.s2_pT .ideal (.fin p) (.fin ts) = pure (.fin sV) ∧
      Region2.s2_pT .ideal (.fin p) (.fin 1073.15) = pure (.fin s2) ∧
      Region5.s5_pT .ideal (.fin p) (.fin 2273.15) = pure (.fin s5) ∧
      sL < 4 ∧ 4 < sV ∧ sV < s2 ∧ s2 < s5 ∧
      ∀ s : ℝ, (RegionSelection.region_ps .ideal (.fin p) (.fin s)).out = .ok (Spec.PS.region p s sL sV s2 s5) := by
  have hp : 0 < p := by linarith
  have l1 := liquid_sat h0 (by linarith)
  have v0 := vapour_sat h0 (by linarith)
  have v1 := vapour_1073 hp (by linarith)
  have ts1 : tsat p < 623.15 := tsat_lt h0 (by linarith) (by norm_num) (by linarith [psat_62315])
  exact ⟨tsat p, _, _, _, _, T4_p_eq h0 (by linarith), s1_pT_eq (dom1_of_liquid hp l1),
    s2_pT_eq (dom2_of_vapour v0), s2_pT_eq (dom2_of_vapour v1), s5_pT_eq ⟨hp, by norm_num⟩, (liquid_low l1 ts1.le h0).2,
    (vapour_high v0 h0).2, s2_lt v0 v1.T1 (by linarith), s25_hot hp (by linarith), region_ps_low h0 h1⟩

/-- 1 MPa meets the hypotheses -/
example : ∃ sL sV s2 s5 : ℝ, sL < sV ∧ sV < s2 ∧ s2 < s5 ∧
    ∀ s : ℝ, (RegionSelection.region_ps .ideal (.fin 1) (.fin s)).out = .ok (Spec.PS.region 1 s sL sV s2 s5) := by
  obtain ⟨_, b, c, d, e, -, -, -, -, -, h2, h3, h4, h5, h6⟩ := C54_exact 1 (by norm_num) (by norm_num)
  exact ⟨b, c, d, e, h2.trans h3, h4, h5, h6⟩

theorem region_ps_high (h0 : 16.5292 ≤ p) (h1 : p ≤ 100) {s : ℝ} (c1 : 0 ≤ s) (c2 : s ≤ gamma2.s p 1073.15) :
    (RegionSelection.region_ps .ideal (.fin p) (.fin s)).out = if gamma2.s p (b23T p) < s then .ok 2 else if gamma1.s p 623.15 < s then
      (RegionBorders.p3sat_s .ideal (.fin s) >>= fun q => if q < .fin p then pure 3 else pure 4 : Py ℤ).out else .ok 1 := by
  have hp : 0 < p := by linarith
  have q1 := s1_pT_eq (dom1_of_liquid hp (liquid_273 (by linarith) h1))
  have q4 := s2_pT_eq (dom2_of_vapour (vapour_b23T h0 h1))
  have q5 := s2_pT_eq (dom2_of_vapour (vapour_1073 hp (by linarith)))
  have q6 := s5_pT_eq (p := p) (T := 2273.15) ⟨hp, by norm_num⟩
  have q7 := s1_pT_eq (dom1_623 hp (by linarith))
  have b : RegionBorders.B23T_p .ideal (.fin p) = pure (.fin (b23T p)) := B23T_p_eq (by linarith)
  have c3 := s25_hot hp h1
  unfold RegionSelection.region_ps
  simp only [e1, e2, e3, e4, e5, e6, e15, e16, e18, fin_lt, fin_le, gt_num, q1, q4, q5, q6, q7, b, pure_bind,
    if_neg (show ¬ p < 0.000611657 by linarith), if_neg (show ¬ 100 < p by linarith),
    if_neg (show ¬ p < 16.529 by linarith), if_neg (show ¬ s < 0 by linarith), if_neg (show ¬ gamma2.s p 1073.15 < s by linarith),
    if_pos (show 0.000611657 < p by linarith), decide_eq_true_eq, if_neg (show ¬ gamma5.s p 2273.15 < s by linarith),
    show 16.529 < p by linarith, true_and]
  by_cases c4 : gamma2.s p (b23T p) < s
  · simp [c4, out_pure]
  by_cases c5 : gamma1.s p 623.15 < s
  · simp [c4, c5]
  · simp [c4, c5, out_pure]

/-! ## Agreement with (p, T) -/

theorem region_ps_liquid (hv : Liquid p T) (h0 : 0.000611657 < p) (hT : T ≤ 623.15) (hc : p < 16.529 ∨ 16.5292 ≤ p) (hs : 0 ≤ gamma1.s p T) :
    (RegionSelection.region_ps .ideal (.fin p) (.fin (gamma1.s p T))).out = .ok 1 := by
  have hp : 0 < p := by linarith
  have hl := (liquid_low hv hT h0).2
  rcases hc with hc | hc
  · have v := vapour_sat h0 (by linarith : p ≤ 16.5291)
    have o1 := (vapour_high v h0).2
    have o2 := (vapour_high (vapour_1073 hp hv.p1) h0).2
    have o3 := s25_hot hp hv.p1
    rw [region_ps_low h0 hc, Spec.PS.region, if_neg (by rintro (h | h) <;> linarith), if_neg (by linarith), if_neg (by linarith),
      if_neg (not_lt.2 (s1_le hv (liquid_sat h0 (by linarith)) (tsat_ge h0 (by linarith) hv.sat (by linarith))))]
  · have o1 := (vapour_high (vapour_b23T hc hv.p1) h0).2
    have o2 := (vapour_high (vapour_1073 hp hv.p1) h0).2
    rw [region_ps_high hc hv.p1 hs (by linarith), if_neg (by linarith), if_neg (not_lt.2 (s1_le hv (liquid_623 hc hv.p1) hT))]

theorem region_ps_vapour (hv : Vapour p T) (h0 : 0.000611657 < p) (hc : p < 16.529 ∧ tsat p < T ∨ 16.5292 ≤ p ∧ 600 ≤ T ∧ p + 1e-10 ≤ b23 T) :
    (RegionSelection.region_ps .ideal (.fin p) (.fin (gamma2.s p T))).out = .ok 2 := by
  have hh := (vapour_high hv h0).2
  have o3 := s25_hot hv.p0 hv.p1
  have o4 := s2_le hv le_rfl hv.T1
  rcases hc with ⟨hc, hT⟩ | ⟨c1, c2, c3⟩
  · rw [region_ps_low h0 hc, Spec.PS.region, if_neg (by rintro (h | h) <;> linarith), if_neg (by linarith),
      if_pos (s2_lt (vapour_sat h0 (by linarith)) hv.T1 hT)]
  · rw [region_ps_high c1 hv.p1 (by linarith) o4, if_pos (s2_lt (vapour_b23T c1 hv.p1) hv.T1 (b23T_lt c1 hv.p1 c2 c3))]

theorem region_ps_hot (h0 : 0.000611657 < p) (h1 : p ≤ 10) (h2 : 1073.2 ≤ T) (h3 : T < 2273.15) :
    (RegionSelection.region_ps .ideal (.fin p) (.fin (gamma5.s p T))).out = .ok 5 := by
  have hp : 0 < p := by linarith
  have a : gamma5.s p 1073.2 ≤ gamma5.s p T := by
    rcases h2.eq_or_lt with rfl | h
    · exact le_rfl
    · exact (s5_lt hp (by linarith) (by norm_num) h3.le h).le
  have b := s25 hp h1
  have c := s5_lt hp (by linarith) (by linarith) le_rfl h3
  have d := (vapour_high (vapour_1073 hp (by linarith)) h0).2
  rw [region_ps_low h0 (by linarith), Spec.PS.region, if_neg (by rintro (h | h) <;> linarith), if_pos (by linarith), if_pos h1]

theorem region_ps_agree {k : ℤ} (hr : InRegion k p T) (hc : Spec.PS.Clear b23 k p T ((gammaOf k).s p T)) :
    (RegionSelection.region_ps .ideal (.fin p) (.fin ((gammaOf k).s p T))).out = .ok k := by
  obtain ⟨h0, hg, ⟨rfl, hc⟩ | ⟨rfl, hc⟩ | ⟨rfl, hc⟩⟩ := hc
  · have hT : T ≤ 623.15 := by
      rcases hr with ⟨h, _⟩ | ⟨h, _⟩ | ⟨_, h⟩ | ⟨h, _⟩ | ⟨h, _⟩ | ⟨h, _⟩ | ⟨h, _⟩ | ⟨h, _⟩
      iterate 2 exact absurd h (by norm_num)
      · exact h.2.1
      all_goals exact absurd h (by norm_num)
    exact region_ps_liquid (liquid_of_region1 hr) h0 hT hg hc
  · have v := vapour_of_region2 hr
    refine region_ps_vapour v h0 ?_
    rcases hg with hg | hg
    · refine .inl ⟨hg, ?_⟩
      rcases le_or_gt T 623.15 with hT | hT
      · refine tsat_lt h0 (by linarith) (by linarith [v.T0]) ?_
        rcases hr with ⟨h, _⟩ | ⟨h, _⟩ | ⟨h, _⟩ | ⟨_, h⟩ | ⟨_, h⟩ | ⟨h, _⟩ | ⟨h, _⟩ | ⟨h, _⟩
        iterate 3 exact absurd h (by norm_num)
        · obtain ⟨hb, _, _, ps, hs, hp⟩ := h
          obtain ⟨t0, t1, t2⟩ := theta_box hb.1 (by linarith)
          rw [← sat_unique t1 (by linarith) hs]
          exact hp
        · linarith [h.2.1]
        all_goals exact absurd h (by norm_num)
      · exact (tsat_lt h0 (by linarith) (by norm_num) (by linarith [psat_62315])).trans hT
    · have c3 : p + 1e-10 ≤ b23 T := by
        rcases hc with h | h
        · linarith
        · exact h
      refine .inr ⟨hg, ?_, c3⟩
      by_contra hT
      rw [not_le] at hT
      have := psat_mono' (by linarith [v.T0]) (by linarith : T ≤ 623.15) (by norm_num)
      have h3 : b23 623.15 < 16.5292 := by norm_num [b23]
      linarith [v.sat (by linarith), psat_b23]
  · have h := hot_of_region5 hr
    exact region_ps_hot h0 hc.1 hc.2 h.2.1

/-- C54: in every unit system, at the entropy of a state of region 1, 2 or 5 given by pressure and temperature the
classification by pressure and entropy returns the same region -/
theorem C54_agrees (u : UnitSystem) (p t s : ℝ) (k : ℤ)
    (hr : (RegionSelection.region_pT .ideal (.fin (Quantity.p.si u p)) (.fin (Quantity.T.si u t))).out = .ok k)
    (hs : (XSteam.s_pt .ideal u (.fin p) (.fin t)).out = .ok (.fin s))
    (hc : Spec.PS.Clear b23 k (Quantity.p.si u p) (Quantity.T.si u t) (Quantity.s.si u s)) :
    (RegionSelection.region_ps .ideal (.fin (Quantity.p.si u p)) (.fin (Quantity.s.si u s))).out = .ok k := by
  have hr := (C07_iff _ _ _).1 hr
  have hk : k = 1 ∨ k = 2 ∨ k = 5 := by
    rcases hc.2.2 with ⟨h, _⟩ | ⟨h, _⟩ | ⟨h, _⟩ <;> simp [h]
  rw [(kernels_of_region hk hr).2.2.1] at hs
  cases hs
  rw [Quantity.si_user] at hc ⊢
  exact region_ps_agree hr hc

theorem s1_50_400 : 0 ≤ gamma1.s 50 400 := by
  rw [Gamma.s]
  refine mul_nonneg Gamma.R_pos.le ?_
  simp only [gamma1, dpoly, region1, Term.d, List.map_cons, List.map_nil, List.sum_cons, List.sum_nil, ff]
  norm_num

theorem s1_10_273 : 0 < gamma1.s 10 273.15 := by
  rw [Gamma.s]
  refine mul_pos Gamma.R_pos ?_
  simp only [gamma1, dpoly, region1, Term.d, List.map_cons, List.map_nil, List.sum_cons, List.sum_nil, ff]
  norm_num

/-- 50 MPa and 400 K, 10 MPa and 900 K, 30 MPa and 900 K, 1 MPa and 1200 K meet the hypotheses -/
example : (∃ s, XSteam.s_pt .ideal .bare (.fin 50) (.fin 400) = pure (.fin s) ∧
      (RegionSelection.region_ps .ideal (.fin 50) (.fin s)).out = .ok 1) ∧
    (∃ s, XSteam.s_pt .ideal .bare (.fin 10) (.fin 900) = pure (.fin s) ∧
      (RegionSelection.region_ps .ideal (.fin 10) (.fin s)).out = .ok 2) ∧
    (∃ s, XSteam.s_pt .ideal .bare (.fin 30) (.fin 900) = pure (.fin s) ∧
      (RegionSelection.region_ps .ideal (.fin 30) (.fin s)).out = .ok 2) ∧
    ∃ s, XSteam.s_pt .ideal .bare (.fin 1) (.fin 1200) = pure (.fin s) ∧
      (RegionSelection.region_ps .ideal (.fin 1) (.fin s)).out = .ok 5 := by
  have r4 : InRegion 2 30 900 := .inr (.inr (.inr (.inr (.inl ⟨rfl, by norm_num [Box], by norm_num, by norm_num [b23]⟩))))
  have a := C54_agrees .bare 50 400 (gamma1.s 50 400) 1
  have b := C54_agrees .bare 10 900 (gamma2.s 10 900) 2
  have c := C54_agrees .bare 30 900 (gamma2.s 30 900) 2
  have d := C54_agrees .bare 1 1200 (gamma5.s 1 1200) 5
  have ka := (kernels_of_region (u := .bare) (p := 50) (t := 400) (.inl rfl) (by norm_num [Quantity.si, Quantity.scale, Quantity.offset]; exact region1_point)).2.2.1
  have kb := (kernels_of_region (u := .bare) (p := 10) (t := 900) (.inr (.inl rfl)) (by norm_num [Quantity.si, Quantity.scale, Quantity.offset]; exact region2_point)).2.2.1
  have kc := (kernels_of_region (u := .bare) (p := 30) (t := 900) (.inr (.inl rfl)) (by norm_num [Quantity.si, Quantity.scale, Quantity.offset]; exact r4)).2.2.1
  have kd := (kernels_of_region (u := .bare) (p := 1) (t := 1200) (.inr (.inr rfl)) (by norm_num [Quantity.si, Quantity.scale, Quantity.offset]; exact region5_point)).2.2.1
  simp only [Quantity.si, Quantity.user, Quantity.scale, Quantity.offset, sub_zero, one_mul, div_one, add_zero] at a b c d ka kb kc kd
  exact ⟨⟨_, ka, a ((C07_iff _ _ _).2 region1_point) (by rw [ka]; rfl) (by norm_num [Spec.PS.Clear]; exact s1_50_400)⟩,
    ⟨_, kb, b ((C07_iff _ _ _).2 region2_point) (by rw [kb]; rfl) (by norm_num [Spec.PS.Clear])⟩,
    ⟨_, kc, c ((C07_iff _ _ _).2 r4) (by rw [kc]; rfl) (by norm_num [Spec.PS.Clear, b23])⟩,
    ⟨_, kd, d ((C07_iff _ _ _).2 region5_point) (by rw [kd]; rfl) (by norm_num [Spec.PS.Clear])⟩⟩

/-! ## Differences from `region_ph` and `region_pT` -/

/-- C54: an entropy below that of the liquid at 273.15 K is not rejected, unless it is negative, whereas `region_ph`
rejects the enthalpies below that of the liquid at 273.15 K -/
theorem C54_below_273 (p s sF : ℝ) (h0 : 0.000611657 < p) (h1 : p < 16.529)
    (hF : Region1.s1_pT .ideal (.fin p) (.fin 273.15) = pure (.fin sF)) (hs : 0 ≤ s) (hs' : s < sF) :
    (RegionSelection.region_ps .ideal (.fin p) (.fin s)).out = .ok 1 := by
  have hp : 0 < p := by linarith
  have l := liquid_273 h0 (by linarith)
  have l1 := liquid_sat h0 (by linarith)
  rw [s1_pT_eq (dom1_of_liquid hp l)] at hF
  cases hF
  have a := s1_le l l1 l1.T0
  have o1 := (vapour_high (vapour_sat h0 (by linarith)) h0).2
  have o2 := (vapour_high (vapour_1073 hp (by linarith)) h0).2
  have o3 := s25_hot hp (by linarith : p ≤ 100)
  have ts1 : tsat p < 623.15 := tsat_lt h0 (by linarith) (by norm_num) (by linarith [psat_62315])
  have o4 := (liquid_low l1 ts1.le h0).2
  rw [region_ps_low h0 h1, Spec.PS.region, if_neg (by rintro (h | h) <;> linarith), if_neg (by linarith), if_neg (by linarith),
    if_neg (by linarith)]

/-- there are such entropies at 10 MPa -/
example : ∃ s : ℝ, 0 ≤ s ∧ s < gamma1.s 10 273.15 ∧ (RegionSelection.region_ps .ideal (.fin 10) (.fin s)).out = .ok 1 :=
  ⟨0, le_rfl, s1_10_273, C54_below_273 10 0 _ (by norm_num) (by norm_num)
    (s1_pT_eq (dom1_of_liquid (by norm_num) (liquid_273 (by norm_num) (by norm_num)))) le_rfl s1_10_273⟩

/-- C54: at exactly 16.529 MPa wet steam is classified as liquid -/
theorem C54_wet_16529 (s sL sV ts : ℝ) (ht : Region4.T4_p .ideal (.fin 16.529) = pure (.fin ts))
    (hL : Region1.s1_pT .ideal (.fin 16.529) (.fin ts) = pure (.fin sL))
    (hV : Region2.s2_pT .ideal (.fin 16.529) (.fin ts) = pure (.fin sV)) (h1 : sL < s) (h2 : s < sV) (h3 : 0 ≤ s) :
    (RegionSelection.region_ps .ideal (.fin 16.529) (.fin s)).out = .ok 1 := by
  have h0 : (0.000611657 : ℝ) < 16.529 := by norm_num
  have hp : (0 : ℝ) < 16.529 := by norm_num
  rw [T4_p_eq h0 (by norm_num)] at ht
  cases ht
  have v := vapour_sat h0 (by norm_num)
  rw [s1_pT_eq (dom_sat h0 (by norm_num)).1] at hL
  rw [s2_pT_eq (dom2_of_vapour v)] at hV
  cases hL
  cases hV
  have q1 := s1_pT_eq (dom1_of_liquid hp (liquid_273 h0 (by norm_num)))
  have q2 := T4_p_eq h0 (by norm_num)
  have q4 := s2_pT_eq (dom2_of_vapour v)
  have q5 := s2_pT_eq (dom2_of_vapour (vapour_1073 hp (by norm_num)))
  have q6 := s5_pT_eq (p := 16.529) (T := 2273.15) ⟨hp, by norm_num⟩
  have q7 := s1_pT_eq (dom1_623 hp (by norm_num))
  have o1 := s25_hot hp (by norm_num)
  have o2 : gamma2.s 16.529 (tsat 16.529) ≤ gamma2.s 16.529 1073.15 := s2_le v le_rfl v.T1
  unfold RegionSelection.region_ps
  simp only [e1, e2, e3, e4, e5, e6, e15, e16, e18, fin_lt, fin_le, gt_num, q1, q2, q4, q5, q6, q7, pure_bind,
    if_neg (show ¬ (16.529 : ℝ) < 0.000611657 by norm_num), if_neg (show ¬ (100 : ℝ) < 16.529 by norm_num), lt_irrefl, if_false, false_and,
    if_neg (show ¬ s < 0 by linarith), decide_eq_true_eq, if_neg (show ¬ gamma5.s 16.529 2273.15 < s by linarith),
    if_neg (show ¬ gamma2.s 16.529 1073.15 < s by linarith), if_neg (show ¬ gamma2.s 16.529 (tsat 16.529) < s by linarith), if_pos h0]
  simp [out_pure]

/-- an entropy meeting the hypotheses -/
example : ∃ s sL sV ts : ℝ, Region4.T4_p .ideal (.fin 16.529) = pure (.fin ts) ∧
    Region1.s1_pT .ideal (.fin 16.529) (.fin ts) = pure (.fin sL) ∧
    Region2.s2_pT .ideal (.fin 16.529) (.fin ts) = pure (.fin sV) ∧ sL < s ∧ s < sV ∧ 0 ≤ s := by
  have h0 : (0.000611657 : ℝ) < 16.529 := by norm_num
  have d := dom_sat h0 (by norm_num)
  have ts1 : tsat 16.529 < 623.15 := tsat_lt h0 (by norm_num) (by norm_num) (by linarith [psat_62315])
  exact ⟨4, _, _, _, T4_p_eq h0 (by norm_num), s1_pT_eq d.1, s2_pT_eq d.2, (liquid_low (liquid_sat h0 (by norm_num)) ts1.le h0).2,
    (vapour_high (vapour_sat h0 (by norm_num)) h0).2, by norm_num⟩

/-- C54: for every arithmetic `region_ps` never returns region 5 above 10 MPa, whereas `region_pT` does up to 50 MPa -/
theorem C54_no_region5 (F : FP) (p s : Num) (hp : ¬ p ≤ Num.ofInt 10) : (RegionSelection.region_ps F p s).out ≠ .ok 5 :=
  fun h => hp ((C09_region_ps F p _ 5 h).2.2.2.2 rfl)

/-- 20 MPa and 1200 K: region 5 for `region_pT` -/
example : (RegionSelection.region_pT .ideal (.fin 20) (.fin 1200)).out = .ok 5 ∧
    ∀ s : ℝ, (RegionSelection.region_ps .ideal (.fin 20) (.fin s)).out ≠ .ok 5 :=
  ⟨(C07_iff _ _ _).2 (.inr (.inl ⟨rfl, by norm_num [Hot]⟩)), fun h => C54_no_region5 _ _ _ (by rw [e15, fin_le]; norm_num)⟩

end PyX
