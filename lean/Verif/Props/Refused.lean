import Verif.Lemmas.Joint2
import Verif.Props.RegionHigh
import Verif.Props.RegionCodes

/-!
# C78: states which the functions of pressure and temperature answer and those of (p, h) and (p, s) refuse
-/

namespace PyX

open Classical Py Num _root_.Spec.Sat _root_.Spec.PT _root_.Spec.IF97 Kron

variable {p T : ℝ}

/-- the answer is NaN and there is a warning -/
def Declined (x : Py Num) : Prop := x.out = .ok .nan ∧ Warned x.logs

/-- the functions of pressure and enthalpy which switch over the region, and the density -/
def phCalls (p h : Num) : List Call :=
  [.t_ph p h, .v_ph p h, .s_ph p h, .u_ph p h, .Cp_ph p h, .Cv_ph p h, .w_ph p h, .my_ph p h, .rho_ph p h]

/-- the functions of pressure and entropy which switch over the region, and the density -/
def psCalls (p s : Num) : List Call :=
  [.t_ps p s, .v_ps p s, .h_ps p s, .u_ps p s, .Cp_ps p s, .Cv_ps p s, .w_ps p s, .rho_ps p s]

theorem Declined.of_bind {x : Py ℤ} {f : ℤ → Py Num} (hx : x.out = .ok 0) (hf : ∃ m, f 0 = warn m >>= fun _ => pure .nan) :
    Declined (x >>= f) := by
  obtain ⟨m, hm⟩ := hf
  obtain ⟨l, o⟩ := x
  cases hx
  rw [bind_def]
  simp only [andThen, hm]
  exact ⟨rfl, ⟨⟨.warning, m⟩, by simp [prepend, warn, Py.log, bind_def, andThen, pure_def], rfl⟩⟩

theorem Declined.recip {x : Py Num} (hx : Declined x) : Declined (x >>= fun v => FP.ideal.div (Num.ofInt 1) v) := by
  obtain ⟨l, o⟩ := x
  obtain ⟨h1, r, h2, h3⟩ := hx
  cases h1
  refine ⟨by rw [out_eq rfl]; rfl, r, ?_, h3⟩
  rw [bind_def, andThen]
  exact List.mem_append_left _ h2

theorem ph_declined (u : UnitSystem) (p h : ℝ)
    (hr : (RegionSelection.region_ph .ideal (.fin (Quantity.p.si u p)) (.fin (Quantity.h.si u h))).out = .ok 0) :
    ∀ c ∈ phCalls (.fin p) (.fin h), Declined (c.run .ideal u) := by
  simp only [phCalls, List.forall_mem_cons, Call.run]
  have hv : Declined (XSteam.v_ph .ideal u (.fin p) (.fin h)) := by
    unfold XSteam.v_ph; simp only [si, pure_bind]; exact .of_bind hr ⟨_, by norm_num; rfl⟩
  refine ⟨?_, hv, ?_, ?_, ?_, ?_, ?_, ?_, hv.recip, by simp⟩
  · unfold XSteam.t_ph; simp only [si, pure_bind]; exact .of_bind hr ⟨_, by norm_num; rfl⟩
  · unfold XSteam.s_ph; simp only [si, pure_bind]; exact .of_bind hr ⟨_, by norm_num; rfl⟩
  · unfold XSteam.u_ph; simp only [si, pure_bind]; exact .of_bind hr ⟨_, by norm_num; rfl⟩
  · unfold XSteam.Cp_ph; simp only [si, pure_bind]; exact .of_bind hr ⟨_, by norm_num; rfl⟩
  · unfold XSteam.Cv_ph; simp only [si, pure_bind]; exact .of_bind hr ⟨_, by norm_num; rfl⟩
  · unfold XSteam.w_ph; simp only [si, pure_bind]; exact .of_bind hr ⟨_, by norm_num; rfl⟩
  · unfold XSteam.my_ph; simp only [si, pure_bind]; exact .of_bind hr ⟨_, by norm_num; rfl⟩

theorem ps_declined (u : UnitSystem) (p s : ℝ)
    (hr : (RegionSelection.region_ps .ideal (.fin (Quantity.p.si u p)) (.fin (Quantity.s.si u s))).out = .ok 0) :
    ∀ c ∈ psCalls (.fin p) (.fin s), Declined (c.run .ideal u) := by
  simp only [psCalls, List.forall_mem_cons, Call.run]
  have hv : Declined (XSteam.v_ps .ideal u (.fin p) (.fin s)) := by
    unfold XSteam.v_ps; simp only [si, pure_bind]; exact .of_bind hr ⟨_, by norm_num; rfl⟩
  refine ⟨?_, hv, ?_, ?_, ?_, ?_, ?_, hv.recip, by simp⟩
  · unfold XSteam.t_ps; simp only [si, pure_bind]; exact .of_bind hr ⟨_, by norm_num; rfl⟩
  · unfold XSteam.h_ps; simp only [si, pure_bind]; exact .of_bind hr ⟨_, by norm_num; rfl⟩
  · unfold XSteam.u_ps; simp only [si, pure_bind]; exact .of_bind hr ⟨_, by norm_num; rfl⟩
  · unfold XSteam.Cp_ps; simp only [si, pure_bind]; exact .of_bind hr ⟨_, by norm_num; rfl⟩
  · unfold XSteam.Cv_ps; simp only [si, pure_bind]; exact .of_bind hr ⟨_, by norm_num; rfl⟩
  · unfold XSteam.w_ps; simp only [si, pure_bind]; exact .of_bind hr ⟨_, by norm_num; rfl⟩

/-! ## The classification -/

private theorem e1 : FP.ideal.lit 0.000611657 = .fin 0.000611657 := by rw [lit_ideal]; norm_num
private theorem e2 : Num.ofInt 100 = .fin 100 := by rw [ofInt_eq]; norm_num
private theorem f3 : Num.ofInt 0 = .fin 0 := by rw [ofInt_eq]; norm_num
private theorem f4 : FP.ideal.lit 2273.15 = .fin 2273.15 := by rw [lit_ideal]; norm_num
private theorem f15 : Num.ofInt 10 = .fin 10 := by rw [ofInt_eq]; norm_num
private theorem f16 : FP.ideal.lit 1073.15 = .fin 1073.15 := by rw [lit_ideal]; norm_num

theorem region_ph_thin (h1 : p < 0.000611657) (h : Num) : (RegionSelection.region_ph .ideal (.fin p) h).out = .ok 0 := by
  unfold RegionSelection.region_ph
  rw [e1, if_pos (.inl (by rwa [fin_lt]))]
  rfl

theorem region_ps_thin (h1 : p < 0.000611657) (s : Num) : (RegionSelection.region_ps .ideal (.fin p) s).out = .ok 0 := by
  unfold RegionSelection.region_ps
  simp only [e1, fin_lt, if_pos h1, pure_bind, if_true]
  rfl

theorem region_ps_neg {s : ℝ} (hs : s < 0) : (RegionSelection.region_ps .ideal (.fin p) (.fin s)).out = .ok 0 := by
  unfold RegionSelection.region_ps
  simp only [e1, e2, f3, fin_lt, gt_num, if_pos hs]
  by_cases c1 : p < 0.000611657
  · simp [c1]; rfl
  by_cases c2 : 100 < p
  · simp [c1, c2]; rfl
  simp [c1, c2]; rfl

theorem h5_above (h0 : 0 < p) (h1 : p ≤ 50) (h2 : 1073.2 ≤ T) (h3 : T < 2273.15) : gamma2.h p 1073.15 < gamma5.h p T := by
  refine (h25' h0 h1).trans_le ?_
  rcases h2.eq_or_lt with rfl | h
  · exact le_rfl
  · exact (h5_lt h0 h1 (by norm_num) h3.le h).le

theorem s5_above (h0 : 0 < p) (h1 : p ≤ 50) (h2 : 1073.2 ≤ T) (h3 : T < 2273.15) : gamma2.s p 1073.15 < gamma5.s p T := by
  refine (s25' h0 h1).trans_le ?_
  rcases h2.eq_or_lt with rfl | h
  · exact le_rfl
  · exact (s5_lt h0 h1 (by norm_num) h3.le h).le

theorem region_ph_dense (h0 : 10 < p) (h1 : p < 50) (hg : p ≤ 16.5291 ∨ 16.5292 ≤ p) (h2 : 1073.2 ≤ T) (h3 : T < 2273.15) :
    (RegionSelection.region_ph .ideal (.fin p) (.fin (gamma5.h p T))).out = .ok 0 := by
  have a := h5_above (by linarith : 0 < p) h1.le h2 h3
  rcases hg with hg | hg
  · obtain ⟨ts, hF, hL, hV, g2, g5, -, -, -, -, t3, -, o1, o2, o3, o4, -, H⟩ := C53_exact p (by linarith) hg
    rw [h2_pT_eq (dom2_of_vapour (vapour_1073 (by linarith) (by linarith)))] at t3
    cases t3
    rw [H, Spec.PH.region, if_neg (by linarith), if_neg (by linarith), if_neg (by linarith), if_neg (by linarith),
      if_neg (fun h => by linarith [h.1])]
  · obtain ⟨o1, o2, o3, o4⟩ := order_h hg (by linarith)
    rw [region_ph_high hg (by linarith), Spec.High.byH, if_neg (by linarith), if_neg (by linarith), if_neg (by linarith),
      if_neg (by linarith)]

theorem region_ps_dense (h0 : 10 < p) (h1 : p < 50) (h2 : 1073.2 ≤ T) (h3 : T < 2273.15) :
    (RegionSelection.region_ps .ideal (.fin p) (.fin (gamma5.s p T))).out = .ok 0 := by
  have hp : 0 < p := by linarith
  have c3 := s5_above hp h1.le h2 h3
  have q5 := s2_pT_eq (dom2_of_vapour (vapour_1073 hp (by linarith)))
  have q6 := s5_pT_eq (p := p) (T := 2273.15) ⟨hp, by norm_num⟩
  unfold RegionSelection.region_ps
  simp only [e1, e2, f3, f4, f15, f16, fin_lt, fin_le, gt_num, q5, q6, pure_bind,
    if_neg (show ¬ p < 0.000611657 by linarith), if_neg (show ¬ 100 < p by linarith), if_neg (show ¬ p ≤ 10 by linarith)]
  by_cases c1 : gamma5.s p T < 0
  · simp [c1]; rfl
  by_cases c2 : gamma5.s p 2273.15 < gamma5.s p T
  · simp [c1, c2]; rfl
  simp [c1, c2, c3]; rfl

theorem region_hs_cold {h : Num} {s : ℝ} (hs : s < -0.0002) : (RegionSelection.region_hs .ideal h (.fin s)).out = .ok 0 := by
  unfold RegionSelection.region_hs
  rw [if_pos]
  · rfl
  · rw [lit_ideal, neg_fin, fin_lt]
    norm_num at hs ⊢
    linarith

/-- water from 60 MPa up to 273.25 K has an entropy below -0.0002 kJ/(kg K) -/
theorem s1_cold (h0 : 60 ≤ p) (h1 : p ≤ 100) : gamma1.s p 273.25 < -0.0002 := by
  suffices gamma1.s p 273.25 / R < -0.0005 by
    rw [div_lt_iff₀ Gamma.R_pos] at this
    norm_num [R] at this ⊢
    linarith
  rw [Gamma.s, mul_div_cancel_left₀ _ Gamma.R_pos.ne']
  simp only [gamma1, dpoly, region1, Term.d, List.map_cons, List.map_nil, List.sum_cons, List.sum_nil, ff]
  have x0 : 0 < 7.1 - p / 16.53 := by norm_num; linarith
  have x1 : 7.1 - p / 16.53 ≤ 3.4703 := by norm_num; linarith
  generalize 7.1 - p / 16.53 = x at x0 x1
  have hb (n : ℕ) : x ^ n ≤ 3.4703 ^ n := pow_le_pow_left₀ x0.le x1 n
  have hp (n : ℕ) : 0 < x ^ n := pow_pos x0 n
  have q : 2 * 3.4703 * x - 3.4703 ^ 2 ≤ x ^ 2 := by nlinarith [sq_nonneg (x - 3.4703)]
  have a3 := hb 3; have a4 := hb 4; have a5 := hb 5; have a8 := hb 8; have a21 := hb 21; have a23 := hb 23
  have a29 := hb 29; have a30 := hb 30; have a31 := hb 31; have a32 := hb 32
  have b3 := hp 3; have b4 := hp 4; have b5 := hp 5; have b8 := hp 8; have b21 := hp 21; have b23 := hp 23
  have b29 := hp 29; have b30 := hp 30; have b31 := hp 31; have b32 := hp 32
  clear hb hp
  norm_num at *
  norm_cast at *
  linarith
/-! ## The functions -/

/-- C78: in every unit system a state of region 1, 2 or 5 with a pressure from 0.000611 MPa to below 0.000611657 MPa has an
enthalpy and an entropy, and at these every function of (p, h) and of (p, s) returns NaN with a warning -/
theorem C78_thin (u : UnitSystem) (p t : ℝ) (k : ℤ) (hk : k = 1 ∨ k = 2 ∨ k = 5)
    (hr : (RegionSelection.region_pT .ideal (.fin (Quantity.p.si u p)) (.fin (Quantity.T.si u t))).out = .ok k)
    (hp : Quantity.p.si u p < 0.000611657) :
    ∃ h s : ℝ, XSteam.h_pt .ideal u (.fin p) (.fin t) = pure (.fin h) ∧ XSteam.s_pt .ideal u (.fin p) (.fin t) = pure (.fin s) ∧
      (∀ c ∈ phCalls (.fin p) (.fin h), Declined (c.run .ideal u)) ∧ ∀ c ∈ psCalls (.fin p) (.fin s), Declined (c.run .ideal u) := by
  have k := kernels_of_region hk ((C07_iff _ _ _).1 hr)
  exact ⟨_, _, k.2.1, k.2.2.1, ph_declined u p _ (region_ph_thin hp _), ps_declined u p _ (region_ps_thin hp _)⟩

/-- C78: the same for the states of region 5 above 10 MPa from 1073.2 K, by enthalpy -/
theorem C78_dense_ph (u : UnitSystem) (p t : ℝ)
    (hr : (RegionSelection.region_pT .ideal (.fin (Quantity.p.si u p)) (.fin (Quantity.T.si u t))).out = .ok 5)
    (h0 : 10 < Quantity.p.si u p) (hg : Quantity.p.si u p ≤ 16.5291 ∨ 16.5292 ≤ Quantity.p.si u p)
    (h2 : 1073.2 ≤ Quantity.T.si u t) :
    ∃ h : ℝ, XSteam.h_pt .ideal u (.fin p) (.fin t) = pure (.fin h) ∧
      ∀ c ∈ phCalls (.fin p) (.fin h), Declined (c.run .ideal u) := by
  have hr := (C07_iff _ _ _).1 hr
  have h := hot_of_region5 hr
  refine ⟨_, (kernels_of_region (.inr (.inr rfl)) hr).2.1, ph_declined u p _ ?_⟩
  rw [Quantity.si_user]
  exact region_ph_dense h0 h.2.2.2 hg h2 h.2.1

/-- C78: and by entropy -/
theorem C78_dense_ps (u : UnitSystem) (p t : ℝ)
    (hr : (RegionSelection.region_pT .ideal (.fin (Quantity.p.si u p)) (.fin (Quantity.T.si u t))).out = .ok 5)
    (h0 : 10 < Quantity.p.si u p) (h2 : 1073.2 ≤ Quantity.T.si u t) :
    ∃ s : ℝ, XSteam.s_pt .ideal u (.fin p) (.fin t) = pure (.fin s) ∧
      ∀ c ∈ psCalls (.fin p) (.fin s), Declined (c.run .ideal u) := by
  have hr := (C07_iff _ _ _).1 hr
  have h := hot_of_region5 hr
  refine ⟨_, (kernels_of_region (.inr (.inr rfl)) hr).2.2.1, ps_declined u p _ ?_⟩
  rw [Quantity.si_user]
  exact region_ps_dense h0 h.2.2.2 h2 h.2.1

/-- C78: in every unit system the water of region 1 from 60 MPa and up to 273.25 K has a negative entropy, and at this entropy
every function of (p, s) returns NaN with a warning, and so do `p_hs` and `t_hs` with its enthalpy -/
theorem C78_cold (u : UnitSystem) (p t : ℝ)
    (hr : (RegionSelection.region_pT .ideal (.fin (Quantity.p.si u p)) (.fin (Quantity.T.si u t))).out = .ok 1)
    (h0 : 60 ≤ Quantity.p.si u p) (h1 : Quantity.T.si u t ≤ 273.25) :
    ∃ h s : ℝ, XSteam.h_pt .ideal u (.fin p) (.fin t) = pure (.fin h) ∧ XSteam.s_pt .ideal u (.fin p) (.fin t) = pure (.fin s) ∧
      Quantity.s.si u s < 0 ∧ (∀ c ∈ psCalls (.fin p) (.fin s), Declined (c.run .ideal u)) ∧
      Declined (XSteam.p_hs .ideal u (.fin h) (.fin s)) ∧ Declined (XSteam.t_hs .ideal u (.fin h) (.fin s)) := by
  have hr := (C07_iff _ _ _).1 hr
  have l := liquid_of_region1 hr
  have b := theta_box (T := 273.25) (by norm_num) (by norm_num)
  have l' : Liquid (Quantity.p.si u p) 273.25 := ⟨l.p1, by norm_num, by norm_num, by linarith [(psat_sat b.1 b.2.1 b.2.2).2.1]⟩
  have h := (s1_le l l' h1).trans_lt (s1_cold h0 l.p1)
  have k := kernels_of_region (.inl rfl) hr
  have g : gammaOf 1 = gamma1 := rfl
  rw [g] at k
  have q := region_hs_cold (h := .fin (Quantity.h.si u (Quantity.h.user u (gamma1.h (Quantity.p.si u p) (Quantity.T.si u t))))) h
  rw [← Quantity.si_user (q := .s) (u := u) (x := gamma1.s _ _)] at q
  refine ⟨_, _, k.2.1, k.2.2.1, ?_, ps_declined u p _ (region_ps_neg ?_), ?_, ?_⟩
  · rw [Quantity.si_user]; linarith
  · rw [Quantity.si_user]; linarith
  · unfold XSteam.p_hs; simp only [si, pure_bind]; exact .of_bind q ⟨_, by norm_num; rfl⟩
  · unfold XSteam.t_hs; simp only [si, pure_bind]; exact .of_bind q ⟨_, by norm_num; rfl⟩

/-- in units of the standard: steam of 0.0006115 MPa and 900 K, of 20 MPa and 1200 K, water of 80 MPa and 273.2 K -/
example : (∃ h s : ℝ, XSteam.h_pt .ideal .bare (.fin 0.0006115) (.fin 900) = pure (.fin h) ∧
      XSteam.s_pt .ideal .bare (.fin 0.0006115) (.fin 900) = pure (.fin s) ∧
      Declined (XSteam.t_ph .ideal .bare (.fin 0.0006115) (.fin h)) ∧ Declined (XSteam.t_ps .ideal .bare (.fin 0.0006115) (.fin s))) ∧
    (∃ h : ℝ, XSteam.h_pt .ideal .bare (.fin 20) (.fin 1200) = pure (.fin h) ∧
      Declined (XSteam.s_ph .ideal .bare (.fin 20) (.fin h))) ∧
    (∃ s : ℝ, XSteam.s_pt .ideal .bare (.fin 20) (.fin 1200) = pure (.fin s) ∧
      Declined (XSteam.h_ps .ideal .bare (.fin 20) (.fin s))) ∧
    ∃ s : ℝ, XSteam.s_pt .ideal .bare (.fin 80) (.fin 273.2) = pure (.fin s) ∧ s < 0 ∧
      Declined (XSteam.v_ps .ideal .bare (.fin 80) (.fin s)) := by
  have r1 : InRegion 1 80 273.2 := by
    have h := theta_box (T := 273.2) (by norm_num) (by norm_num)
    have hs := psat_sat h.1 h.2.1 h.2.2
    have := hs.2.1
    refine .inr (.inr (.inl ⟨rfl, by norm_num [Box], by norm_num, ?_, psat 273.2, hs, by linarith⟩))
    rw [saturated_iff (by norm_num) (by norm_num), abs_of_nonneg (by linarith)]
    norm_num at this ⊢
    linarith
  have r2 : InRegion 2 0.0006115 900 := .inr (.inr (.inr (.inr (.inl ⟨rfl, by norm_num [Box], by norm_num, by norm_num [b23]⟩))))
  have r5 : InRegion 5 20 1200 := .inr (.inl ⟨rfl, by norm_num [Hot]⟩)
  obtain ⟨h, s, a1, a2, a3, a4⟩ := C78_thin .bare 0.0006115 900 2 (.inr (.inl rfl))
    (by simpa only [Quantity.si_bare] using (C07_iff _ _ _).2 r2) (by rw [Quantity.si_bare]; norm_num)
  obtain ⟨h', b1, b2⟩ := C78_dense_ph .bare 20 1200 (by simpa only [Quantity.si_bare] using (C07_iff _ _ _).2 r5)
    (by rw [Quantity.si_bare]; norm_num) (.inr (by rw [Quantity.si_bare]; norm_num)) (by rw [Quantity.si_bare]; norm_num)
  obtain ⟨s', c1, c2⟩ := C78_dense_ps .bare 20 1200 (by simpa only [Quantity.si_bare] using (C07_iff _ _ _).2 r5)
    (by rw [Quantity.si_bare]; norm_num) (by rw [Quantity.si_bare]; norm_num)
  obtain ⟨_, s'', -, d1, d2, d3, -⟩ := C78_cold .bare 80 273.2 (by simpa only [Quantity.si_bare] using (C07_iff _ _ _).2 r1)
    (by rw [Quantity.si_bare]; norm_num) (by rw [Quantity.si_bare]; norm_num)
  rw [Quantity.si_bare] at d2
  exact ⟨⟨h, s, a1, a2, a3 (.t_ph _ _) (by simp [phCalls]), a4 (.t_ps _ _) (by simp [psCalls])⟩,
    ⟨h', b1, b2 (.s_ph _ _) (by simp [phCalls])⟩, ⟨s', c1, c2 (.h_ps _ _) (by simp [psCalls])⟩,
    s'', d1, d2, d3 (.v_ps _ _) (by simp [psCalls])⟩

end PyX
