import Verif.Props.Backward2
import Verif.Props.Hot

/-!
# C57: the temperature found from pressure and enthalpy is the one the enthalpy was computed from
-/

namespace PyX

open Classical Py Num PyX.Spec Spec.IF97 Spec.PT

/-- the accuracy in K of `t_ph` in the regions 1, 2 and 5 -/
noncomputable def Spec.PH.tol (k : ℤ) : ℝ := if k = 1 then 0.025 else if k = 2 then 0.04 else 1e-5

theorem T_ph_kernel {p T : ℝ} {k : ℤ} (hr : InRegion k p T) (hc : Spec.PH.Clear b23 k p T)
    (h5 : k = 5 → ∀ hm, Region5.h5_pT .ideal (.fin p) (.fin 1673.15) = pure (.fin hm) → (gammaOf k).h p T ≠ hm + 1) :
    ∃ T' : ℝ, |T' - T| ≤ Spec.PH.tol k ∧ ∀ u : UnitSystem,
      (XSteam.t_ph .ideal u (.fin (Quantity.p.user u p)) (.fin (Quantity.h.user u ((gammaOf k).h p T)))).out = .ok (.fin (Quantity.T.user u T')) := by
  have a := region_ph_agree hr hc
  have hp : 0 < p := by linarith [hc.1]
  rcases hc.2 with ⟨rfl, _⟩ | ⟨rfl, _⟩ | ⟨rfl, _⟩
  · refine ⟨_, Kron.T1ph.accurate (liquid_of_region1 hr) (by linarith [region1_le hr]), fun u => ?_⟩
    unfold XSteam.t_ph
    simp only [toSI_p_fin, toSI_h_fin, pure_bind, Quantity.si_user]
    rw [out_eq a]
    simp only [reduceIte]
    rw [show (gammaOf 1) = gamma1 from rfl, T1_ph_eq, pure_bind, fromSI_T_fin]
    rfl
  · refine ⟨_, t2ph_accurate (vapour_of_region2 hr), fun u => ?_⟩
    unfold XSteam.t_ph
    simp only [toSI_p_fin, toSI_h_fin, pure_bind, Quantity.si_user]
    rw [out_eq a]
    simp only [show ¬ (2 : ℤ) = 1 by norm_num, reduceIte]
    rw [show (gammaOf 2) = gamma2 from rfl, T2_ph_eq hp, pure_bind, fromSI_T_fin]
    rfl
  · obtain ⟨b0, b1, -, -⟩ := hot_of_region5 hr
    obtain ⟨T', e, d⟩ := C56_T5_ph p T hp (by linarith) ⟨b0.le, b1.le⟩ _ _ (h5_pT_eq ⟨hp, by linarith⟩) (h5_pT_eq ⟨hp, by norm_num⟩)
      (h5 rfl _ (h5_pT_eq ⟨hp, by norm_num⟩))
    refine ⟨T', by simpa [Spec.PH.tol] using d, fun u => ?_⟩
    unfold XSteam.t_ph
    simp only [toSI_p_fin, toSI_h_fin, pure_bind, Quantity.si_user]
    rw [out_eq a]
    simp only [show ¬ (5 : ℤ) = 1 by norm_num, show ¬ (5 : ℤ) = 2 by norm_num, show ¬ (5 : ℤ) = 3 by norm_num, show ¬ (5 : ℤ) = 4 by norm_num, reduceIte]
    rw [show (gammaOf 5) = gamma5 from rfl, e, pure_bind, fromSI_T_fin]
    rfl

/-- **C57**: in every unit system, for a state (p, t) of region 1, 2 or 5, `t_ph (p, h_pt (p, t))` is `t` to within 25 mK, 40 mK
or 0.01 mK. In region 5 the enthalpy must not be by exactly 1 kJ/kg above that at 1673.15 K (C56) -/
theorem C57_t_ph (u : UnitSystem) (p t h : ℝ) (k : ℤ)
    (hr : (RegionSelection.region_pT .ideal (.fin (Quantity.p.si u p)) (.fin (Quantity.T.si u t))).out = .ok k)
    (hc : Spec.PH.Clear b23 k (Quantity.p.si u p) (Quantity.T.si u t))
    (hh : (XSteam.h_pt .ideal u (.fin p) (.fin t)).out = .ok (.fin h))
    (h5 : k = 5 → ∀ hm, Region5.h5_pT .ideal (.fin (Quantity.p.si u p)) (.fin 1673.15) = pure (.fin hm) → Quantity.h.si u h ≠ hm + 1) :
    ∃ t' : ℝ, (XSteam.t_ph .ideal u (.fin p) (.fin h)).out = .ok (.fin t') ∧
      |Quantity.T.si u t' - Quantity.T.si u t| ≤ Spec.PH.tol k := by
  have hr := (C07_iff _ _ _).1 hr
  have hk : k = 1 ∨ k = 2 ∨ k = 5 := by
    rcases hc.2 with ⟨h, _⟩ | ⟨h, _⟩ | ⟨h, _⟩ <;> simp [h]
  rw [(kernels_of_region hk hr).2.1] at hh
  cases hh
  rw [Quantity.si_user] at h5
  obtain ⟨T', d, e⟩ := T_ph_kernel hr hc h5
  have := e u
  rw [Quantity.user_si] at this
  exact ⟨_, this, by rw [Quantity.si_user]; exact d⟩

/-- 50 MPa and 400 K, 10 MPa and 900 K, 1 MPa and 1200 K meet the hypotheses -/
example : (∃ h t', XSteam.h_pt .ideal .bare (.fin 50) (.fin 400) = pure (.fin h) ∧
      (XSteam.t_ph .ideal .bare (.fin 50) (.fin h)).out = .ok (.fin t') ∧ |t' - 400| ≤ 0.025) ∧
    (∃ h t', XSteam.h_pt .ideal .bare (.fin 10) (.fin 900) = pure (.fin h) ∧
      (XSteam.t_ph .ideal .bare (.fin 10) (.fin h)).out = .ok (.fin t') ∧ |t' - 900| ≤ 0.04) ∧
    ∃ h t', XSteam.h_pt .ideal .bare (.fin 1) (.fin 1200) = pure (.fin h) ∧
      (XSteam.t_ph .ideal .bare (.fin 1) (.fin h)).out = .ok (.fin t') ∧ |t' - 1200| ≤ 1e-5 := by
  have a := C57_t_ph .bare 50 400 (gamma1.h 50 400) 1
  have b := C57_t_ph .bare 10 900 (gamma2.h 10 900) 2
  have d := C57_t_ph .bare 1 1200 (gamma5.h 1 1200) 5
  have ka := (kernels_of_region (u := .bare) (p := 50) (t := 400) (.inl rfl) (by norm_num [Quantity.si, Quantity.scale, Quantity.offset]; exact region1_point)).2.1
  have kb := (kernels_of_region (u := .bare) (p := 10) (t := 900) (.inr (.inl rfl)) (by norm_num [Quantity.si, Quantity.scale, Quantity.offset]; exact region2_point)).2.1
  have kd := (kernels_of_region (u := .bare) (p := 1) (t := 1200) (.inr (.inr rfl)) (by norm_num [Quantity.si, Quantity.scale, Quantity.offset]; exact region5_point)).2.1
  simp only [Quantity.si, Quantity.user, Quantity.scale, Quantity.offset, sub_zero, one_mul, div_one, add_zero, Spec.PH.tol, reduceIte,
    show ¬ (2 : ℤ) = 1 by norm_num, show ¬ (5 : ℤ) = 1 by norm_num, show ¬ (5 : ℤ) = 2 by norm_num] at a b d ka kb kd
  obtain ⟨ta, a, a'⟩ := a ((C07_iff _ _ _).2 region1_point) (by norm_num [Spec.PH.Clear]) (by rw [ka]; rfl) (by norm_num)
  obtain ⟨tb, b, b'⟩ := b ((C07_iff _ _ _).2 region2_point) (by norm_num [Spec.PH.Clear]) (by rw [kb]; rfl) (by norm_num)
  obtain ⟨td, d, d'⟩ := d ((C07_iff _ _ _).2 region5_point) (by norm_num [Spec.PH.Clear]) (by rw [kd]; rfl) (fun _ hm e => by
    rw [h5_pT_eq ⟨by norm_num, by norm_num⟩] at e
    cases e
    have := h5_lt (p := 1) (T := 1200) (T' := 1673.15) (by norm_num) (by norm_num) (by norm_num) (by norm_num) (by norm_num)
    linarith)
  exact ⟨⟨_, _, ka, a, a'⟩, ⟨_, _, kb, b, b'⟩, ⟨_, _, kd, d, d'⟩⟩

/-! ## Entropy -/

/-- the accuracy in K of `t_ps` in the regions 1, 2 and 5 -/
noncomputable def Spec.PS.tol (k : ℤ) : ℝ := if k = 1 then 0.025 else if k = 2 then 0.04 else 0.016

theorem T_ps_kernel {p T : ℝ} {k : ℤ} (hr : InRegion k p T) (hc : Spec.PS.Clear b23 k p T ((gammaOf k).s p T)) :
    ∃ T' : ℝ, |T' - T| ≤ Spec.PS.tol k ∧ ∀ u : UnitSystem,
      (XSteam.t_ps .ideal u (.fin (Quantity.p.user u p)) (.fin (Quantity.s.user u ((gammaOf k).s p T)))).out = .ok (.fin (Quantity.T.user u T')) := by
  have a := region_ps_agree hr hc
  have hp : 0 < p := by linarith [hc.1]
  rcases hc.2.2 with ⟨rfl, _⟩ | ⟨rfl, _⟩ | ⟨rfl, hc', -⟩
  · refine ⟨_, Kron.T1ps.accurate (liquid_of_region1 hr) (by linarith [region1_le hr]), fun u => ?_⟩
    unfold XSteam.t_ps
    simp only [toSI_p_fin, toSI_s_fin, pure_bind, Quantity.si_user]
    rw [out_eq a]
    simp only [reduceIte]
    rw [show (gammaOf 1) = gamma1 from rfl, T1_ps_eq, pure_bind, fromSI_T_fin]
    rfl
  · obtain ⟨T', e, d⟩ := T2_ps_accurate (vapour_of_region2 hr) (region2_p0 hr)
    refine ⟨T', by simpa [Spec.PS.tol] using d, fun u => ?_⟩
    unfold XSteam.t_ps
    simp only [toSI_p_fin, toSI_s_fin, pure_bind, Quantity.si_user]
    rw [out_eq a]
    simp only [show ¬ (2 : ℤ) = 1 by norm_num, reduceIte]
    rw [show (gammaOf 2) = gamma2 from rfl, e, pure_bind, fromSI_T_fin]
    rfl
  · obtain ⟨b0, b1, -, -⟩ := hot_of_region5 hr
    obtain ⟨T', s', e, d, -, -⟩ := C56_T5_ps p T hp hc' ⟨b0.le, b1.le⟩ _ (s5_pT_eq ⟨hp, by linarith⟩)
    refine ⟨T', by simpa [Spec.PS.tol] using d, fun u => ?_⟩
    unfold XSteam.t_ps
    simp only [toSI_p_fin, toSI_s_fin, pure_bind, Quantity.si_user]
    rw [out_eq a]
    simp only [show ¬ (5 : ℤ) = 1 by norm_num, show ¬ (5 : ℤ) = 2 by norm_num, show ¬ (5 : ℤ) = 3 by norm_num, show ¬ (5 : ℤ) = 4 by norm_num, reduceIte]
    rw [show (gammaOf 5) = gamma5 from rfl, e, pure_bind, fromSI_T_fin]
    rfl

/-- **C57**: in every unit system, for a state (p, t) of region 1, 2 or 5, `t_ps (p, s_pt (p, t))` is `t` to within 25 mK, 40 mK
or 16 mK -/
theorem C57_t_ps (u : UnitSystem) (p t s : ℝ) (k : ℤ)
    (hr : (RegionSelection.region_pT .ideal (.fin (Quantity.p.si u p)) (.fin (Quantity.T.si u t))).out = .ok k)
    (hs : (XSteam.s_pt .ideal u (.fin p) (.fin t)).out = .ok (.fin s))
    (hc : Spec.PS.Clear b23 k (Quantity.p.si u p) (Quantity.T.si u t) (Quantity.s.si u s)) :
    ∃ t' : ℝ, (XSteam.t_ps .ideal u (.fin p) (.fin s)).out = .ok (.fin t') ∧
      |Quantity.T.si u t' - Quantity.T.si u t| ≤ Spec.PS.tol k := by
  have hr := (C07_iff _ _ _).1 hr
  have hk : k = 1 ∨ k = 2 ∨ k = 5 := by
    rcases hc.2.2 with ⟨h, _⟩ | ⟨h, _⟩ | ⟨h, _⟩ <;> simp [h]
  rw [(kernels_of_region hk hr).2.2.1] at hs
  cases hs
  rw [Quantity.si_user] at hc
  obtain ⟨T', d, e⟩ := T_ps_kernel hr hc
  have := e u
  rw [Quantity.user_si] at this
  exact ⟨_, this, by rw [Quantity.si_user]; exact d⟩

/-- 50 MPa and 400 K, 10 MPa and 900 K, 1 MPa and 1200 K meet the hypotheses -/
example : (∃ s t', XSteam.s_pt .ideal .bare (.fin 50) (.fin 400) = pure (.fin s) ∧
      (XSteam.t_ps .ideal .bare (.fin 50) (.fin s)).out = .ok (.fin t') ∧ |t' - 400| ≤ 0.025) ∧
    (∃ s t', XSteam.s_pt .ideal .bare (.fin 10) (.fin 900) = pure (.fin s) ∧
      (XSteam.t_ps .ideal .bare (.fin 10) (.fin s)).out = .ok (.fin t') ∧ |t' - 900| ≤ 0.04) ∧
    ∃ s t', XSteam.s_pt .ideal .bare (.fin 1) (.fin 1200) = pure (.fin s) ∧
      (XSteam.t_ps .ideal .bare (.fin 1) (.fin s)).out = .ok (.fin t') ∧ |t' - 1200| ≤ 0.016 := by
  have a := C57_t_ps .bare 50 400 (gamma1.s 50 400) 1
  have b := C57_t_ps .bare 10 900 (gamma2.s 10 900) 2
  have d := C57_t_ps .bare 1 1200 (gamma5.s 1 1200) 5
  have ka := (kernels_of_region (u := .bare) (p := 50) (t := 400) (.inl rfl) (by norm_num [Quantity.si, Quantity.scale, Quantity.offset]; exact region1_point)).2.2.1
  have kb := (kernels_of_region (u := .bare) (p := 10) (t := 900) (.inr (.inl rfl)) (by norm_num [Quantity.si, Quantity.scale, Quantity.offset]; exact region2_point)).2.2.1
  have kd := (kernels_of_region (u := .bare) (p := 1) (t := 1200) (.inr (.inr rfl)) (by norm_num [Quantity.si, Quantity.scale, Quantity.offset]; exact region5_point)).2.2.1
  simp only [Quantity.si, Quantity.user, Quantity.scale, Quantity.offset, sub_zero, one_mul, div_one, add_zero, Spec.PS.tol, reduceIte,
    show ¬ (2 : ℤ) = 1 by norm_num, show ¬ (5 : ℤ) = 1 by norm_num, show ¬ (5 : ℤ) = 2 by norm_num] at a b d ka kb kd
  obtain ⟨ta, a, a'⟩ := a ((C07_iff _ _ _).2 region1_point) (by rw [ka]; rfl) (by norm_num [Spec.PS.Clear]; exact s1_50_400)
  obtain ⟨tb, b, b'⟩ := b ((C07_iff _ _ _).2 region2_point) (by rw [kb]; rfl) (by norm_num [Spec.PS.Clear])
  obtain ⟨td, d, d'⟩ := d ((C07_iff _ _ _).2 region5_point) (by rw [kd]; rfl) (by norm_num [Spec.PS.Clear])
  exact ⟨⟨_, _, ka, a, a'⟩, ⟨_, _, kb, b, b'⟩, ⟨_, _, kd, d, d'⟩⟩

end PyX
