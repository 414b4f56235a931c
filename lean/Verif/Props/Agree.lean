import Verif.Props.RoundTrip
import Verif.Props.Dispatch
import Verif.Props.RegionHigh
import Verif.Props.Backward3
import Verif.Lemmas.BarsMid

/-!
# C71, C72: the properties at (p, h) and (p, s) are those of a state next to the one the enthalpy or entropy belongs to
-/

namespace PyX

open Classical Py Num PyX.Spec _root_.Spec.IF97 _root_.Spec.PT _root_.Spec.R3 Kron

/-- in every unit system `v_ph`, `s_ph`, `u_ph`, `Cp_ph`, `Cv_ph` and `w_ph` at `(p, h)` are the same as `v_pt`, … at `(p, t)` -/
def SameAsPT (u : UnitSystem) (p h t : ℝ) : Prop :=
  (XSteam.v_ph .ideal u (.fin p) (.fin h)).out = (XSteam.v_pt .ideal u (.fin p) (.fin t)).out ∧
  (XSteam.s_ph .ideal u (.fin p) (.fin h)).out = (XSteam.s_pt .ideal u (.fin p) (.fin t)).out ∧
  (XSteam.u_ph .ideal u (.fin p) (.fin h)).out = (XSteam.u_pt .ideal u (.fin p) (.fin t)).out ∧
  (XSteam.Cp_ph .ideal u (.fin p) (.fin h)).out = (XSteam.Cp_pt .ideal u (.fin p) (.fin t)).out ∧
  (XSteam.Cv_ph .ideal u (.fin p) (.fin h)).out = (XSteam.Cv_pt .ideal u (.fin p) (.fin t)).out ∧
  (XSteam.w_ph .ideal u (.fin p) (.fin h)).out = (XSteam.w_pt .ideal u (.fin p) (.fin t)).out

/-- the same for `h_ps`, `v_ps`, … -/
def SameAsPTs (u : UnitSystem) (p s t : ℝ) : Prop :=
  (XSteam.v_ps .ideal u (.fin p) (.fin s)).out = (XSteam.v_pt .ideal u (.fin p) (.fin t)).out ∧
  (XSteam.h_ps .ideal u (.fin p) (.fin s)).out = (XSteam.h_pt .ideal u (.fin p) (.fin t)).out ∧
  (XSteam.u_ps .ideal u (.fin p) (.fin s)).out = (XSteam.u_pt .ideal u (.fin p) (.fin t)).out ∧
  (XSteam.Cp_ps .ideal u (.fin p) (.fin s)).out = (XSteam.Cp_pt .ideal u (.fin p) (.fin t)).out ∧
  (XSteam.Cv_ps .ideal u (.fin p) (.fin s)).out = (XSteam.Cv_pt .ideal u (.fin p) (.fin t)).out ∧
  (XSteam.w_ps .ideal u (.fin p) (.fin s)).out = (XSteam.w_pt .ideal u (.fin p) (.fin t)).out

/-- C71: for a state `(p, t)` of region 1, 2 or 5 whose neighbours on the isobar, up to the accuracy of `t_ph`, belong to the same
region, the properties at `(p, h_pt (p, t))` are those at `(p, t')` for some `t'` that close to `t` -/
theorem C71_ph (u : UnitSystem) (p t : ℝ) (k : ℤ)
    (hr : ∀ T : ℝ, |T - Quantity.T.si u t| ≤ Spec.PH.tol k → (RegionSelection.region_pT .ideal (.fin (Quantity.p.si u p)) (.fin T)).out = .ok k)
    (hc : Spec.PH.Clear b23 k (Quantity.p.si u p) (Quantity.T.si u t)) :
    ∃ h : ℝ, XSteam.h_pt .ideal u (.fin p) (.fin t) = pure (.fin h) ∧
      ((k = 5 → ∀ hm, Region5.h5_pT .ideal (.fin (Quantity.p.si u p)) (.fin 1673.15) = pure (.fin hm) → Quantity.h.si u h ≠ hm + 1) →
        ∃ t' : ℝ, (XSteam.t_ph .ideal u (.fin p) (.fin h)).out = .ok (.fin t') ∧
          |Quantity.T.si u t' - Quantity.T.si u t| ≤ Spec.PH.tol k ∧ SameAsPT u p h t') := by
  have hk : k = 1 ∨ k = 2 ∨ k = 5 := by
    rcases hc.2 with ⟨h, _⟩ | ⟨h, _⟩ | ⟨h, _⟩ <;> simp [h]
  have tp : 0 ≤ Spec.PH.tol k := by unfold Spec.PH.tol; split_ifs <;> norm_num
  have hr0 := hr (Quantity.T.si u t) (by rw [sub_self, abs_zero]; exact tp)
  obtain ⟨h, e1, e2⟩ := C53_agrees u p t k hr0 hc
  refine ⟨h, e1, fun h5 => ?_⟩
  obtain ⟨t', e3, d⟩ := C57_t_ph u p t h k hr0 hc (by rw [e1]; rfl) h5
  have e4 := hr _ d
  exact ⟨t', e3, d, C51_v_ph_units u p h t' k hk e2 e3 e4, C51_s_ph_units u p h t' k hk e2 e3 e4, C51_u_ph_units u p h t' k hk e2 e3 e4,
    C51_Cp_ph_units u p h t' k hk e2 e3 e4, C51_Cv_ph_units u p h t' k hk e2 e3 e4, C51_w_ph_units u p h t' k hk e2 e3 e4⟩

/-- C71: the same at `(p, s_pt (p, t))` -/
theorem C71_ps (u : UnitSystem) (p t s : ℝ) (k : ℤ)
    (hr : ∀ T : ℝ, |T - Quantity.T.si u t| ≤ Spec.PS.tol k → (RegionSelection.region_pT .ideal (.fin (Quantity.p.si u p)) (.fin T)).out = .ok k)
    (hs : (XSteam.s_pt .ideal u (.fin p) (.fin t)).out = .ok (.fin s))
    (hc : Spec.PS.Clear b23 k (Quantity.p.si u p) (Quantity.T.si u t) (Quantity.s.si u s)) :
    ∃ t' : ℝ, (XSteam.t_ps .ideal u (.fin p) (.fin s)).out = .ok (.fin t') ∧
      |Quantity.T.si u t' - Quantity.T.si u t| ≤ Spec.PS.tol k ∧ SameAsPTs u p s t' := by
  have hk : k = 1 ∨ k = 2 ∨ k = 5 := by
    rcases hc.2.2 with ⟨h, _⟩ | ⟨h, _⟩ | ⟨h, _⟩ <;> simp [h]
  have tp : 0 ≤ Spec.PS.tol k := by unfold Spec.PS.tol; split_ifs <;> norm_num
  have hr0 := hr (Quantity.T.si u t) (by rw [sub_self, abs_zero]; exact tp)
  have e2 := C54_agrees u p t s k hr0 hs hc
  obtain ⟨t', e3, d⟩ := C57_t_ps u p t s k hr0 hs hc
  have e4 := hr _ d
  exact ⟨t', e3, d, C51_v_ps_units u p s t' k hk e2 e3 e4, C51_h_ps_units u p s t' k hk e2 e3 e4, C51_u_ps_units u p s t' k hk e2 e3 e4,
    C51_Cp_ps_units u p s t' k hk e2 e3 e4, C51_Cv_ps_units u p s t' k hk e2 e3 e4, C51_w_ps_units u p s t' k hk e2 e3 e4⟩

/-! ## Region 3 -/

theorem h13_lt {p : ℝ} (h0 : 16.5292 ≤ p) (h1 : p ≤ 100) : gamma1.h p 623.15 < 1700 := by
  have l := liquid_623 h0 h1
  exact h1_of_eH1t l (barsL_sound barsLw_chain barsLt_ok l (by norm_num) (by norm_num; linarith) (by norm_num; linarith))

theorem h23_gt {p : ℝ} (h0 : 16.5292 ≤ p) (h1 : p ≤ 100) : 2500 < gamma2.h p (b23T p) := by
  obtain ⟨a, b, c, d⟩ := b23T_near h0 h1
  exact h2_of_eH2t (vapour_b23T h0 h1) (barsV_sound barsVm_chain barsVt_ok (by norm_num at a ⊢; linarith) (by norm_num at b ⊢; linarith) c d)

/-- C72: the enthalpies from 1700 to 2500 kJ/kg belong to region 3 from 22.064 MPa on -/
theorem C72_region {p h : ℝ} (h0 : 22.064 ≤ p) (h1 : p ≤ 100) (a : 1700 ≤ h) (b : h ≤ 2500) :
    (RegionSelection.region_ph .ideal (.fin p) (.fin h)).out = .ok 3 := by
  have p0 : 16.5292 ≤ p := by linarith
  have := h13_lt p0 h1
  have := h23_gt p0 h1
  have := (order_h p0 h1).1
  have := psH_lt (h := h) (by linarith) (by linarith)
  rw [region_ph_high p0 h1, Spec.High.byH, if_neg (by linarith), if_neg (by linarith), if_pos (by linarith), if_pos (by linarith)]

/-- C72: in every unit system, at the pressure and enthalpy of a state of region 3 given by density and temperature and classified
as such by `region_ph` (see C69), `t_ph` and `v_ph` return the temperature to within 25 mK and the volume to
within 0.01 %, and the other properties are those of the basic equation at the density and temperature returned -/
theorem C72_ph (u : UnitSystem) (p h ρ T : ℝ) (hs : Stable (Quantity.p.si u p) ρ T)
    (hp : Region3.p3_rhoT .ideal (.fin ρ) (.fin T) = pure (.fin (Quantity.p.si u p)))
    (hh : Region3.h3_rhoT .ideal (.fin ρ) (.fin T) = pure (.fin (Quantity.h.si u h)))
    (hr : (RegionSelection.region_ph .ideal (.fin (Quantity.p.si u p)) (.fin (Quantity.h.si u h))).out = .ok 3) :
    ∃ t v : ℝ, (XSteam.t_ph .ideal u (.fin p) (.fin h)).out = .ok (.fin t) ∧ |Quantity.T.si u t - T| ≤ 0.025 ∧
      (XSteam.v_ph .ideal u (.fin p) (.fin h)).out = .ok (.fin v) ∧ |Quantity.v.si u v * ρ - 1| ≤ 0.0001 ∧
      (XSteam.s_ph .ideal u (.fin p) (.fin h)).out =
        (Region3.s3_rhoT .ideal (.fin (1 / Quantity.v.si u v)) (.fin (Quantity.T.si u t)) >>= Quantity.s.fromSI .ideal u).out ∧
      (XSteam.u_ph .ideal u (.fin p) (.fin h)).out =
        (Region3.u3_rhoT .ideal (.fin (1 / Quantity.v.si u v)) (.fin (Quantity.T.si u t)) >>= Quantity.u.fromSI .ideal u).out ∧
      (XSteam.Cp_ph .ideal u (.fin p) (.fin h)).out =
        (Region3.Cp3_rhoT .ideal (.fin (1 / Quantity.v.si u v)) (.fin (Quantity.T.si u t)) >>= Quantity.Cp.fromSI .ideal u).out ∧
      (XSteam.Cv_ph .ideal u (.fin p) (.fin h)).out =
        (Region3.Cv3_rhoT .ideal (.fin (1 / Quantity.v.si u v)) (.fin (Quantity.T.si u t)) >>= Quantity.Cv.fromSI .ideal u).out ∧
      (XSteam.w_ph .ideal u (.fin p) (.fin h)).out =
        (Region3.w3_rhoT .ideal (.fin (1 / Quantity.v.si u v)) (.fin (Quantity.T.si u t)) >>= Quantity.w.fromSI .ideal u).out := by
  obtain ⟨h', T', e1, e2, d1⟩ := C62_T3_ph hs hp
  rw [hh] at e1
  cases e1
  obtain ⟨h', v', e1, e3, d2⟩ := C63_v3_ph hs hp
  rw [hh] at e1
  cases e1
  have hv : v' ≠ 0 := by
    rintro rfl
    norm_num at d2
  have g5 : Num.ofInt 1 = .fin 1 := by rw [ofInt_eq]; norm_num
  refine ⟨Quantity.T.user u T', Quantity.v.user u v', ?_, by rwa [Quantity.si_user], ?_, by rwa [Quantity.si_user], ?_, ?_, ?_, ?_, ?_⟩
  all_goals
    first | unfold XSteam.t_ph | unfold XSteam.v_ph | unfold XSteam.s_ph | unfold XSteam.u_ph | unfold XSteam.Cp_ph | unfold XSteam.Cv_ph | unfold XSteam.w_ph
    simp only [si, pure_bind]
    rw [out_eq hr]
    rw [if_neg (by norm_num), if_neg (by norm_num), if_pos rfl]
    simp only [e2, e3, pure_bind, si, g5, div_ideal hv, Quantity.si_user]
    rfl

/-- water at 1.5 times the critical density and the critical temperature, in bar and °C, meets the hypotheses of `C72_ph` -/
example : ∃ p h t v : ℝ, Region3.p3_rhoT .ideal (.fin 483) (.fin 647.096) = pure (.fin (Quantity.p.si .mks p)) ∧
    Region3.h3_rhoT .ideal (.fin 483) (.fin 647.096) = pure (.fin (Quantity.h.si .mks h)) ∧
    (XSteam.t_ph .ideal .mks (.fin p) (.fin h)).out = .ok (.fin t) ∧ |t - 373.946| ≤ 0.025 ∧
    (XSteam.v_ph .ideal .mks (.fin p) (.fin h)).out = .ok (.fin v) ∧ |v * 483 - 1| ≤ 0.0001 := by
  obtain ⟨p, hs, hp⟩ := stable_point
  obtain ⟨hf, e1, e2⟩ := stable_kernels hs hp
  have b1 : 22.064 ≤ p ∧ p < 60 := by
    rw [← e1, ← p3_eq (by norm_num) (by norm_num)]
    norm_num [Phi3.p, Phi3.φδ, dpoly, region3, region3Log, Term.d, ff, R]
  have b2 : 1700 ≤ Kron.h3 483 647.096 ∧ Kron.h3 483 647.096 ≤ 2500 := by
    rw [← h3_eq (by norm_num) (by norm_num)]
    norm_num [Phi3.h, Phi3.φδ, Phi3.φτ, dpoly, region3, region3Log, Term.d, ff, R]
  have u1 := Quantity.si_user .p .mks p
  have u2 := Quantity.si_user .h .mks (Kron.h3 483 647.096)
  obtain ⟨t, v, f1, f2, f3, f4, -⟩ := C72_ph .mks (Quantity.p.user .mks p) (Quantity.h.user .mks (Kron.h3 483 647.096)) 483 647.096
    (by rw [u1]; exact hs) (by rw [u1]; exact hp) (by rw [u2]; exact e2)
    (by rw [u1, u2]; exact C72_region b1.1 (by linarith) b2.1 b2.2)
  refine ⟨_, _, t, v, by rw [u1]; exact hp, by rw [u2]; exact e2, f1, ?_, f3, ?_⟩
  · rw [show t - 373.946 = Quantity.T.si .mks t - 647.096 by norm_num [Quantity.si, Quantity.scale, Quantity.offset]; ring]
    exact f2
  · rw [show v = Quantity.v.si .mks v by norm_num [Quantity.si, Quantity.scale, Quantity.offset]]
    exact f4

/-- liquid at 500 bar and 400 K, and steam at 10 MPa and 900 K: their neighbours are in the same region -/
example : (∃ h t' : ℝ, XSteam.h_pt .ideal .bare (.fin 50) (.fin 400) = pure (.fin h) ∧ |t' - 400| ≤ 0.025 ∧ SameAsPT .bare 50 h t') ∧
    ∃ s t' : ℝ, (XSteam.s_pt .ideal .bare (.fin 10) (.fin 900)).out = .ok (.fin s) ∧ |t' - 900| ≤ 0.04 ∧ SameAsPTs .bare 10 s t' := by
  have si1 : ∀ (q : Quantity) (x : ℝ), q.si .bare x = x := by
    intro q x
    cases q <;> norm_num [Quantity.si, Quantity.scale, Quantity.offset]
  constructor
  · obtain ⟨h, e1, e2⟩ := C71_ph .bare 50 400 1 (fun T hT => by
      rw [si1, abs_le] at hT
      rw [si1, C07_iff]
      norm_num [Spec.PH.tol] at hT
      have h := theta_box (T := T) (by linarith) (by linarith)
      have hs := psat_sat h.1 h.2.1 h.2.2
      have := hs.2.1
      refine .inr (.inr (.inl ⟨rfl, ⟨by linarith, by linarith, by norm_num, by norm_num⟩, by linarith, ?_, psat T, hs, by linarith⟩))
      rw [saturated_iff (by linarith) (by linarith), abs_of_nonneg (by linarith)]
      norm_num
      linarith) (by rw [si1, si1]; exact ⟨by norm_num, .inl ⟨rfl, .inr (by norm_num)⟩⟩)
    obtain ⟨t', -, d, e⟩ := e2 (fun h => absurd h (by norm_num))
    rw [si1, si1] at d
    exact ⟨h, t', e1, by simpa [Spec.PH.tol] using d, e⟩
  · have ks := (kernels_of_region (u := .bare) (p := 10) (t := 900) (.inr (.inl rfl)) (by rw [si1, si1]; exact region2_point)).2.2.1
    obtain ⟨t', -, d, e⟩ := C71_ps .bare 10 900 _ 2 (fun T hT => by
      rw [si1, abs_le] at hT
      rw [si1, C07_iff]
      norm_num [Spec.PS.tol] at hT
      have : 10 ≤ b23 T := by
        norm_num [b23]
        nlinarith
      exact .inr (.inr (.inr (.inr (.inl ⟨rfl, ⟨by linarith, by linarith, by norm_num, by norm_num⟩, by linarith, this⟩))))) (by rw [ks]; rfl) (by rw [si1, si1]; exact ⟨by norm_num, .inl (by norm_num), .inr (.inl ⟨rfl, .inl (by norm_num)⟩)⟩)
    rw [si1, si1] at d
    exact ⟨_, t', by rw [ks]; rfl, by simpa [Spec.PS.tol] using d, e⟩

end PyX
