import Verif.Props.Correlations
import Verif.Props.RegionPH

/-!
# C67: the two phases at saturation, below 16.529 MPa

The saturated liquid and the saturated vapour are stable states of the equations of region 1 and region 2.
-/

namespace PyX

open Py Num _root_.Spec Spec.IF97 Spec.PT Spec.Sat Kron

variable {p : ℝ}

private theorem g1 : FP.ideal.lit 0.000611657 = .fin 0.000611657 := by rw [lit_ideal]; norm_num
private theorem g2 : FP.ideal.lit 22.06395 = .fin 22.06395 := by rw [lit_ideal]; norm_num
private theorem g4 : FP.ideal.lit 16.529 = .fin 16.529 := by rw [lit_ideal]; norm_num

theorem cv_le_cp {G : Gamma} {p T : ℝ} (hs : G.Stable (p / G.ps) (G.Ts / T)) (hps : 0 < G.ps) (hT : 0 < T) : G.cv p T ≤ G.cp p T := by
  have := (Gamma.isochoric hps.ne' hT.ne' hs.gpp.ne).2
  have h2 := Gamma.vp_neg hs.gpp hps hT
  have h3 : 1000 * T * G.vT p T ^ 2 / G.vp p T ≤ 0 := div_nonpos_of_nonneg_of_nonpos (by positivity) h2.le
  linarith

/-- the kernels of the two phases -/
theorem kernels_sat (h0 : 0.000611657 < p) (h1 : p < 16.529) :
    Region1.v1_pT .ideal (.fin p) (.fin (tsat p)) = pure (.fin (gamma1.v p (tsat p))) ∧
    Region1.s1_pT .ideal (.fin p) (.fin (tsat p)) = pure (.fin (gamma1.s p (tsat p))) ∧
    Region1.Cp1_pT .ideal (.fin p) (.fin (tsat p)) = pure (.fin (gamma1.cp p (tsat p))) ∧
    Region1.Cv1_pT .ideal (.fin p) (.fin (tsat p)) = pure (.fin (gamma1.cv p (tsat p))) ∧
    Region1.w1_pT .ideal (.fin p) (.fin (tsat p)) = pure (.fin (Real.sqrt (gamma1.w2 p (tsat p)))) ∧
    Region2.v2_pT .ideal (.fin p) (.fin (tsat p)) = pure (.fin (gamma2.v p (tsat p))) ∧
    Region2.s2_pT .ideal (.fin p) (.fin (tsat p)) = pure (.fin (gamma2.s p (tsat p))) ∧
    Region2.Cp2_pT .ideal (.fin p) (.fin (tsat p)) = pure (.fin (gamma2.cp p (tsat p))) ∧
    Region2.Cv2_pT .ideal (.fin p) (.fin (tsat p)) = pure (.fin (gamma2.cv p (tsat p))) ∧
    Region2.w2_pT .ideal (.fin p) (.fin (tsat p)) = pure (.fin (Real.sqrt (gamma2.w2 p (tsat p)))) := by
  have hl := liquid_sat h0 (by linarith)
  have hv := vapour_sat h0 (by linarith)
  have hT : 0 < tsat p := by linarith [hl.T0]
  have d1 := dom1_of_liquid (by linarith) hl
  have d2 := dom2_of_vapour hv
  have s1 := R1.stable hl
  have s2 := stable2 hv
  have e : p / gamma2.ps = p := by simp [gamma2]
  have hc := Cv2_pT_eq d2
  rw [if_neg (by have := s2.gpp.ne; rwa [e] at this)] at hc
  exact ⟨v1_pT_eq d1, s1_pT_eq d1, Cp1_pT_eq d1, (Cv1_pT_eq d1).trans (if_neg s1.gpp.ne),
    (w1_pT_eq d1).trans (Gamma.sound_run (G := gamma1) s1 (by norm_num [gamma1]) hT rfl rfl),
    v2_pT_eq d2, s2_pT_eq d2, Cp2_pT_eq d2, hc,
    (w2_pT_eq d2).trans (Gamma.sound_run' (G := gamma2) (p := p) s2 (by norm_num [gamma2]) hT e rfl d2.hp.ne')⟩

/-- C67: below 16.529 MPa the saturated vapour has the larger enthalpy and entropy -/
theorem C67_latent_heat (u : UnitSystem) (p : ℝ) (h0 : 0.000611657 < Quantity.p.si u p) (h1 : Quantity.p.si u p < 16.529) :
    ∃ hL hV sL sV : ℝ, XSteam.hL_p .ideal u (.fin p) = pure (.fin hL) ∧ XSteam.hV_p .ideal u (.fin p) = pure (.fin hV) ∧
      XSteam.sL_p .ideal u (.fin p) = pure (.fin sL) ∧ XSteam.sV_p .ideal u (.fin p) = pure (.fin sV) ∧ hL < hV ∧ sL < sV := by
  have h2 : Quantity.p.si u p < 22.06395 := by linarith
  obtain ⟨-, b, -, -, -, -, b', -⟩ := kernels_sat h0 h1
  have hl := liquid_sat h0 (by linarith)
  have hv := vapour_sat h0 (by linarith)
  have hT : tsat (Quantity.p.si u p) ≤ 623.15 := (tsat_lt h0 h2 (by norm_num) (by linarith [psat_62315])).le
  have l := liquid_low hl hT h0
  have v := vapour_high hv h0
  unfold XSteam.hL_p XSteam.hV_p XSteam.sL_p XSteam.sV_p
  simp only [si, pure_bind, g1, g2, g4, gt_num, fin_lt, if_pos (And.intro h0 h2), if_pos h1, h4L_p_low h0 h1, h4V_p_low h0 h1,
    T4_p_eq h0 h2, b, b']
  exact ⟨_, _, _, _, rfl, rfl, rfl, rfl, Quantity.h.user_strictMono u (l.1.trans v.1), Quantity.s.user_strictMono u (l.2.trans v.2)⟩

/-- C67: below 16.529 MPa volumes, heat capacities and speeds of sound of both phases are positive, and `cv ≤ cp` -/
theorem C67_phases (u : UnitSystem) (p : ℝ) (h0 : 0.000611657 < Quantity.p.si u p) (h1 : Quantity.p.si u p < 16.529) :
    ∃ vL vV cpL cpV cvL cvV wL wV : ℝ,
      XSteam.vL_p .ideal u (.fin p) = pure (.fin vL) ∧ XSteam.vV_p .ideal u (.fin p) = pure (.fin vV) ∧ 0 < vL ∧ 0 < vV ∧
      XSteam.CpL_p .ideal u (.fin p) = pure (.fin cpL) ∧ XSteam.CpV_p .ideal u (.fin p) = pure (.fin cpV) ∧
      XSteam.CvL_p .ideal u (.fin p) = pure (.fin cvL) ∧ XSteam.CvV_p .ideal u (.fin p) = pure (.fin cvV) ∧
      0 < cvL ∧ cvL ≤ cpL ∧ 0 < cvV ∧ cvV ≤ cpV ∧
      XSteam.wL_p .ideal u (.fin p) = pure (.fin wL) ∧ XSteam.wV_p .ideal u (.fin p) = pure (.fin wV) ∧ 0 < wL ∧ 0 < wV := by
  have h2 : Quantity.p.si u p < 22.06395 := by linarith
  obtain ⟨a1, -, a2, a3, a4, b1, -, b2, b3, b4⟩ := kernels_sat h0 h1
  have hl := liquid_sat h0 (by linarith)
  have hv := vapour_sat h0 (by linarith)
  have hT : 0 < tsat (Quantity.p.si u p) := by linarith [hl.T0]
  have s1 := R1.stable hl
  have s2 := stable2 hv
  have e : ∀ x, Quantity.Cv.user u x = Quantity.Cp.user u x := fun x => by cases u <;> rfl
  unfold XSteam.vL_p XSteam.vV_p XSteam.CpL_p XSteam.CpV_p XSteam.CvL_p XSteam.CvV_p XSteam.wL_p XSteam.wV_p
  simp only [si, pure_bind, g1, g2, g4, gt_num, fin_lt, if_pos (And.intro h0 h2), if_pos h1, T4_p_eq h0 h2,
    a1, a2, a3, a4, b1, b2, b3, b4, e]
  have pos : ∀ (q : Quantity) {x : ℝ}, (∀ u, q.offset u = 0) → 0 < x → 0 < q.user u x := fun q x h => user_pos h u
  have z1 := pos .v (fun u => by cases u <;> rfl) (Gamma.v_pos s1.gp (by norm_num [gamma1]) hT)
  have z2 := pos .v (fun u => by cases u <;> rfl) (Gamma.v_pos s2.gp (by norm_num [gamma2]) hT)
  have z3 := pos .Cp (fun u => by cases u <;> rfl) (Gamma.cv_pos s1)
  have z4 := pos .Cp (fun u => by cases u <;> rfl) (Gamma.cv_pos s2)
  have z5 := pos .w (fun u => by cases u <;> rfl) (Real.sqrt_pos.2 (Gamma.w2_pos s1 (by norm_num [gamma1]) hT))
  have z6 := pos .w (fun u => by cases u <;> rfl) (Real.sqrt_pos.2 (Gamma.w2_pos s2 (by norm_num [gamma2]) hT))
  exact ⟨_, _, _, _, _, _, _, _, rfl, rfl, z1, z2, rfl, rfl, rfl, rfl, z3,
    (Quantity.Cp.user_strictMono u).monotone (cv_le_cp s1 (by norm_num [gamma1]) hT), z4,
    (Quantity.Cp.user_strictMono u).monotone (cv_le_cp s2 (by norm_num [gamma2]) hT), rfl, rfl, z5, z6⟩

/-- C67: and so are their thermal conductivities, which are those of the correlation -/
theorem C67_conductivity (u : UnitSystem) (p : ℝ) (h0 : 0.000611657 < Quantity.p.si u p) (h1 : Quantity.p.si u p < 16.529) :
    ∃ t vL vV tcL tcV : ℝ, (XSteam.tsat_p .ideal u (.fin p)).out = .ok (.fin t) ∧
      (XSteam.vL_p .ideal u (.fin p)).out = .ok (.fin vL) ∧ (XSteam.vV_p .ideal u (.fin p)).out = .ok (.fin vV) ∧
      (XSteam.tcL_p .ideal u (.fin p)).out = .ok (.fin tcL) ∧ (XSteam.tcV_p .ideal u (.fin p)).out = .ok (.fin tcV) ∧
      0 < tcL ∧ 0 < tcV ∧
      Quantity.tc.si u tcL = Spec.Transport.lam (1 / Quantity.v.si u vL) (Quantity.T.si u t) ∧
      Quantity.tc.si u tcV = Spec.Transport.lam (1 / Quantity.v.si u vV) (Quantity.T.si u t) := by
  have h2 : Quantity.p.si u p < 22.06395 := by linarith
  have hl := liquid_sat h0 (by linarith)
  obtain ⟨vL, vV, -, -, -, -, -, -, e1, e2, p1, p2, -⟩ := C67_phases u p h0 h1
  have ht : (XSteam.tsat_p .ideal u (.fin p)).out = .ok (.fin (Quantity.T.user u (tsat (Quantity.p.si u p)))) := by
    unfold XSteam.tsat_p
    simp only [si, pure_bind, g1, g2, gt_num, fin_lt, if_pos (And.intro h0 h2), T4_p_eq h0 h2]
    rfl
  have e := Quantity.si_user .T u (tsat (Quantity.p.si u p))
  have hlim : Quantity.p.si u p ≤ tcLimit (tsat (Quantity.p.si u p)) := by unfold tcLimit; split_ifs <;> linarith
  obtain ⟨x, a, b, c⟩ := C65_tcL_p u p _ vL ht (by rw [e1]; rfl) p1 (by rw [e]; exact hl.T0) (by rw [e]; linarith [hl.T1])
    (by rw [e]; exact hlim)
  obtain ⟨y, a', b', c'⟩ := C65_tcV_p u p _ vV ht (by rw [e2]; rfl) p2 (by rw [e]; exact hl.T0) (by rw [e]; linarith [hl.T1])
    (by rw [e]; exact hlim)
  exact ⟨_, vL, vV, x, y, ht, by rw [e1]; rfl, by rw [e2]; rfl, a, a', b, b', c, c'⟩

/-- 10 bar meets the hypotheses -/
example : ∃ hL hV : ℝ, XSteam.hL_p .ideal .mks (.fin 10) = pure (.fin hL) ∧ XSteam.hV_p .ideal .mks (.fin 10) = pure (.fin hV) ∧ hL < hV := by
  have hp : Quantity.p.si .mks 10 = 1 := by norm_num [Quantity.si, Quantity.scale, Quantity.offset]
  obtain ⟨a, b, -, -, c, d, -, -, e, -⟩ := C67_latent_heat .mks 10 (by rw [hp]; norm_num) (by rw [hp]; norm_num)
  exact ⟨a, b, c, d, e⟩

end PyX
