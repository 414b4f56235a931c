import Verif.Lemmas.Sign1Det
import Verif.Lemmas.Sign2Det
import Verif.Lemmas.Sign5
import Verif.Props.ApiPotential

/-!
# C44, C47: volumes, heat capacities, compressibility and the speed of sound are positive in regions 1, 2 and 5

The signs of the polynomials of IAPWS-IF97 on the two-dimensional regions come from `Lemmas/Sign*`.
-/

namespace PyX

open Classical Py Num Spec Spec.IF97 Spec.PT Spec.Sat

/-! ## The regions of `region_pT` lie inside the domains of the sign theorems -/

theorem liquid_of_region1 {p T : ℝ} (h : InRegion 1 p T) : Kron.Liquid p T := by
  have : Box p T ∧ T ≤ 623.15 ∧ ∃ ps, Sat ps T ∧ ps < p := by
    rcases h with ⟨h, _⟩ | ⟨h, _⟩ | ⟨_, h⟩ | ⟨h, _⟩ | ⟨h, _⟩ | ⟨h, _⟩ | ⟨h, _⟩ | ⟨h, _⟩
    iterate 2 exact absurd h (by norm_num)
    · exact ⟨h.1, h.2.1, h.2.2.2⟩
    all_goals exact absurd h (by norm_num)
  obtain ⟨⟨a, b, c, d⟩, e, ps, hs, hp⟩ := this
  obtain ⟨_, t0, t1⟩ := theta_box a (by linarith)
  rw [sat_unique t0 (by linarith) hs] at hp
  exact ⟨d, a.le, by linarith, hp.le⟩

theorem vapour_of_region2 {p T : ℝ} (h : InRegion 2 p T) : Kron.Vapour p T := by
  obtain ⟨a, b, c, d⟩ := box_of_region2 h
  refine ⟨by linarith, d, a.le, b, fun hT => ?_, fun hT => ?_⟩
  · rcases h with ⟨h, _⟩ | ⟨h, _⟩ | ⟨h, _⟩ | ⟨_, h⟩ | ⟨_, h⟩ | ⟨h, _⟩ | ⟨h, _⟩ | ⟨h, _⟩
    iterate 3 exact absurd h (by norm_num)
    · obtain ⟨_, _, _, ps, hs, hp⟩ := h
      obtain ⟨_, t0, t1⟩ := theta_box a (by linarith)
      rw [sat_unique t0 (by linarith) hs] at hp
      exact hp.le
    · linarith [h.2.1]
    all_goals exact absurd h (by norm_num)
  · rcases h with ⟨h, _⟩ | ⟨h, _⟩ | ⟨h, _⟩ | ⟨_, h⟩ | ⟨_, h⟩ | ⟨h, _⟩ | ⟨h, _⟩ | ⟨h, _⟩
    iterate 3 exact absurd h (by norm_num)
    · linarith [h.2.1]
    · exact h.2.2
    all_goals exact absurd h (by norm_num)

/-- the equation of each region -/
noncomputable def gammaOf (k : ℤ) : Gamma := if k = 1 then gamma1 else if k = 2 then gamma2 else gamma5

theorem gammaOf_ps {k : ℤ} : 0 < (gammaOf k).ps := by
  unfold gammaOf; split_ifs <;> norm_num [gamma1, gamma2, gamma5]
theorem gammaOf_Ts {k : ℤ} : 0 < (gammaOf k).Ts := by
  unfold gammaOf; split_ifs <;> norm_num [gamma1, gamma2, gamma5]

theorem stable5 {p T : ℝ} (h0 : 0 < p) (h1 : p ≤ 50) (h2 : 1073.15 ≤ T) (h3 : T ≤ 2273.15) :
    gamma5.Stable p (1000 / T) := by
  have hT : 0 < T := by linarith
  have a1 : 1000 / 2273.15 ≤ 1000 / T := div_le_div_of_nonneg_left (by norm_num) hT h3
  have a2 : 1000 / T ≤ 1000 / 1073.15 := div_le_div_of_nonneg_left (by norm_num) (by norm_num) h2
  refine Kron.R5.stable h0 h1 ?_ ?_
  · norm_num at a1 ⊢; linarith
  · norm_num at a2 ⊢; linarith

theorem T_pos_of_region {k : ℤ} {p T : ℝ} (hk : k = 1 ∨ k = 2 ∨ k = 5) (h : InRegion k p T) : 0 < T := by
  rcases hk with rfl | rfl | rfl
  · linarith [(liquid_of_region1 h).T0]
  · linarith [(vapour_of_region2 h).T0]
  · linarith [(hot_of_region5 h).1]

/-- each region is stable -/
theorem stable_of_region {k : ℤ} {p T : ℝ} (hk : k = 1 ∨ k = 2 ∨ k = 5) (h : InRegion k p T) :
    (gammaOf k).Stable (p / (gammaOf k).ps) ((gammaOf k).Ts / T) := by
  rcases hk with rfl | rfl | rfl
  · exact Kron.R1.stable (liquid_of_region1 h)
  · have := Kron.R2.stable (vapour_of_region2 h)
    rw [← div_one p] at this
    exact this
  · obtain ⟨a, b, c, d⟩ := hot_of_region5 h
    have := stable5 (by linarith) d.le a.le b.le
    rw [← div_one p] at this
    exact this

/-! ## The results of the kernels -/

theorem pow_half_pos {a : ℝ} (h : 0 < a) : FP.ideal.pow (.fin a) (.fin 0.5) = pure (.fin (Real.sqrt a)) := by
  rw [pow_ideal_nonneg h.le (by norm_num), Real.sqrt_eq_rpow]; norm_num

namespace Gamma

variable {G : Gamma} {p T π τ c : ℝ}

theorem sound_run (hs : G.Stable (p / G.ps) (G.Ts / T)) (hTs : 0 < G.Ts) (hT : 0 < T) (hπ : p / G.ps = π)
    (hτ : G.Ts / T = τ) : (do
      let q ← FP.ideal.div (.fin ((G.gp π τ - τ * G.gpt π τ) ^ 2)) (.fin (τ ^ 2 * G.gtt π τ))
      let r ← FP.ideal.div (.fin (1000 * R * T * G.gp π τ ^ 2)) (FP.ideal.sub q (.fin (G.gpp π τ)))
      FP.ideal.pow r (.fin 0.5) : Py Num) = pure (.fin (Real.sqrt (G.w2 p T))) := by
  have h0 : 0 < G.Ts / T := div_pos hTs hT
  have hd := sound_denom hs h0
  have hw := w2_pos hs hTs hT
  have hg := hs.gtt
  subst hπ hτ
  rw [div_ideal (mul_ne_zero (pow_ne_zero 2 h0.ne') hg.ne), pure_bind, sub_ideal, div_ideal hd.ne', pure_bind]
  exact pow_half_pos hw

theorem sound_run' (hs : G.Stable (p / G.ps) (G.Ts / T)) (hTs : 0 < G.Ts) (hT : 0 < T) (hπ : p / G.ps = π)
    (hτ : G.Ts / T = τ) (hc : c ≠ 0) : (do
      let q ← FP.ideal.div (.fin (c ^ 2 * (G.gp π τ - τ * G.gpt π τ) ^ 2)) (.fin (τ ^ 2 * G.gtt π τ))
      let r ← FP.ideal.div (.fin (1000 * R * T * (c ^ 2 * G.gp π τ ^ 2)))
        (FP.ideal.add (.fin (-(c ^ 2 * G.gpp π τ))) q)
      FP.ideal.pow r (.fin 0.5) : Py Num) = pure (.fin (Real.sqrt (G.w2 p T))) := by
  have h0 : 0 < G.Ts / T := div_pos hTs hT
  have hd := sound_denom hs h0
  have hw := w2_pos hs hTs hT
  have hg := hs.gtt
  subst hπ hτ
  have hz := mul_ne_zero (pow_ne_zero 2 h0.ne') hg.ne
  have e : -(c ^ 2 * G.gpp (p / G.ps) (G.Ts / T)) +
      c ^ 2 * (G.gp (p / G.ps) (G.Ts / T) - G.Ts / T * G.gpt (p / G.ps) (G.Ts / T)) ^ 2 /
        ((G.Ts / T) ^ 2 * G.gtt (p / G.ps) (G.Ts / T)) =
      c ^ 2 * ((G.gp (p / G.ps) (G.Ts / T) - G.Ts / T * G.gpt (p / G.ps) (G.Ts / T)) ^ 2 /
        ((G.Ts / T) ^ 2 * G.gtt (p / G.ps) (G.Ts / T)) - G.gpp (p / G.ps) (G.Ts / T)) := by ring
  rw [div_ideal hz, pure_bind, add_ideal, e, div_ideal (mul_ne_zero (pow_ne_zero 2 hc) hd.ne'), pure_bind,
    show 1000 * R * T * (c ^ 2 * G.gp (p / G.ps) (G.Ts / T) ^ 2) =
    c ^ 2 * (1000 * R * T * G.gp (p / G.ps) (G.Ts / T) ^ 2) by ring, mul_div_mul_left _ _ (pow_ne_zero 2 hc)]
  exact pow_half_pos hw

end Gamma

/-- the seven properties of a region in SI units -/
theorem kernels_of_region {k : ℤ} {u : UnitSystem} {p t : ℝ} (hk : k = 1 ∨ k = 2 ∨ k = 5)
    (hr : InRegion k (Quantity.p.si u p) (Quantity.T.si u t)) :
    let P := Quantity.p.si u p
    let T := Quantity.T.si u t
    let G := gammaOf k
    XSteam.v_pt .ideal u (.fin p) (.fin t) = pure (.fin (Quantity.v.user u (G.v P T))) ∧
    XSteam.h_pt .ideal u (.fin p) (.fin t) = pure (.fin (Quantity.h.user u (G.h P T))) ∧
    XSteam.s_pt .ideal u (.fin p) (.fin t) = pure (.fin (Quantity.s.user u (G.s P T))) ∧
    XSteam.u_pt .ideal u (.fin p) (.fin t) = pure (.fin (Quantity.u.user u (G.u P T))) ∧
    XSteam.Cp_pt .ideal u (.fin p) (.fin t) = pure (.fin (Quantity.Cp.user u (G.cp P T))) ∧
    XSteam.Cv_pt .ideal u (.fin p) (.fin t) = pure (.fin (Quantity.Cv.user u (G.cv P T))) ∧
    XSteam.w_pt .ideal u (.fin p) (.fin t) = pure (.fin (Quantity.w.user u (Real.sqrt (G.w2 P T)))) := by
  intro P T G
  have hreg := region_pT_pure hr (by rintro rfl; revert hk; norm_num)
  have hT := T_pos_of_region hk hr
  have hs := stable_of_region hk hr
  have hpp := hs.gpp
  have hcv := (Gamma.cv_pos hs).ne'
  unfold XSteam.v_pt XSteam.h_pt XSteam.s_pt XSteam.u_pt XSteam.Cp_pt XSteam.Cv_pt XSteam.w_pt
  simp only [si, pure_bind, hreg]
  rcases hk with rfl | rfl | rfl
  · have d := dom1_of_region hr
    have hG : G = gamma1 := rfl
    have hw := (w1_pT_eq d).trans (Gamma.sound_run (G := gamma1) hs (by norm_num [gamma1]) hT rfl rfl)
    have hc := (Cv1_pT_eq d).trans (if_neg hpp.ne)
    simp only [if_true, v1_pT_eq d, h1_pT_eq d, s1_pT_eq d, u1_pT_eq d, Cp1_pT_eq d, hc, hw, pure_bind, si, hG,
      P, T, and_self]
  · have d := dom2_of_region hr
    have hG : G = gamma2 := rfl
    have e : P / gamma2.ps = P := by simp [gamma2]
    have hw := (w2_pT_eq d).trans
      (Gamma.sound_run' (G := gamma2) (p := P) hs (by norm_num [gamma2]) hT e rfl d.hp.ne')
    have hc := Cv2_pT_eq d
    rw [if_neg (by have := hpp.ne; rwa [show P / (gammaOf 2).ps = P from e] at this)] at hc
    simp only [show ¬ ((2 : ℤ) = 1) by norm_num, if_true, if_false, v2_pT_eq d, h2_pT_eq d, s2_pT_eq d, u2_pT_eq d,
      Cp2_pT_eq d, hc, hw, pure_bind, si, hG, P, T, and_self]
  · have d := dom5_of_region hr
    have hG : G = gamma5 := rfl
    have e : P / gamma5.ps = P := by simp [gamma5]
    have hw := (w5_pT_eq d).trans
      (Gamma.sound_run' (G := gamma5) (p := P) hs (by norm_num [gamma5]) hT e rfl d.hp.ne')
    have hc := Cv5_pT_eq d
    rw [if_neg (by have := hpp.ne; rwa [show P / (gammaOf 5).ps = P from e] at this)] at hc
    simp only [show ¬ ((5 : ℤ) = 1) by norm_num, show ¬ ((5 : ℤ) = 2) by norm_num, show ¬ ((5 : ℤ) = 3) by norm_num,
      show ¬ ((5 : ℤ) = 4) by norm_num, if_true, if_false, v5_pT_eq d, h5_pT_eq d, s5_pT_eq d, u5_pT_eq d,
      Cp5_pT_eq d, hc, hw, pure_bind, si, hG, P, T, and_self]

theorem user_pos {q : Quantity} (h : ∀ u, q.offset u = 0) (u : UnitSystem) {x : ℝ} (hx : 0 < x) : 0 < q.user u x := by
  simp only [Quantity.user, h u, sub_zero]
  exact div_pos hx (q.scale_pos u)

/-- C44: in the regions 1, 2 and 5 `v_pt` and `rho_pt` return positive numbers, in every unit system -/
theorem C44_positive_volume (u : UnitSystem) (k : ℤ) (p t : ℝ) (hk : k = 1 ∨ k = 2 ∨ k = 5)
    (hr : InRegion k (Quantity.p.si u p) (Quantity.T.si u t)) :
    ∃ v, XSteam.v_pt .ideal u (.fin p) (.fin t) = pure (.fin v) ∧ 0 < v ∧
      XSteam.rho_pt .ideal u (.fin p) (.fin t) = pure (.fin (1 / v)) := by
  obtain ⟨hv, -⟩ := kernels_of_region hk hr
  have hpos := Gamma.v_pos (stable_of_region hk hr).gp gammaOf_ps (T_pos_of_region hk hr)
  have hu : 0 < Quantity.v.user u ((gammaOf k).v (Quantity.p.si u p) (Quantity.T.si u t)) :=
    user_pos (fun u => by cases u <;> rfl) u hpos
  refine ⟨_, hv, hu, ?_⟩
  unfold XSteam.rho_pt
  rw [hv, pure_bind, ofInt_eq, Int.cast_one, div_ideal hu.ne']

/-- C47: in the regions 1, 2 and 5 `Cp_pt`, `Cv_pt` and `w_pt` return numbers with `0 < cv ≤ cp` and `0 < w`,
in every unit system -/
theorem C47_heat_capacities (u : UnitSystem) (k : ℤ) (p t : ℝ) (hk : k = 1 ∨ k = 2 ∨ k = 5)
    (hr : InRegion k (Quantity.p.si u p) (Quantity.T.si u t)) :
    ∃ cp cv w, XSteam.Cp_pt .ideal u (.fin p) (.fin t) = pure (.fin cp) ∧
      XSteam.Cv_pt .ideal u (.fin p) (.fin t) = pure (.fin cv) ∧
      XSteam.w_pt .ideal u (.fin p) (.fin t) = pure (.fin w) ∧ 0 < cv ∧ cv ≤ cp ∧ 0 < w := by
  obtain ⟨-, -, -, -, hcp, hcv, hw⟩ := kernels_of_region hk hr
  have hs := stable_of_region hk hr
  have hT := T_pos_of_region hk hr
  refine ⟨_, _, _, hcp, hcv, hw, user_pos (fun u => by cases u <;> rfl) u (Gamma.cv_pos hs), ?_,
    user_pos (fun u => by cases u <;> rfl) u (Real.sqrt_pos.2 (Gamma.w2_pos hs gammaOf_Ts hT))⟩
  have hle : (gammaOf k).cv (Quantity.p.si u p) (Quantity.T.si u t) ≤
      (gammaOf k).cp (Quantity.p.si u p) (Quantity.T.si u t) := by
    have := (Gamma.isochoric gammaOf_ps.ne' hT.ne' hs.gpp.ne).2
    have h2 := Gamma.vp_neg hs.gpp gammaOf_ps hT
    have h3 : 1000 * Quantity.T.si u t * (gammaOf k).vT (Quantity.p.si u p) (Quantity.T.si u t) ^ 2 /
        (gammaOf k).vp (Quantity.p.si u p) (Quantity.T.si u t) ≤ 0 :=
      div_nonpos_of_nonneg_of_nonpos (by positivity) h2.le
    linarith
  have e : ∀ x, Quantity.Cv.user u x = Quantity.Cp.user u x := fun x => by cases u <;> rfl
  rw [e]
  exact (Quantity.Cp.user_strictMono u).monotone hle

theorem region2_point : InRegion 2 10 900 := by
  refine .inr (.inr (.inr (.inr (.inl ⟨rfl, ?_, ?_, ?_⟩)))) <;> norm_num [Box, b23]
theorem region5_point : InRegion 5 1 1200 := .inr (.inl ⟨rfl, by norm_num [Hot]⟩)

/-- at 500 bar and 126.85 °C (region 1), and at 10 MPa and 900 K (region 2), 1 MPa and 1200 K (region 5) -/
example : ∃ v, XSteam.v_pt .ideal .mks (.fin 500) (.fin 126.85) = pure (.fin v) ∧ 0 < v := by
  have hp : Quantity.p.si .mks 500 = 50 := by norm_num [Quantity.si, Quantity.scale, Quantity.offset]
  have ht : Quantity.T.si .mks 126.85 = 400 := by norm_num [Quantity.si, Quantity.scale, Quantity.offset]
  obtain ⟨v, a, b, -⟩ := C44_positive_volume .mks 1 500 126.85 (.inl rfl) (by rw [hp, ht]; exact region1_point)
  exact ⟨v, a, b⟩
example : ∃ v, XSteam.v_pt .ideal .bare (.fin 10) (.fin 900) = pure (.fin v) ∧ 0 < v := by
  obtain ⟨v, a, b, -⟩ := C44_positive_volume .bare 2 10 900 (.inr (.inl rfl)) (by simpa using region2_point)
  exact ⟨v, a, b⟩
example : ∃ w, XSteam.w_pt .ideal .bare (.fin 1) (.fin 1200) = pure (.fin w) ∧ 0 < w := by
  obtain ⟨_, _, w, -, -, a, -, -, b⟩ := C47_heat_capacities .bare 5 1 1200 (.inr (.inr rfl)) (by simpa using region5_point)
  exact ⟨w, a, b⟩

end PyX
