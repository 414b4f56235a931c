import Verif.Props.Monotone
import Verif.Spec.Slopes

/-!
# C82: the slopes of the numbers returned
-/

namespace PyX

open Classical Py Num Spec Spec.IF97 Spec.PT Spec.Sat

namespace Gamma

variable {G : Gamma} {p T : ℝ}

theorem At.sp (h : G.At (p / G.ps) (G.Ts / T)) (hps : G.ps ≠ 0)
    (htp : HasDerivAt (fun π => G.gt π (G.Ts / T)) (G.gpt (p / G.ps) (G.Ts / T)) (p / G.ps)) :
    HasDerivAt (fun p => G.s p T) (-(1000 * G.vT p T)) p := by
  have d : HasDerivAt (fun p => p / G.ps) (1 / G.ps) p := (hasDerivAt_id p).div_const G.ps
  have := (((htp.comp p d).const_mul (G.Ts / T)).sub (h.p.comp p d)).const_mul R
  refine this.congr_deriv ?_
  simp only [Gamma.vT]
  field_simp
  ring

theorem At.hp (hps : G.ps ≠ 0) (hT : T ≠ 0)
    (htp : HasDerivAt (fun π => G.gt π (G.Ts / T)) (G.gpt (p / G.ps) (G.Ts / T)) (p / G.ps)) :
    HasDerivAt (fun p => G.h p T) (1000 * (G.v p T - T * G.vT p T)) p := by
  have d : HasDerivAt (fun p => p / G.ps) (1 / G.ps) p := (hasDerivAt_id p).div_const G.ps
  have := (htp.comp p d).const_mul (R * G.Ts)
  refine this.congr_deriv ?_
  simp only [Gamma.vT, Gamma.v]
  field_simp
  ring

end Gamma

theorem at_of_region {k : ℤ} {p T : ℝ} (hk : k = 1 ∨ k = 2 ∨ k = 5) (h : InRegion k p T) :
    (gammaOf k).At (p / (gammaOf k).ps) ((gammaOf k).Ts / T) ∧
      HasDerivAt (fun π => (gammaOf k).gt π ((gammaOf k).Ts / T)) ((gammaOf k).gpt (p / (gammaOf k).ps) ((gammaOf k).Ts / T))
        (p / (gammaOf k).ps) := by
  have hT := T_pos_of_region hk h
  rcases hk with rfl | rfl | rfl
  · have d := dom1_of_region h
    refine ⟨gamma1_at (by exact d.hx) (by exact d.hy), ?_⟩
    exact (dpoly_x region1 0 1 _ d.hx).comp_const_sub 7.1 _
  · have d := dom2_of_region h
    have hp : p / 1 ≠ 0 := by rw [div_one]; exact d.hp.ne'
    refine ⟨gamma2_at (by exact hp) (div_pos gammaOf_Ts hT).ne' (by exact d.hy), ?_⟩
    exact (dpoly_x region2 0 1 _ hp).const_add _
  · have d := dom5_of_region h
    have hp : p / 1 ≠ 0 := by rw [div_one]; exact d.hp.ne'
    refine ⟨gamma5_at (by exact hp) (div_pos gammaOf_Ts hT).ne', ?_⟩
    exact (dpoly_x region5 0 1 _ hp).const_add _

/-- the number returned by a call, 0 if there is none -/
noncomputable def number (r : Py Num) : ℝ := match r.out with
  | .ok (.fin x) => x
  | _ => 0

/-- a call at `(p, t)` in SI units: the number returned as a function of MPa and K -/
noncomputable def siCall (q : Quantity) (f : FP → UnitSystem → Num → Num → Py Num) (u : UnitSystem) (p T : ℝ) : ℝ :=
  q.si u (number (f .ideal u (.fin (Quantity.p.user u p)) (.fin (Quantity.T.user u T))))

theorem siCall_eq {q : Quantity} {f : FP → UnitSystem → Num → Num → Py Num} {u : UnitSystem} {p T x : ℝ}
    (h : f .ideal u (.fin (Quantity.p.user u p)) (.fin (Quantity.T.user u T)) = pure (.fin (q.user u x))) : siCall q f u p T = x := by
  rw [siCall, h]
  exact Quantity.si_user q u x

/-- C82: in the regions 1, 2 and 5 and in every unit system `Cp_pt` is the slope of `h_pt` with the temperature and `T` times the
slope of `s_pt`; the slopes of `s_pt` and `h_pt` with the pressure follow from those of `v_pt`, and so do `Cv_pt` and `w_pt` -/
theorem C82_slopes (u : UnitSystem) (k : ℤ) (p T : ℝ) (hk : k = 1 ∨ k = 2 ∨ k = 5) (hr : InRegion k p T) :
    Slopes (InRegion k) (siCall .v XSteam.v_pt u) (siCall .h XSteam.h_pt u) (siCall .s XSteam.s_pt u)
      (siCall .Cp XSteam.Cp_pt u p T) (siCall .Cv XSteam.Cv_pt u p T) (siCall .w XSteam.w_pt u p T) p T := by
  have K : ∀ {p T : ℝ}, InRegion k p T → siCall .v XSteam.v_pt u p T = (gammaOf k).v p T ∧ siCall .h XSteam.h_pt u p T = (gammaOf k).h p T ∧
      siCall .s XSteam.s_pt u p T = (gammaOf k).s p T ∧ siCall .Cp XSteam.Cp_pt u p T = (gammaOf k).cp p T ∧
      siCall .Cv XSteam.Cv_pt u p T = (gammaOf k).cv p T ∧ siCall .w XSteam.w_pt u p T = Real.sqrt ((gammaOf k).w2 p T) := by
    intro p T hr
    have := kernels_of_region (u := u) (p := Quantity.p.user u p) (t := Quantity.T.user u T) hk (by rwa [Quantity.si_user, Quantity.si_user])
    simp only [Quantity.si_user] at this
    obtain ⟨a, b, c, -, d, e, f⟩ := this
    exact ⟨siCall_eq a, siCall_eq b, siCall_eq c, siCall_eq d, siCall_eq e, siCall_eq f⟩
  obtain ⟨-, -, -, ec, ev, ew⟩ := K hr
  obtain ⟨ha, htp⟩ := at_of_region hk hr
  have hT := T_pos_of_region hk hr
  have hs := stable_of_region hk hr
  have hps := gammaOf_ps (k := k)
  have hTs := gammaOf_Ts (k := k)
  have hvp : (gammaOf k).vp p T < 0 := Gamma.vp_neg hs.gpp hps hT
  have hiso := (Gamma.isochoric hps.ne' hT.ne' hs.gpp.ne).2
  have hw := Gamma.w2_pos hs hTs hT
  have h0 : 0 < (gammaOf k).Ts / T := div_pos hTs hT
  have hsound := Gamma.sound hps.ne' hTs.ne' hT.ne' hs.gtt.ne (Gamma.sound_denom hs h0).ne' (Real.sqrt_nonneg _) (Real.sq_sqrt hw.le)
  have hcv := Gamma.cv_pos hs
  rw [ec, ev, ew]
  refine ⟨?_, ?_, (gammaOf k).vp p T, (gammaOf k).vT p T, ?_, ?_, ?_, ?_, hvp, hiso, Real.sqrt_pos.2 hw, ?_⟩
  · exact (ha.gibbs hps.ne' hT.ne').heat.hasDerivWithinAt.congr (fun y hy => (K hy).2.1) (K hr).2.1
  · exact (ha.sT hT.ne').hasDerivWithinAt.congr (fun y hy => (K hy).2.2.1) (K hr).2.2.1
  · exact (ha.vp hps.ne').hasDerivWithinAt.congr (fun y hy => (K hy).1) (K hr).1
  · exact (ha.vT hT.ne').hasDerivWithinAt.congr (fun y hy => (K hy).1) (K hr).1
  · exact (ha.sp hps.ne' htp).hasDerivWithinAt.congr (fun y hy => (K hy).2.2.1) (K hr).2.2.1
  · rw [(K hr).1]
    exact (Gamma.At.hp hps.ne' hT.ne' htp).hasDerivWithinAt.congr (fun y hy => (K hy).2.1) (K hr).2.1
  · rw [(K hr).1]
    obtain ⟨-, hcp, hs2⟩ := hsound
    have e : -(gammaOf k).vp p T - 1000 * T * (gammaOf k).vT p T ^ 2 / (gammaOf k).cp p T =
        -((gammaOf k).vp p T * (gammaOf k).cv p T / (gammaOf k).cp p T) := by
      have : (gammaOf k).cv p T = (gammaOf k).cp p T + 1000 * T * (gammaOf k).vT p T ^ 2 / (gammaOf k).vp p T := by linarith
      rw [this]
      have := hvp.ne
      field_simp
      ring
    rw [e] at hs2
    have := hvp.ne
    have := hcv.ne'
    field_simp at hs2 ⊢
    linarith

/-- C82: in the user's units, inside a region, `Cp_pt` is the slope of `h_pt`; in FLS units up to the rounding of the constants of
the two conversions -/
theorem C82_user (u : UnitSystem) (k : ℤ) (p t : ℝ) (hk : k = 1 ∨ k = 2 ∨ k = 5)
    (hr : ∀ᶠ x in nhds t, InRegion k (Quantity.p.si u p) (Quantity.T.si u x)) :
    ∃ cp r : ℝ, XSteam.Cp_pt .ideal u (.fin p) (.fin t) = pure (.fin cp) ∧
      HasDerivAt (fun t => number (XSteam.h_pt .ideal u (.fin p) (.fin t))) (r * cp) t ∧
      (u ≠ .fls → r = 1) ∧ |r - 1| ≤ 5e-7 := by
  have h0 : InRegion k (Quantity.p.si u p) (Quantity.T.si u t) := hr.self_of_nhds
  obtain ⟨-, -, -, -, ec, -⟩ := kernels_of_region hk h0
  have hT := T_pos_of_region hk h0
  have hd := ((at_of_region hk h0).1.gibbs gammaOf_ps.ne' hT.ne').heat
  have dT : HasDerivAt (fun x => Quantity.T.si u x) (Quantity.T.scale u) t := by
    have := ((hasDerivAt_id t).const_mul (Quantity.T.scale u)).add_const (Quantity.T.offset u)
    simpa [Quantity.si, mul_comm] using this
  have d := ((hd.comp t dT).sub_const (Quantity.h.offset u)).div_const (Quantity.h.scale u)
  refine ⟨_, Quantity.Cp.scale u * Quantity.T.scale u / Quantity.h.scale u, ec, ?_, ?_, ?_⟩
  · refine (d.congr_deriv ?_).congr_of_eventuallyEq (hr.mono fun x hx => ?_)
    · have e : Quantity.Cp.offset u = 0 := by cases u <;> rfl
      have := (Quantity.scale_pos .Cp u).ne'
      have := (Quantity.scale_pos .h u).ne'
      rw [Quantity.user, e]
      field_simp
      ring
    · simp only [(kernels_of_region hk hx).2.1]
      rfl
  · intro hu
    cases u
    · norm_num [Quantity.scale]
    · norm_num [Quantity.scale]
    · exact absurd rfl hu
  · cases u <;> norm_num [Quantity.scale, abs_le]

/-! ## Cases: water at 500 bar and 126.85 °C, steam at 1 MPa and 1200 K -/

example : ∃ cp : ℝ, XSteam.Cp_pt .ideal .mks (.fin 500) (.fin 126.85) = pure (.fin cp) ∧
    HasDerivAt (fun t => number (XSteam.h_pt .ideal .mks (.fin 500) (.fin t))) cp 126.85 := by
  have hp : Quantity.p.si .mks 500 = 50 := by norm_num [Quantity.si, Quantity.scale, Quantity.offset]
  obtain ⟨cp, r, a, b, c, -⟩ := C82_user .mks 1 500 126.85 (.inl rfl) (by
    filter_upwards [Ioo_mem_nhds (show (100 : ℝ) < 126.85 by norm_num) (show (126.85 : ℝ) < 200 by norm_num)] with x hx
    rw [hp]
    refine region1_wide (by norm_num) (by norm_num) ?_ ?_ <;>
      norm_num [Quantity.si, Quantity.scale, Quantity.offset] <;> linarith [hx.1, hx.2])
  exact ⟨cp, a, by simpa [c (by simp)] using b⟩

example : HasDerivAt (fun T => siCall .s XSteam.s_pt .fls 1 T) (siCall .Cp XSteam.Cp_pt .fls 1 1200 / 1200) 1200 :=
  (C82_slopes .fls 5 1 1200 (.inr (.inr rfl)) region5_point).entropy.hasDerivAt (by
    filter_upwards [Ioo_mem_nhds (show (1100 : ℝ) < 1200 by norm_num) (show (1200 : ℝ) < 1300 by norm_num)] with x hx
    exact .inr (.inl ⟨rfl, by norm_num [Hot]; constructor <;> linarith [hx.1, hx.2]⟩))

end PyX
