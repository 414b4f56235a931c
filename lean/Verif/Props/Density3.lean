import Verif.Lemmas.Density3
import Verif.Props.Backward3
import Verif.Props.Density

/-!
# C77: states of region 3 from pressure and density

`T3_prho` searches 623.15 K to 1073.15 K for the temperature at which the equation of region 3 gives the pressure.  The pressure
increases with temperature on the part of the interval that the search visits, so the temperature of the state is found.
-/

namespace PyX

open Classical Py Num _root_.Spec.IF97 _root_.Spec.PT _root_.Spec.Sat Kron Univ

section
variable {ρ T T' : ℝ}

private theorem pT_eq (hρ : ρ ≠ 0) : Phi3.pT ρ T = ρ * 0.461526 / 1000 *
    (region3Log + ρ / 322 * dpoly region3 1 0 (ρ / 322) (647.096 / T) - ρ / 322 * (647.096 / T) * dpoly region3 1 1 (ρ / 322) (647.096 / T)) := by
  simp only [Phi3.pT, Phi3.φδ, Phi3.φδτ, R]
  field_simp

/-- where the pressure increases with temperature: `T3_prho` never leaves it -/
theorem p3_slope (h0 : 96.6 ≤ ρ) (h1 : ρ ≤ 764) (h2 : 623.15 ≤ T) (h3 : T ≤ 1073.15) (h4 : ρ ≤ 550 ∨ T ≤ 848.15) : 0.025 < Phi3.pT ρ T := by
  have hT : 0 < T := by linarith
  have y1 : 647.096 / T ≤ 647.096 / 623.15 := div_le_div_of_nonneg_left (by norm_num) (by norm_num) h2
  rw [pT_eq (by linarith)]
  rcases le_or_gt ρ 550 with h | h
  · have := B3.z1_pos (x := ρ / 322) (y := 647.096 / T) (by rw [le_div_iff₀ (by norm_num)]; linarith) (div_le_div_of_nonneg_right h (by norm_num))
      (div_le_div_of_nonneg_left (by norm_num) hT h3) y1
    have := mul_lt_mul_of_pos_left this (show 0 < ρ * 0.461526 / 1000 by positivity)
    linarith
  · have := B3.z2_pos (x := ρ / 322) (y := 647.096 / T) (div_le_div_of_nonneg_right h.le (by norm_num)) (div_le_div_of_nonneg_right h1 (by norm_num))
      (div_le_div_of_nonneg_left (by norm_num) hT (h4.resolve_left (not_le.2 h))) y1
    have := mul_lt_mul_of_pos_left this (show 0 < ρ * 0.461526 / 1000 by positivity)
    linarith

theorem p3_heat (h0 : 96.6 ≤ ρ) (h1 : ρ ≤ 764) (h2 : 623.15 ≤ T) (h3 : T' ≤ 1073.15) (h4 : ρ ≤ 550 ∨ T' ≤ 848.15) (hlt : T < T') :
    0.025 * (T' - T) < Phi3.p ρ T' - Phi3.p ρ T := by
  have d : ∀ x ∈ Set.Icc T T', HasDerivAt (fun T => Phi3.p ρ T) (Phi3.pT ρ x) x := fun x hx => Phi3.hasDerivAt_pT (by linarith [hx.1])
  obtain ⟨x, hx, e⟩ := exists_hasDerivAt_eq_slope (fun T => Phi3.p ρ T) (fun x => Phi3.pT ρ x) hlt
    (fun x hx => (d x hx).continuousAt.continuousWithinAt) (fun x hx => d x ⟨hx.1.le, hx.2.le⟩)
  have := p3_slope h0 h1 (h2.trans hx.1.le) (hx.2.le.trans h3) (h4.imp_right fun h => hx.2.le.trans h)
  rw [e, lt_div_iff₀ (by linarith)] at this
  exact this

theorem region3_T (hr : InRegion 3 (Phi3.p ρ T) T) : T ≤ 863.2 := by
  obtain ⟨⟨b0, b1, b2, b3⟩, hT, hb⟩ := box_of_region3 hr
  by_contra h
  have : 100 < b23 T := by
    rw [b23]
    nlinarith
  linarith

/-- no state of region 3 is denser than 764 kg/m³ -/
theorem density_le (h1 : ρ ≤ 772.8) (hr : InRegion 3 (Phi3.p ρ T) T) : ρ ≤ 764 := by
  obtain ⟨⟨b0, b1, b2, b3⟩, hT, hb⟩ := box_of_region3 hr
  by_contra hc
  have t1 := region3_T hr
  have := B3.p_dense (x := ρ / 322) (y := 647.096 / T) (div_le_div_of_nonneg_right (not_le.1 hc).le (by norm_num))
    (by rw [div_le_iff₀ (by norm_num)]; linarith) (div_le_div_of_nonneg_left (by norm_num) (by linarith) t1)
    (div_le_div_of_nonneg_left (by norm_num) (by norm_num) hT.le)
  rw [p3_eq (by linarith) (by linarith), p3] at b3
  linarith

/-- above 550 kg/m³ the states are below the middle of the interval -/
theorem p3_middle (h0 : 550 ≤ ρ) (h1 : ρ ≤ 764) (h2 : 848.15 ≤ T) (h3 : T ≤ 863.2) : 100 < Phi3.p ρ T := by
  rw [p3_eq (by linarith) (by linarith), p3]
  exact B3.p_848 (div_le_div_of_nonneg_right h0 (by norm_num)) (div_le_div_of_nonneg_right h1 (by norm_num))
    (div_le_div_of_nonneg_left (by norm_num) (by linarith) h3) (div_le_div_of_nonneg_left (by norm_num) (by norm_num) h2)

theorem p3_light (h0 : 96.6 ≤ ρ) (h1 : ρ ≤ 550) : 0 < Phi3.p ρ 848.15 := by
  rw [p3_eq (by linarith) (by norm_num), p3]
  exact B3.p_light (by rw [le_div_iff₀ (by norm_num)]; linarith) (div_le_div_of_nonneg_right h1 (by norm_num))
end

private theorem c1 : FP.ideal.lit 0.00000001 = .fin 1e-8 := by rw [lit_ideal]; norm_num
private theorem c2 : FP.ideal.lit 623.15 = .fin 623.15 := by rw [lit_ideal]; norm_num
private theorem c3 : FP.ideal.lit 1073.15 = .fin 1073.15 := by rw [lit_ideal]; norm_num
private theorem c4 : Num.ofInt (-1000) = .fin (-1000) := by rw [ofInt_eq]; norm_num

/-- the bisection on an interval where the pressure increases, once it has started -/
private theorem search {ρ T hi x : ℝ} (h0 : 96.6 ≤ ρ) (h1 : ρ ≤ 764) (h2 : 623.15 ≤ T) (h3 : hi ≤ 1073.15) (h4 : ρ ≤ 550 ∨ hi ≤ 848.15)
    {a b : ℝ} (ha : 623.15 ≤ a) (hab : a < b) (hb : b ≤ hi) (haT : a ≤ T) (hTb : T ≤ b) (hx : x = a ∨ x = b) :
    ∃ T' ∈ Set.Icc 623.15 hi, |Phi3.p ρ T - Phi3.p ρ T'| ≤ 1e-8 ∧
      (whileLoop (bisectPass .ideal (fun r => Num.fabs (FP.ideal.sub (.fin (Phi3.p ρ T)) r) > FP.ideal.lit 0.00000001)
        (fun x => Region3.p3_rhoT .ideal (.fin ρ) x) (fun r => r > .fin (Phi3.p ρ T))
        "T3_prho stopped iterating after %d steps because values did not converge") (some (.fin x), .fin (Phi3.p ρ x), .fin b, .fin a) >>= fun s => getVar s.1) =
        pure (.fin T') := by
  have lt : ∀ x y, 623.15 ≤ x → y ≤ hi → x < y → Phi3.p ρ x < Phi3.p ρ y := fun x y a b c => by
    have := p3_heat h0 h1 a (b.trans h3) (h4.imp_right fun h => b.trans h) c
    linarith
  have hT : T ≤ hi := hTb.trans hb
  obtain ⟨δ, d0, hd⟩ := Metric.continuousAt_iff.1 (Phi3.hasDerivAt_pT (ρ := ρ) (T := T) (by linarith)).continuousAt 1e-8 (by norm_num)
  obtain ⟨n, hn⟩ := pow_unbounded_of_one_lt ((b - a) / (δ / 2)) one_lt_two
  rw [div_lt_iff₀ (by linarith)] at hn
  refine near_rest (lo := 623.15) (lo' := 623.15) (hi := hi) (xs := T) (g := fun x => Phi3.p ρ x) (δ := δ / 2) ?_ ?_ ?_ ?_ ?_ ?_ (by linarith) n a b x ha hab hb haT hTb hx
    (by rcases hx with rfl | rfl <;> linarith) (by linarith)
  · intro x hx
    exact p3_rhoT_eq (by linarith) (by linarith [hx.1])
  · intro x hx y hy e
    rcases lt_trichotomy x y with h | h | h
    · exact absurd e (lt x y hx.1 hy.2 h).ne
    · exact h
    · exact absurd e (lt y x hy.1 hx.2 h).ne'
  · intro r
    rw [c1, sub_ideal, Num.fabs, gt_num, fin_lt]
  · intro x hx hu
    rw [gt_num, fin_lt] at hu
    by_contra hc
    linarith [lt x T hx.1 hT (not_le.1 hc)]
  · intro x hx hu
    rw [gt_num, fin_lt] at hu
    by_contra hc
    exact hu (lt T x h2 hx.2 (not_le.1 hc))
  · intro x hx hxd
    have := hd (x := x) (by rw [Real.dist_eq, abs_sub_comm]; linarith)
    rw [Real.dist_eq, abs_sub_comm] at this
    exact this.le

/-- **C77**: for a density and a temperature of region 3, `T3_prho` called with the pressure that the equation gives there and that
density finds the temperature, to 4e-7 K, and logs nothing -/
theorem C77_search (p ρ T : ℝ) (hr : InRegion 3 p T) (h0 : 96.6 ≤ ρ) (h1 : ρ ≤ 772.8)
    (hp : Region3.p3_rhoT .ideal (.fin ρ) (.fin T) = pure (.fin p)) :
    ∃ T' p' : ℝ, |T' - T| ≤ 4e-7 ∧ Region3.p3_rhoT .ideal (.fin ρ) (.fin T') = pure (.fin p') ∧ |p' - p| ≤ 1e-8 ∧
      Region3.T3_prho .ideal (.fin p) (.fin ρ) = pure (.fin T') := by
  obtain ⟨⟨b0, b1, b2, b3⟩, hT, hb⟩ := box_of_region3 hr
  rw [p3_rhoT_eq (by linarith) (by linarith)] at hp
  cases hp
  have h1 := density_le h1 hr
  have t1 := region3_T hr
  have mid : ((623.15 : ℝ) + 1073.15) / 2 = 848.15 := by norm_num
  have pm : 0 < Phi3.p ρ 848.15 := by
    rcases le_or_gt ρ 550 with h | h
    · exact p3_light h0 h
    · linarith [p3_middle h.le h1 le_rfl (by norm_num)]
  have ne : ¬ Num.feq (.fin (-1000)) (.fin (Phi3.p ρ 848.15)) := fun e => by
    have e : (-1000 : ℝ) = Phi3.p ρ 848.15 := e
    linarith
  have out : Num.fabs (FP.ideal.sub (.fin (Phi3.p ρ T)) (.fin (-1000))) > FP.ideal.lit 0.00000001 := by
    rw [c1, sub_ideal, Num.fabs, gt_num, fin_lt, lt_abs]
    left
    linarith
  have cold : 550 < ρ → T < 848.15 := fun h => by
    by_contra hc
    linarith [p3_middle h.le h1 (not_lt.1 hc) t1]
  obtain ⟨T', m, d, hw⟩ : ∃ T', (623.15 ≤ T' ∧ T' ≤ 1073.15 ∧ (ρ ≤ 550 ∨ T' ≤ 848.15)) ∧ |Phi3.p ρ T - Phi3.p ρ T'| ≤ 1e-8 ∧
      Region3.T3_prho .ideal (.fin (Phi3.p ρ T)) (.fin ρ) = pure (.fin T') := by
    unfold Region3.T3_prho
    rw [Region3.T3_prho.pass_eq]
    simp only [c2, c3, c4]
    rw [whileLoop_eq]
    simp only [bisectPass, if_pos out, FP.div_two, mid_ideal, mid, pure_bind, p3_rhoT_eq (ρ := ρ) (T := 848.15) (by linarith) (by norm_num), if_neg ne]
    by_cases hu : (Num.fin (Phi3.p ρ 848.15)) > .fin (Phi3.p ρ T)
    · simp only [if_pos hu, pure_bind]
      rw [gt_num, fin_lt] at hu
      have hT' : T ≤ 848.15 := by
        by_contra hc
        rcases le_or_gt ρ 550 with h | h
        · linarith [p3_heat h0 h1 (T := 848.15) (T' := T) (by norm_num) b1 (.inl h) (not_le.1 hc)]
        · linarith [cold h]
      obtain ⟨T', m, d, hw⟩ := search (x := 848.15) (hi := 848.15) h0 h1 hT.le (by norm_num) (.inr le_rfl) le_rfl (by norm_num) le_rfl hT.le hT' (.inr rfl)
      exact ⟨T', ⟨m.1, by linarith [m.2], .inr m.2⟩, d, hw⟩
    · simp only [if_neg hu, pure_bind]
      rw [gt_num, fin_lt] at hu
      have h : ρ ≤ 550 := by
        by_contra hc
        linarith [p3_middle (not_le.1 hc).le h1 (T := 848.15) le_rfl (by norm_num)]
      have hT' : 848.15 ≤ T := by
        by_contra hc
        linarith [p3_heat h0 h1 (T := T) (T' := 848.15) hT.le (by norm_num) (.inl h) (not_le.1 hc)]
      obtain ⟨T', m, d, hw⟩ := search (x := 848.15) (hi := 1073.15) h0 h1 hT.le le_rfl (.inl h) (a := 848.15) (b := 1073.15) (by norm_num) (by norm_num) le_rfl hT' b1 (.inl rfl)
      exact ⟨T', ⟨m.1, m.2, .inl h⟩, d, hw⟩
  refine ⟨T', _, ?_, p3_rhoT_eq (by linarith) (by linarith [m.1]), by rw [abs_sub_comm]; exact d, hw⟩
  rw [abs_le] at d ⊢
  norm_num at d ⊢
  rcases lt_trichotomy T T' with h | h | h
  · have := p3_heat h0 h1 hT.le m.2.1 m.2.2 h
    constructor <;> linarith
  · constructor <;> linarith
  · have := p3_heat h0 h1 m.1 b1 ((le_or_gt ρ 550).imp id fun h => (cold h).le) h
    constructor <;> linarith

/-- non-vacuous, and the search ends: 1.5 times the critical density at the critical temperature -/
example : ∃ p T' : ℝ, |T' - 647.096| ≤ 4e-7 ∧ Region3.T3_prho .ideal (.fin p) (.fin 483) = pure (.fin T') := by
  obtain ⟨p, hs, hp⟩ := stable_point
  obtain ⟨T', _, d, -, -, e⟩ := C77_search p 483 647.096 hs.region (by norm_num) (by norm_num) hp
  exact ⟨p, T', d, e⟩

private theorem d1 : FP.ideal.lit 0.000611657 = .fin 0.000611657 := by rw [lit_ideal]; norm_num
private theorem d2 : Num.ofInt 100 = .fin 100 := by rw [ofInt_eq]; norm_num
private theorem d3 : FP.ideal.lit 16.5292 = .fin 16.5292 := by rw [lit_ideal]; norm_num
private theorem d4 : FP.ideal.lit 273.15 = .fin 273.15 := by rw [lit_ideal]; norm_num
private theorem d5 : Num.ofInt 1 = .fin 1 := by rw [ofInt_eq]; norm_num
private theorem d6 : FP.ideal.lit 22.064 = .fin 22.064 := by rw [lit_ideal]; norm_num

/-- **C77**: above 22.064 MPa a density from 400 to 609 kg/m³ is always attributed to region 3; a larger or smaller one is if its volume is
not below that of region 1 at 623.15 K and is below that of region 2 on the border of region 3 -/
theorem C77_classified (p ρ : ℝ) (h0 : 22.064 < p) (h1 : p ≤ 100) (hρ : 0 < ρ)
    (h : 400 ≤ ρ ∧ ρ ≤ 609 ∨ ∃ v1 v2 t : ℝ, Region1.v1_pT .ideal (.fin p) (.fin 623.15) = pure (.fin v1) ∧
      RegionBorders.B23T_p .ideal (.fin p) = pure (.fin t) ∧ Region2.v2_pT .ideal (.fin p) (.fin t) = pure (.fin v2) ∧ v1 ≤ 1 / ρ ∧ 1 / ρ < v2) :
    RegionSelection.region_prho .ideal (.fin p) (.fin ρ) = pure 3 := by
  have tr := b23T_range (p := p) (by linarith) h1
  have e1 := v1_pT_eq (dom1_wide (p := p) (by linarith) (by linarith) (le_refl 273.15) (by norm_num))
  have e2 := v1_pT_eq (dom1_wide (p := p) (T := 623.15) (by linarith) h1 (by norm_num) (by norm_num))
  have e3 := v2_pT_eq' (p := p) (T := b23T p) (by linarith) (by linarith)
  have e5 : RegionBorders.B23T_p .ideal (.fin p) = pure (.fin (b23T p)) := B23T_p_eq (by linarith)
  have key : gamma1.v p 623.15 ≤ 1 / ρ ∧ 1 / ρ < gamma2.v p (b23T p) := by
    rcases h with ⟨a, b⟩ | ⟨v1, v2, t, a, b, c, d, e⟩
    · have r1 : 1 / ρ ≤ 1 / 400 := one_div_le_one_div_of_le (by norm_num) a
      have r2 : 1 / 609 ≤ 1 / ρ := one_div_le_one_div_of_le hρ b
      norm_num at r1 r2 ⊢
      constructor
      · have := v1_623_high (p := p) (by linarith) h1
        norm_num at this
        linarith
      · have := v2_gt_high (vapour_b23T (p := p) (by linarith) h1) (by linarith) tr.1.le
        norm_num at this
        linarith
    · rw [e2] at a
      cases a
      rw [e5] at b
      cases b
      rw [e3] at c
      cases c
      exact ⟨d, e⟩
  have cold : gamma1.v p 273.15 ≤ gamma1.v p 623.15 := by
    have a := v1_273_lt (p := p) (by linarith) h1
    have := v1_heat (p := p) (T := 283.15) (T' := 623.15) h1 (by norm_num) (by norm_num) (by norm_num) (.inr (by linarith))
    linarith
  unfold RegionSelection.region_prho
  simp only [d1, d2, d3, d4, d5, d6, c2, div_ideal hρ.ne', pure_bind, gt_num, fin_lt, if_neg (show ¬ p < 16.5292 by linarith), e1, e2, e3, e5]
  rw [if_neg (by rintro (h | h) <;> linarith), if_neg (by linarith [key.1]), if_neg (not_lt.2 key.1), if_pos key.2, if_pos h0]

/-- **C77**: for a density and a temperature of region 3 that `region_prho` attributes to region 3, `h_prho` returns the enthalpy at that
density and a temperature within 4e-7 K, and logs nothing -/
theorem C77_region3 (u : UnitSystem) (p ρ T : ℝ) (hr : InRegion 3 (Quantity.p.si u p) T) (h0 : 96.6 ≤ ρ) (h1 : ρ ≤ 772.8)
    (hp : Region3.p3_rhoT .ideal (.fin ρ) (.fin T) = pure (.fin (Quantity.p.si u p)))
    (hc : RegionSelection.region_prho .ideal (.fin (Quantity.p.si u p)) (.fin ρ) = pure 3) :
    ∃ T' h' : ℝ, |T' - T| ≤ 4e-7 ∧ Region3.h3_rhoT .ideal (.fin ρ) (.fin T') = pure (.fin h') ∧
      XSteam.h_prho .ideal u (.fin p) (.fin (1 / Quantity.v.user u (1 / ρ))) = pure (.fin (Quantity.h.user u h')) := by
  have hT : 623.15 < T := (box_of_region3 hr).2.1
  obtain ⟨T', p', d, -, -, e⟩ := C77_search _ ρ T hr h0 h1 hp
  have t0 : 0 < T' := by
    have := (abs_le.1 d).1
    norm_num at this
    linarith
  have e2 := h3_rhoT_eq (ρ := ρ) (T := T') (by linarith) t0.ne'
  refine ⟨T', _, d, e2, ?_⟩
  rw [h_prho_region (one_div_pos.2 (by linarith)), one_div_one_div, hc, pure_bind, if_neg (by decide), if_neg (by decide), if_pos rfl, e, pure_bind, e2, pure_bind]
  simp only [si]

/-- **C77**: in particular for the densities from 400 to 609 kg/m³ above 22.064 MPa -/
theorem C77_middle (u : UnitSystem) (p ρ T : ℝ) (hr : InRegion 3 (Quantity.p.si u p) T) (h0 : 400 ≤ ρ) (h1 : ρ ≤ 609) (h2 : 22.064 < Quantity.p.si u p)
    (hp : Region3.p3_rhoT .ideal (.fin ρ) (.fin T) = pure (.fin (Quantity.p.si u p))) :
    ∃ T' h' : ℝ, |T' - T| ≤ 4e-7 ∧ Region3.h3_rhoT .ideal (.fin ρ) (.fin T') = pure (.fin h') ∧
      XSteam.h_prho .ideal u (.fin p) (.fin (1 / Quantity.v.user u (1 / ρ))) = pure (.fin (Quantity.h.user u h')) :=
  C77_region3 u p ρ T hr (by linarith) (by linarith) hp
    (C77_classified _ ρ h2 (box_of_region3 hr).1.2.2.2 (by linarith) (.inl ⟨h0, h1⟩))

/-- the state at the critical temperature and 483 kg/m³ is such a one -/
example : ∃ p T' h' : ℝ, |T' - 647.096| ≤ 4e-7 ∧ Region3.h3_rhoT .ideal (.fin 483) (.fin T') = pure (.fin h') ∧
    XSteam.h_prho .ideal .bare (.fin p) (.fin 483) = pure (.fin h') := by
  obtain ⟨p, hs, hp⟩ := stable_point
  have hq : 22.064 < p := by
    rw [p3_rhoT_eq (by norm_num) (by norm_num)] at hp
    cases hp
    norm_num [Phi3.p, Phi3.φδ, dpoly, region3, region3Log, Term.d, ff, R]
  obtain ⟨T', h', d, e1, e2⟩ := C77_middle .bare p 483 647.096 (by rw [Quantity.si_bare]; exact hs.region) (by norm_num) (by norm_num)
    (by rw [Quantity.si_bare]; exact hq) (by rw [Quantity.si_bare]; exact hp)
  refine ⟨p, T', h', d, e1, ?_⟩
  simpa [Quantity.user_bare] using e2

end PyX
