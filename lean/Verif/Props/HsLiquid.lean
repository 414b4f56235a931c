import Verif.Lemmas.HsTan
import Verif.Lemmas.HsTop
import Verif.Props.Backward
import Verif.Props.Stability
import Verif.Props.Defects
import Verif.Lemmas.T1phSlope
import Verif.Props.Agree

/-!
# C73: the liquid is recognised from enthalpy and entropy

`region_hs` compares `h` with three curves: the line through the triple point, the equation `h'(s)` for the saturated liquid and the
enthalpy at 100 MPa, whose temperature comes from `T1_ps`.  A state of region 1 lies on the right side of each: its enthalpy exceeds every
tangent `g(p, T') + T' s` of the isobar (`tangent`), and the tangents of a chain of temperatures exceed `h'(s)` (`tans_ok`).
-/

namespace PyX

open Classical Py Num _root_.Spec.IF97 _root_.Spec.PT _root_.Spec.Sat Kron Univ

variable {p T : ℝ}

/-! ## The equation of the saturated liquid -/

def h4s1 : List Term :=
  (Region4.h4_s.ni.zip (Region4.h4_s.Ii.zip Region4.h4_s.Ji)).map fun a => ⟨a.2.1, a.2.2, a.1⟩

theorem h4s1_nonneg : ∀ t ∈ h4s1, 0 ≤ t.I ∧ 0 ≤ t.J := by decide

theorem h4_s_1 {s : ℝ} (h1 : -0.0001545495919 < s) (h2 : s ≤ 3.77828134) :
    Region4.h4_s .ideal (.fin s) = pure (.fin (poly h4s1 (s / 3.8 - 1.09) (s / 3.8 + 0.0000366) * 1700)) := by
  have iI : Region4.h4_s.Ii = h4s1.map Term.I := rfl
  have iJ : Region4.h4_s.Ji = h4s1.map Term.J := rfl
  have iN : Region4.h4_s.ni = h4s1.map Term.n := rfl
  have e0 : FP.ideal.lit 0.0001545495919 = .fin 0.0001545495919 := by rw [lit_ideal]; norm_num
  have e1 : FP.ideal.lit 3.77828134 = .fin 3.77828134 := by rw [lit_ideal]; norm_num
  have e4 : FP.ideal.lit 3.8 = .fin 3.8 := by rw [lit_ideal]; norm_num
  have e5 : FP.ideal.lit 1.09 = .fin 1.09 := by rw [lit_ideal]; norm_num
  have e6 : FP.ideal.lit 0.0000366 = .fin 0.0000366 := by rw [lit_ideal]; norm_num
  unfold Region4.h4_s
  rw [iI, iJ, iN]
  simp only [e0, e1, e4, e5, e6, gt_num, fin_lt, fin_le, neg_fin]
  rw [if_pos ⟨h1, h2⟩]
  simp only [div_ideal (show (3.8 : ℝ) ≠ 0 by norm_num), pure_bind, sub_ideal, add_ideal, ofInt_eq]
  rw [Int.cast_zero, loop1 (N := 27) (a := 0) (b := 27) h4s1 rfl rfl
    (fun t => (t.n : ℝ) * (s / 3.8 - 1.09) ^ t.I * (s / 3.8 + 0.0000366) ^ t.J) 0 _ fun i hi a => ?_]
  · simp only [pure_bind, mul_ideal, poly, zero_add]
    norm_cast
  · have hn := h4s1_nonneg _ (List.getElem_mem hi)
    simp only [Nat.add_zero, idx_map _ hi, pure_bind, lit_ideal, pow_ideal_int (Or.inr hn.1),
      pow_ideal_int (Or.inr hn.2), mul_ideal, add_ideal]

theorem h4s1_eq (x z : ℝ) : 500000000000000000000 * (poly h4s1 (-x) z * 1700) = 100 * (nsum hsP x z - nsum hsM x z) := by
  simp only [poly, h4s1, Region4.h4_s.ni, Region4.h4_s.Ii, Region4.h4_s.Ji, List.zip, List.zipWith, List.map_cons, List.map_nil,
    List.sum_cons, List.sum_nil, zpow_ofNat, nsum, hsP, hsM]
  norm_num
  ring

/-! ## Entropies at single points -/

/-- `s/R - c/10⁸` for the liquid, up to a factor -/
def eSg (c : ℕ) : E := .sub B1.eS (.mono [(Nat.mul c 5000000000000000000000000000000000, 0, 17)] [] 32 59)

theorem s1_of_eSg {c : ℕ} (hv : Liquid p T) (h : 0 < (eSg c).eval (7.1 - p / 16.53) (B1.z T)) : c / 10 ^ 8 < gamma1.s p T / R := by
  have z0 := B1.z_pos hv
  simp only [eSg, E.eval, B1.eS_eval hv, evalN_cons', evalN_nil', Nat.mul_eq] at h
  push_cast at h
  have h2 : 0 < 500000000000000000000000000000000000000000 * (B1.z T ^ 17 * (gamma1.s p T / R - c / 10 ^ 8)) := by
    refine h.trans_eq ?_
    ring
  have := pos_of_mul_pos_right (pos_of_mul_pos_right h2 (by norm_num)) (by positivity)
  linarith

/-- `-c/10⁸ - s/R` for the liquid, up to a factor -/
def eSn (c : ℕ) : E := .sub (.mono [] [(Nat.mul c 5000000000000000000000000000000000, 0, 17)] 32 59) B1.eS

theorem s1_of_eSn {c : ℕ} (hv : Liquid p T) (h : 0 < (eSn c).eval (7.1 - p / 16.53) (B1.z T)) : gamma1.s p T / R < -(c / 10 ^ 8) := by
  have z0 := B1.z_pos hv
  simp only [eSn, E.eval, B1.eS_eval hv, evalN_cons', evalN_nil', Nat.mul_eq] at h
  push_cast at h
  have h2 : 0 < 500000000000000000000000000000000000000000 * (B1.z T ^ 17 * (-(c / 10 ^ 8) - gamma1.s p T / R)) := by
    refine h.trans_eq ?_
    ring
  have := pos_of_mul_pos_right (pos_of_mul_pos_right h2 (by norm_num)) (by positivity)
  linarith

theorem liquid100 (h0 : 273.15 ≤ T) (h1 : T ≤ 623.2) : Liquid 100 T := by
  refine ⟨le_rfl, h0, h1, ?_⟩
  have := psat_le (T := T) (Tk := 623.2) (β := 2.1) (by linarith) (by norm_num at h1 ⊢; linarith) (by norm_num) (by norm_num) (by
    norm_num [eqQ, thQ])
  refine this.trans ?_
  norm_num

theorem s_low : gamma1.s 100 273.2 < -0.000155 := by
  have hv := liquid100 (T := 273.2) (by norm_num) (by norm_num)
  have c : (⟨10503932244, 1, 10000000000, 2596588926, 1, 10000000000⟩ : Rect).covers1 100 100 273.2 273.2 = true := by decide +kernel
  have l : (⟨10503932244, 1, 10000000000, 2596588926, 1, 10000000000⟩ : Rect).leaf 10 24 (eSn 33600) = true := by decide +kernel
  have := s1_of_eSn hv (Rect.sound1 c hv (by norm_num) (by norm_num) l (by norm_num) (by norm_num) (by norm_num) (by norm_num))
  rw [R, div_lt_iff₀ (by norm_num)] at this
  norm_num at this ⊢
  linarith

theorem s_high : 3.397782955 < gamma1.s 100 623.16 := by
  have hv := liquid100 (T := 623.16) (by norm_num) (by norm_num)
  have c : (⟨10503932244, 1, 10000000000, 9978567121, 1, 10000000000⟩ : Rect).covers1 100 100 623.16 623.16 = true := by decide +kernel
  have l : (⟨10503932244, 1, 10000000000, 9978567121, 1, 10000000000⟩ : Rect).leaf 10 24 (eSg 736207000) = true := by decide +kernel
  have := s1_of_eSg hv (Rect.sound1 c hv (by norm_num) (by norm_num) l (by norm_num) (by norm_num) (by norm_num) (by norm_num))
  rw [R, lt_div_iff₀ (by norm_num)] at this
  norm_num at this ⊢
  linarith

/-! ## The enthalpy at 100 MPa -/

theorem pot_rise (hv : Liquid p T) (hp : p < 100) : gamma1.pot p T + 0.9 * (100 - p) < gamma1.pot 100 T := by
  have hc := liquid100 hv.T0 hv.T1
  have := Gamma.lt_of_deriv (f := fun x => gamma1.pot x T - 0.9 * x) (f' := fun x => 1000 * gamma1.v x T - 0.9) hp
    (fun x a b => by
      have := (gibbs1 (hv.isotherm hc a b)).volume.sub ((hasDerivAt_id x).const_mul 0.9)
      rw [mul_one] at this
      exact this)
    (fun x a b => by
      have v := v_top hv.T0 hv.T1
      rcases b.eq_or_lt with rfl | b
      · linarith
      · have := v1_lt (hv.isotherm hc a b.le) hc b
        linarith)
  linarith

theorem h_top {T' : ℝ} (h0 : 273.2 ≤ T) (h1 : T ≤ 623.16) (hd : |T' - T| ≤ 0.025) : gamma1.h 100 T ≤ gamma1.h 100 T' + 0.15 := by
  obtain ⟨d0, d1⟩ := abs_le.1 hd
  have hv := liquid100 (T := T) (by linarith) (by linarith)
  have hv' := liquid100 (T := T') (by linarith) (by linarith)
  rcases lt_trichotomy T T' with hT | rfl | hT
  · linarith [h1_lt hv hv' hT]
  · linarith
  · obtain ⟨c, hc, e⟩ := exists_hasDerivAt_eq_slope (fun x => gamma1.h 100 x) (fun x => gamma1.cp 100 x) hT
      (fun x hx => (gibbs1 (hv'.isobar hv hx.1 hx.2)).heat.continuousAt.continuousWithinAt)
      (fun x hx => (gibbs1 (hv'.isobar hv hx.1.le hx.2.le)).heat)
    have hl := hv'.isobar hv hc.1.le hc.2.le
    have := cp_top hl.T0 hl.T1
    rw [e, div_lt_iff₀ (by linarith)] at this
    nlinarith

theorem T1_ps_100 {s : ℝ} (s0 : -0.0001545495919 < s) (s1 : s < 3.397782955) : ∃ T' Tm : ℝ, 273.2 ≤ T' ∧ T' ≤ 623.16 ∧
    gamma1.s 100 T' = s ∧ Region1.T1_ps .ideal (.fin 100) (.fin s) = pure (.fin Tm) ∧ |Tm - T'| ≤ 0.025 := by
  have hc : ContinuousOn (fun T => gamma1.s 100 T) (Set.Icc 273.2 623.16) := fun x hx =>
    ((at1 (liquid100 (T := x) (by linarith [hx.1]) (by linarith [hx.2]))).sT
      (by linarith [hx.1])).continuousAt.continuousWithinAt
  obtain ⟨T', ⟨a, b⟩, e⟩ := intermediate_value_Icc (by norm_num) hc ⟨(by linarith [s_low] : gamma1.s 100 273.2 ≤ s), (by linarith [s_high])⟩
  refine ⟨T', _, a, b, e, T1_ps_eq, ?_⟩
  have := Kron.T1ps.accurate (liquid100 (T := T') (by linarith) (by linarith)) b
  simp only at e
  rwa [e] at this

/-! ## The classification -/

theorem slope_line {s h : ℝ} (s0 : -0.0001545495919 < s) (h0 : 273.15 * s + 0.09 ≤ h) :
    ¬ h < (-0.0415878 - 2500.89262) / (-0.00015455 - 9.155759) * s := by
  rw [not_lt]
  rcases le_total 0 s with h | h
  · norm_num at *
    nlinarith
  · norm_num at *
    nlinarith

theorem tan0_ok : tan0.sat = true ∧ tan0.tan = true := by
  have h := tans_ok
  have : tans = tans.head (by decide) :: tans.tail := (List.cons_head_tail _).symm
  rw [this] at h
  simp only [Tan.ok, Bool.and_eq_true] at h
  exact ⟨h.1, h.2.1⟩

/-- the tangent at 273.15 K -/
theorem h_low (hv : Liquid p T) (h0 : psat T + 0.1 ≤ p) : (tan0.pk : ℝ) ≤ p ∧ (tan0.pk : ℝ) = 0.10061 ∧ 273.15 * gamma1.s p T + 0.09 ≤ gamma1.h p T := by
  obtain ⟨t0, t1⟩ := tan0_ok
  obtain ⟨q1, q2, q3, q4, q5, q6⟩ := Tan.sat_sound t0
  have q7 : (tan0.pk : ℝ) = 0.10061 := by norm_num [tan0, Tan.pk]
  have q8 : (tan0.Tk : ℝ) = 273.15 := by norm_num [tan0, Tan.Tk]
  have hpk : (tan0.pk : ℝ) ≤ p := by
    have := psat_mono' (T := 273.15) (T' := T) (by norm_num) hv.T0 (by linarith [hv.T1])
    rw [q8] at q3
    linarith
  -- the line through the triple point
  have c0 : Liquid tan0.pk tan0.Tk := ⟨q6, q1, by linarith, q5⟩
  have c1 : Liquid p tan0.Tk := ⟨hv.p1, q1, by linarith, q5.trans hpk⟩
  have m := pot_mono c0 c1 hpk
  have t := tangent hv c1
  simp only [Tan.tan, Bool.and_eq_true] at t1
  have g := pot_of_eGl c0 (Rect.sound1 t1.1 c0 (by norm_num) (by norm_num) t1.2 le_rfl le_rfl le_rfl le_rfl)
  have g' : 0.09 < gamma1.pot tan0.pk tan0.Tk := by
    refine lt_trans ?_ g
    rw [q8, R]
    norm_num [tan0]
  rw [q8] at t m g'
  exact ⟨hpk, q7, by linarith⟩

theorem region_hs_1 (hv : Liquid p T) (h0 : psat T + 0.1 ≤ p) (h1 : p ≤ 99.8)
    (s0 : -0.0001545495919 < gamma1.s p T) (s1 : gamma1.s p T < 3.397782955) :
    RegionSelection.region_hs .ideal (.fin (gamma1.h p T)) (.fin (gamma1.s p T)) = pure 1 := by
  have e0 : FP.ideal.lit 0.0001545495919 = .fin 0.0001545495919 := by rw [lit_ideal]; norm_num
  have e1 : FP.ideal.lit 3.77828134 = .fin 3.77828134 := by rw [lit_ideal]; norm_num
  have e2 : FP.ideal.lit 3.397782955 = .fin 3.397782955 := by rw [lit_ideal]; norm_num
  have e4 : FP.ideal.lit 0.0415878 = .fin 0.0415878 := by rw [lit_ideal]; norm_num
  have e5 : FP.ideal.lit 2500.89262 = .fin 2500.89262 := by rw [lit_ideal]; norm_num
  have e6 : FP.ideal.lit 0.00015455 = .fin 0.00015455 := by rw [lit_ideal]; norm_num
  have e7 : FP.ideal.lit 9.155759 = .fin 9.155759 := by rw [lit_ideal]; norm_num
  have e8 : FP.ideal.lit 9.155759395 = .fin 9.155759395 := by rw [lit_ideal]; norm_num
  have e9 : Num.ofInt 100 = .fin 100 := by rw [ofInt_eq]; norm_num
  obtain ⟨hpk, -, t⟩ := h_low hv h0
  have l1 := slope_line s0 t
  -- the saturated liquid
  have l2 := Tan.sound tans_ok hv h0 hpk (by norm_num [tan0]; linarith) (by rw [tans_last]; norm_num; linarith)
  rw [← h4s1_eq, neg_sub] at l2
  have l2' := not_lt.2 (lt_of_mul_lt_mul_left l2 (by norm_num)).le
  -- the isobar of 100 MPa
  obtain ⟨T', Tm, a0, a1, a2, a3, a4⟩ := T1_ps_100 s0 s1
  have b1 := h_top a0 a1 a4
  have b2 := tangent (liquid100 (T := T') (by linarith) (by linarith)) (liquid100 hv.T0 hv.T1)
  have b3 := pot_rise hv (by linarith)
  have b4 := (gibbs1 hv).enthalpy
  rw [a2] at b2
  have l3 : gamma1.h p T < gamma1.h 100 Tm := by linarith
  obtain ⟨d0, d1⟩ := abs_le.1 a4
  have dm := dom1_of_liquid (by norm_num) (liquid100 (T := Tm) (by linarith) (by linarith))
  unfold RegionSelection.region_hs
  simp only [e0, e1, e2, e4, e5, e6, e7, e8, e9, neg_fin, sub_ideal, ge_num, fin_lt, fin_le]
  rw [if_neg (by linarith), div_ideal (by norm_num), pure_bind]
  simp only [mul_ideal, fin_lt]
  rw [if_neg (fun h => l1 h.2), if_pos ⟨s0.le, by linarith⟩, h4_s_1 s0 (by linarith), pure_bind]
  simp only [fin_lt]
  rw [if_neg l2', if_pos s1, a3, pure_bind, h1_pT_eq dm, pure_bind]
  simp only [fin_lt]
  rw [if_pos l3]

/-! ## The claim -/

theorem h_bounds (hv : Liquid p T) (h0 : psat T + 0.1 ≤ p) (h1 : p ≤ 99.8) (s0 : -0.0001545495919 < gamma1.s p T)
    (s1 : gamma1.s p T < 3.397782955) : 0.1 ≤ p ∧ 0 < gamma1.h p T ∧ gamma1.h p T < 1701 := by
  obtain ⟨hpk, q, t⟩ := h_low hv h0
  refine ⟨by linarith, by linarith, ?_⟩
  · obtain ⟨T', Tm, a0, a1, a2, -, -⟩ := T1_ps_100 s0 s1
    have b2 := tangent (liquid100 (T := T') (by linarith) (by linarith)) (liquid100 hv.T0 hv.T1)
    have b3 := pot_rise hv (by linarith)
    have b4 := (gibbs1 hv).enthalpy
    have b5 := h13_lt (p := 100) (by norm_num) le_rfl
    have b6 := h_top (T := 623.16) (T' := 623.15) (by norm_num) (by norm_num) (by norm_num [abs_le])
    rw [a2] at b2
    rcases a1.eq_or_lt with rfl | a1
    · linarith
    · have := h1_lt (liquid100 (T := T') (by linarith) (by linarith)) (liquid100 (T := 623.16) (by norm_num) (by norm_num)) a1
      linarith

theorem psat_of_region1 {ps : ℝ} (hr : InRegion 1 p T) (hs : Sat ps T) : ps = psat T := by
  have : 273.15 < T := by
    rcases hr with ⟨h, _⟩ | ⟨h, _⟩ | ⟨_, h⟩ | ⟨h, _⟩ | ⟨h, _⟩ | ⟨h, _⟩ | ⟨h, _⟩ | ⟨h, _⟩
    iterate 2 exact absurd h (by norm_num)
    · exact h.1.1
    all_goals exact absurd h (by norm_num)
  obtain ⟨_, t0, t1⟩ := theta_box this (by linarith [region1_le hr])
  exact sat_unique t0 (by linarith) hs

/-- C73: a liquid at least 0.1 MPa above its saturation pressure and at most at 99.8 MPa is recognised from its enthalpy and entropy -/
theorem C73_region_hs {ps : ℝ} (hr : InRegion 1 p T) (hs : Sat ps T) (h0 : ps + 0.1 ≤ p) (h1 : p ≤ 99.8) :
    ∃ h s : ℝ, Region1.h1_pT .ideal (.fin p) (.fin T) = pure (.fin h) ∧ Region1.s1_pT .ideal (.fin p) (.fin T) = pure (.fin s) ∧
      (-0.0001545495919 < s → s < 3.397782955 → RegionSelection.region_hs .ideal (.fin h) (.fin s) = pure 1) := by
  have hv := liquid_of_region1 hr
  have hT := region1_le hr
  rw [psat_of_region1 hr hs] at h0
  exact ⟨_, _, h1_pT_eq (dom1_of_region hr), s1_pT_eq (dom1_of_region hr), region_hs_1 hv h0 h1⟩

/-- C73: in every unit system `p_hs` then returns the pressure of the state up to 0.015 MPa -/
theorem C73_p_hs (u : UnitSystem) (p t : ℝ) {ps : ℝ} (hr : InRegion 1 (Quantity.p.si u p) (Quantity.T.si u t))
    (hs : Sat ps (Quantity.T.si u t)) (h0 : ps + 0.1 ≤ Quantity.p.si u p) (h1 : Quantity.p.si u p ≤ 99.8) :
    ∃ h s : ℝ, XSteam.h_pt .ideal u (.fin p) (.fin t) = pure (.fin h) ∧ XSteam.s_pt .ideal u (.fin p) (.fin t) = pure (.fin s) ∧
      (-0.0001545495919 < Quantity.s.si u s → Quantity.s.si u s < 3.397782955 →
        ∃ p' : ℝ, XSteam.p_hs .ideal u (.fin h) (.fin s) = pure (.fin p') ∧ |Quantity.p.si u p' - Quantity.p.si u p| ≤ 0.015) := by
  obtain ⟨-, eh, es, -⟩ := kernels_of_region (u := u) (p := p) (t := t) (.inl rfl) hr
  have hv := liquid_of_region1 hr
  have hT := region1_le hr
  rw [psat_of_region1 hr hs] at h0
  refine ⟨_, _, eh, es, fun s0 s1 => ?_⟩
  rw [Quantity.si_user] at s0 s1
  have k := region_hs_1 hv h0 h1 s0 s1
  have a := Kron.P1hs.accurate hv (by linarith)
  refine ⟨Quantity.p.user u (100 * dpoly Kron.P1hs.table 0 0 (gamma1.h (Quantity.p.si u p) (Quantity.T.si u t) / 3400 + 0.05)
    (gamma1.s (Quantity.p.si u p) (Quantity.T.si u t) / 7.6 + 0.05)), ?_, ?_⟩
  · have g : gammaOf 1 = gamma1 := rfl
    unfold XSteam.p_hs
    simp only [si, Quantity.si_user, pure_bind, g, k, if_true, p1_hs_eq]
  · rw [Quantity.si_user]
    exact a

/-- C73: and `t_hs` its temperature up to 0.085 K -/
theorem C73_t_hs (u : UnitSystem) (p t : ℝ) {ps : ℝ} (hr : InRegion 1 (Quantity.p.si u p) (Quantity.T.si u t))
    (hs : Sat ps (Quantity.T.si u t)) (h0 : ps + 0.1 ≤ Quantity.p.si u p) (h1 : Quantity.p.si u p ≤ 99.8) :
    ∃ h s : ℝ, XSteam.h_pt .ideal u (.fin p) (.fin t) = pure (.fin h) ∧ XSteam.s_pt .ideal u (.fin p) (.fin t) = pure (.fin s) ∧
      (-0.0001545495919 < Quantity.s.si u s → Quantity.s.si u s < 3.397782955 →
        ∃ t' : ℝ, XSteam.t_hs .ideal u (.fin h) (.fin s) = pure (.fin t') ∧ |Quantity.T.si u t' - Quantity.T.si u t| ≤ 0.085) := by
  obtain ⟨-, eh, es, -⟩ := kernels_of_region (u := u) (p := p) (t := t) (.inl rfl) hr
  have hv := liquid_of_region1 hr
  have hT := region1_le hr
  rw [psat_of_region1 hr hs] at h0
  refine ⟨_, _, eh, es, fun s0 s1 => ?_⟩
  rw [Quantity.si_user] at s0 s1
  have k := region_hs_1 hv h0 h1 s0 s1
  have a := Kron.P1hs.accurate hv (by linarith)
  have b := Kron.T1ph.accurate hv (by linarith)
  obtain ⟨hp, l0, l1⟩ := h_bounds hv h0 h1 s0 s1
  generalize hh : gamma1.h (Quantity.p.si u p) (Quantity.T.si u t) = h at *
  generalize hs : gamma1.s (Quantity.p.si u p) (Quantity.T.si u t) = s at *
  obtain ⟨a0, a1⟩ := abs_le.1 a
  have c := Kron.T1ph.lipschitz (x := Quantity.p.si u p) (x' := 100 * dpoly Kron.P1hs.table 0 0 (h / 3400 + 0.05) (s / 7.6 + 0.05))
    (y := h / 2500 + 1) (by linarith) (by linarith) (by linarith) (by linarith) (by linarith) (by linarith)
  refine ⟨Quantity.T.user u (dpoly Kron.T1ph.table 0 0 (100 * dpoly Kron.P1hs.table 0 0 (h / 3400 + 0.05) (s / 7.6 + 0.05)) (h / 2500 + 1)),
    ?_, ?_⟩
  · have g : gammaOf 1 = gamma1 := rfl
    unfold XSteam.t_hs
    simp only [si, Quantity.si_user, pure_bind, g, hh, hs, k, if_true, p1_hs_eq, T1_ph_eq]
  · rw [Quantity.si_user]
    have := abs_sub_le (dpoly Kron.T1ph.table 0 0 (100 * dpoly Kron.P1hs.table 0 0 (h / 3400 + 0.05) (s / 7.6 + 0.05)) (h / 2500 + 1))
      (dpoly Kron.T1ph.table 0 0 (Quantity.p.si u p) (h / 2500 + 1)) (Quantity.T.si u t)
    linarith

theorem psat_400 : psat 400 + 0.1 ≤ 50 := by
  have := psat_le (T := 400) (Tk := 400) (β := 1) (by norm_num) (by norm_num) (by norm_num) (by norm_num) (by norm_num [eqQ, thQ])
  norm_num at this ⊢
  linarith

theorem s_400 : 0 < gamma1.s 50 400 ∧ gamma1.s 50 400 < 3 := by
  have hv := liquid_of_region1 region1_point
  have c : (⟨40751966122, 1, 10000000000, 4458314757, 1, 10000000000⟩ : Rect).covers1 50 50 400 400 = true := by decide +kernel
  have l : (⟨40751966122, 1, 10000000000, 4458314757, 1, 10000000000⟩ : Rect).leaf 10 24 (eSg 0) = true := by decide +kernel
  have l' : (⟨40751966122, 1, 10000000000, 4458314757, 1, 10000000000⟩ : Rect).leaf 10 24 (eSl 600000000) = true := by decide +kernel
  have a := s1_of_eSg hv (Rect.sound1 c hv (by norm_num) (by norm_num) l (by norm_num) (by norm_num) (by norm_num) (by norm_num))
  have b := s1_of_eSl hv (Rect.sound1 c hv (by norm_num) (by norm_num) l' (by norm_num) (by norm_num) (by norm_num) (by norm_num))
  rw [R, lt_div_iff₀ (by norm_num)] at a
  rw [R, div_lt_iff₀ (by norm_num)] at b
  norm_num at a b ⊢
  constructor <;> linarith

example : ∃ h s p' t' : ℝ, XSteam.h_pt .ideal .bare (.fin 50) (.fin 400) = pure (.fin h) ∧
    XSteam.s_pt .ideal .bare (.fin 50) (.fin 400) = pure (.fin s) ∧
    XSteam.p_hs .ideal .bare (.fin h) (.fin s) = pure (.fin p') ∧ |p' - 50| ≤ 0.015 ∧
    XSteam.t_hs .ideal .bare (.fin h) (.fin s) = pure (.fin t') ∧ |t' - 400| ≤ 0.085 := by
  have hr : InRegion 1 (Quantity.p.si .bare 50) (Quantity.T.si .bare 400) := by simpa using region1_point
  have inj : ∀ {x y : ℝ}, (pure (Num.fin x) : Py Num) = pure (Num.fin y) → x = y := fun e => by
    have := congrArg Py.out e
    simpa only [out_pure, Outcome.ok.injEq, Num.fin.injEq] using this
  obtain ⟨q0, q1, q2⟩ := theta_box (T := 400) (by norm_num) (by norm_num)
  have hs : Sat (psat 400) (Quantity.T.si .bare 400) := by simpa using psat_sat q0 q1 q2
  have h0 : psat 400 + 0.1 ≤ Quantity.p.si .bare 50 := by simpa using psat_400
  have h1 : Quantity.p.si .bare 50 ≤ 99.8 := by simp; norm_num
  obtain ⟨h, s, e1, e2, e3⟩ := C73_p_hs .bare 50 400 hr hs h0 h1
  obtain ⟨h', s', d1, d2, d3⟩ := C73_t_hs .bare 50 400 hr hs h0 h1
  obtain rfl := inj (e1.symm.trans d1)
  obtain rfl := inj (e2.symm.trans d2)
  have e4 := (kernels_of_region (u := .bare) (p := 50) (t := 400) (.inl rfl) hr).2.2.1
  have e5 : s = gamma1.s 50 400 := by
    have := inj (e2.symm.trans e4)
    rw [Quantity.user_bare, Quantity.si_bare, Quantity.si_bare] at this
    exact this
  have s0 : -0.0001545495919 < Quantity.s.si .bare s := by rw [Quantity.si_bare, e5]; linarith [s_400.1]
  have s1 : Quantity.s.si .bare s < 3.397782955 := by rw [Quantity.si_bare, e5]; linarith [s_400.2]
  obtain ⟨p', e6, e7⟩ := e3 s0 s1
  obtain ⟨t', e8, e9⟩ := d3 s0 s1
  exact ⟨h, s, p', t', e1, e2, e6, by simpa using e7, e8, by simpa using e9⟩

end PyX
