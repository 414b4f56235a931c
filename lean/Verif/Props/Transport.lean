import Verif.Props.Flow
import Verif.Lemmas.SI
import Verif.Lemmas.Val
import Mathlib.Analysis.SpecialFunctions.Pow.Deriv
import Mathlib.Analysis.Calculus.Deriv.MeanValue

/-!
# C32 surface tension, C33 viscosity, C34 thermal conductivity, C39 heavy water
-/

namespace PyX

open Classical Py

set_option linter.unusedSimpArgs false

/-- the run returns NaN after one error message -/
def Failed (x : Py Num) : Prop := ∃ m, x = ⟨[⟨.error, m⟩], .ok .nan⟩

/-! ## C32 -/

/-- the surface tension of the specification (N/m), R1-76: `0.2358 τ^1.256 (1 - 0.625 τ)` -/
noncomputable def sigma (T : ℝ) : ℝ :=
  0.2358 * (1 - T / 647.096) ^ (1.256 : ℝ) * (1 - 0.625 * (1 - T / 647.096))

theorem sigma_nonneg {T : ℝ} (h0 : 0 ≤ T) (h1 : T ≤ 647.096) : 0 ≤ sigma T := by
  have a : 0 ≤ 1 - T / 647.096 := by rw [sub_nonneg, div_le_one (by norm_num)]; exact h1
  have b : 1 - T / 647.096 ≤ 1 := by have : 0 ≤ T / 647.096 := by positivity
                                     linarith
  have c : 0 ≤ 1 - 0.625 * (1 - T / 647.096) := by linarith
  unfold sigma
  positivity

theorem sigma_pos {T : ℝ} (h0 : 0 ≤ T) (h1 : T < 647.096) : 0 < sigma T := by
  have a : 0 < 1 - T / 647.096 := by rw [sub_pos, div_lt_one (by norm_num)]; exact h1
  have b : 1 - T / 647.096 ≤ 1 := by have : 0 ≤ T / 647.096 := by positivity
                                     linarith
  have c : 0 < 1 - 0.625 * (1 - T / 647.096) := by linarith
  unfold sigma
  positivity

theorem sigma_crit : sigma 647.096 = 0 := by
  unfold sigma
  rw [div_self (by norm_num), sub_self, Real.zero_rpow (by norm_num)]; simp

/-- strictly decreasing wherever water is liquid (from 72 K on) -/
theorem sigma_anti : StrictAntiOn sigma (Set.Icc 72 647.096) := by
  have key : StrictMonoOn (fun x : ℝ => x ^ (1.256 : ℝ) * (1 - 0.625 * x)) (Set.Icc 0 0.889) := by
    refine strictMonoOn_of_deriv_pos (convex_Icc _ _) ?_ ?_
    · refine ContinuousOn.mul (fun x _ => ?_) (by fun_prop)
      exact (Real.continuousAt_rpow_const x _ (Or.inr (by norm_num))).continuousWithinAt
    · intro x hx
      rw [interior_Icc] at hx
      have hd : HasDerivAt (fun x : ℝ => x ^ (1.256 : ℝ) * (1 - 0.625 * x))
          (1.256 * x ^ (1.256 - 1 : ℝ) * (1 - 0.625 * x) + x ^ (1.256 : ℝ) * (-(0.625 * 1))) x :=
        (Real.hasDerivAt_rpow_const (Or.inl hx.1.ne')).mul (((hasDerivAt_id x).const_mul 0.625).const_sub 1)
      rw [hd.deriv]
      have e : x ^ (1.256 : ℝ) = x ^ (1.256 - 1 : ℝ) * x := by
        rw [← Real.rpow_add_one hx.1.ne']; norm_num
      rw [e]
      have : 0 < x ^ (1.256 - 1 : ℝ) := Real.rpow_pos_of_pos hx.1 _
      have h2 : 0 < 1.256 - 1.41 * x := by linarith [hx.2]
      nlinarith [mul_pos this h2]
  intro a ha b hb hab
  have hm : ∀ y ∈ Set.Icc (72 : ℝ) 647.096, 1 - y / 647.096 ∈ Set.Icc (0 : ℝ) 0.889 := by
    intro y hy
    constructor
    · rw [sub_nonneg, div_le_one (by norm_num)]; exact hy.2
    · have : (72 : ℝ) / 647.096 ≤ y / 647.096 := div_le_div_of_nonneg_right hy.1 (by norm_num)
      norm_num at this ⊢; linarith
  have h := key (hm b hb) (hm a ha) (by
    have : a / 647.096 < b / 647.096 := div_lt_div_of_pos_right hab (by norm_num)
    linarith)
  simp only at h
  unfold sigma
  rw [mul_assoc, mul_assoc]
  exact mul_lt_mul_of_pos_left h (by norm_num)

theorem Surface_Tension_exact {T : ℝ} (h0 : 0.01 ≤ T) (h1 : T ≤ 647.096) :
    TransportProperties.Surface_Tension_T .ideal (.fin T) = pure (.fin (sigma T)) := by
  have c : ¬ (Num.fin T < FP.ideal.lit 0.01 ∨ Num.fin T > FP.ideal.lit Constants.CRITICAL_TEMPERATURE) := by
    simp only [lit_ideal, gt_num, fin_lt, Constants.CRITICAL_TEMPERATURE]
    push_cast
    rintro (h | h) <;> linarith
  have t0 : 0 ≤ 1 - T / 647.096 := by rw [sub_nonneg, div_le_one (by norm_num)]; exact h1
  have e : ((Constants.CRITICAL_TEMPERATURE : ℚ) : ℝ) = 647.096 := by
    norm_num [Constants.CRITICAL_TEMPERATURE]
  have e' : ((1.256 : ℚ) : ℝ) = 1.256 := by norm_num
  simp only [TransportProperties.Surface_Tension_T, if_neg c]
  simp only [lit_ideal, e, div_ideal (show (647.096 : ℝ) ≠ 0 by norm_num), pure_bind, ofInt_eq, sub_ideal,
    neg_fin, mul_ideal, add_ideal, Int.cast_one, e', pow_ideal_nonneg t0 (show (0 : ℝ) < 1.256 by norm_num)]
  unfold sigma
  push_cast
  ring_nf

/-- C32: outside [0.01 K, critical temperature] the surface tension is NaN after one warning; every sane
floating point arithmetic -/
theorem C32_outside (F : FP) (hF : F.Sane) (u : UnitSystem) (t T : Num)
    (hT : Quantity.T.toSI F u t = pure T)
    (h : T < F.lit 0.01 ∨ F.lit Constants.CRITICAL_TEMPERATURE < T) : Refused (XSteam.st_t F u t) := by
  have hn : UnitConverter.fromSIunit_st F u .nan = pure .nan := by
    obtain ⟨y, h, hn⟩ := (C02_total F hF .st u .nan).2
    simp only [Quantity.fromSI] at h
    rw [h, hn rfl]
  simp only [Quantity.toSI] at hT
  simp only [XSteam.st_t, hT, pure_bind, TransportProperties.Surface_Tension_T, gt_num, if_pos h, bind_assoc,
    hn]
  exact .intro _

/-- C32: inside it is a number, not negative, zero only at the critical temperature (exact arithmetic) -/
theorem C32_inside (u : UnitSystem) (t : ℝ) (h0 : 0.01 ≤ Quantity.T.si u t)
    (h1 : Quantity.T.si u t ≤ 647.096) :
    ∃ y : ℝ, XSteam.st_t .ideal u (.fin t) = pure (.fin y) ∧ Quantity.st.si u y = sigma (Quantity.T.si u t) ∧
      0 ≤ y ∧ (y = 0 ↔ Quantity.T.si u t = 647.096) := by
  refine ⟨_, ?_, Quantity.si_user .st u _, ?_⟩
  · simp only [XSteam.st_t, si, pure_bind, Surface_Tension_exact h0 h1]
  · have e : ∀ x, Quantity.st.user u x = x / Quantity.st.scale u := fun x => by
      have : Quantity.st.offset u = 0 := by cases u <;> rfl
      rw [Quantity.user, this, sub_zero]
    have hs := Quantity.st.scale_pos u
    rw [e]
    refine ⟨div_nonneg (sigma_nonneg (by linarith) h1) hs.le, ?_⟩
    rw [div_eq_zero_iff]
    constructor
    · rintro (h | h)
      · by_contra hne
        exact (sigma_pos (by linarith) (lt_of_le_of_ne h1 hne)).ne' h
      · exact absurd h hs.ne'
    · intro h; left; rw [h]; exact sigma_crit

/-- C32: it strictly decreases with the temperature between 72 K and the critical point -/
theorem C32_decreasing (u : UnitSystem) (t₁ t₂ y₁ y₂ : ℝ) (h72 : 72 ≤ Quantity.T.si u t₁) (hlt : t₁ < t₂)
    (hc : Quantity.T.si u t₂ ≤ 647.096)
    (e₁ : XSteam.st_t .ideal u (.fin t₁) = pure (.fin y₁))
    (e₂ : XSteam.st_t .ideal u (.fin t₂) = pure (.fin y₂)) : y₂ < y₁ := by
  have hT := Quantity.T.si_strictMono u hlt
  simp only [XSteam.st_t, si, pure_bind, Surface_Tension_exact (show 0.01 ≤ Quantity.T.si u t₁ by linarith)
    (hT.le.trans hc)] at e₁
  simp only [XSteam.st_t, si, pure_bind, Surface_Tension_exact (show 0.01 ≤ Quantity.T.si u t₂ by linarith)
    hc] at e₂
  obtain rfl : _ = y₁ := by simpa [pure, Py.ret] using e₁
  obtain rfl : _ = y₂ := by simpa [pure, Py.ret] using e₂
  exact Quantity.st.user_strictMono u (sigma_anti ⟨h72, hT.le.trans hc⟩ ⟨h72.trans hT.le, hc⟩ hT)

/-- 20 °C and 100 °C meet the hypotheses -/
example : 72 ≤ Quantity.T.si .mks 20 ∧ (20 : ℝ) < 100 ∧ Quantity.T.si .mks 100 ≤ 647.096 := by
  norm_num [Quantity.si, Quantity.scale, Quantity.offset]

/-! ## C34 -/

/-- highest pressure (MPa) at which the thermal conductivity is given -/
noncomputable def tcLimit (T : ℝ) : ℝ := if T < 773.15 then 100 else if T ≤ 923.15 then 70 else 40

theorem Post.done {α : Type} {l : List LogRec} {a : α} {Q : List LogRec → α → Prop} {E : Err → Prop} {D : Prop}
    (h : Q l a) : Post ⟨l, .ok a⟩ Q E D := h

theorem tc_rest_number (T rho : ℝ) :
    Sound False (TransportProperties.tc_ptrho.rest .ideal (.fin T) (.fin rho)) := by
  unfold TransportProperties.tc_ptrho.rest
  sound_walk

theorem tc_out {p T : ℝ} (rho : Num) (h : T < 273.15 ∨ tcLimit T < p) :
    Refused (TransportProperties.tc_ptrho .ideal (.fin p) (.fin T) rho) := by
  have e1 : ((273.15 : ℚ) : ℝ) = 273.15 := by norm_num
  simp only [TransportProperties.tc_ptrho, lit_ideal, ofInt_eq, add_ideal, gt_num, fin_lt, fin_le, e1]
  unfold tcLimit at h
  push_cast
  norm_num at h ⊢
  split_ifs <;> first
    | exact .intro _
    | (exfalso; split_ifs at h <;> rcases h with h | h <;> linarith)

theorem tc_in {p T rho : ℝ} (h1 : 273.15 ≤ T) (h2 : p ≤ tcLimit T) :
    Sound False (TransportProperties.tc_ptrho .ideal (.fin p) (.fin T) (.fin rho)) := by
  have e1 : ((273.15 : ℚ) : ℝ) = 273.15 := by norm_num
  have := tc_rest_number T rho
  simp only [TransportProperties.tc_ptrho, lit_ideal, ofInt_eq, add_ideal, gt_num, fin_lt, fin_le, e1]
  unfold tcLimit at h2
  push_cast
  norm_num at h1 h2 ⊢
  split_ifs <;> first
    | assumption
    | (exfalso; linarith)
    | (exfalso; split_ifs at h2 <;> linarith)

/-- C34: the thermal conductivity at (p, T, ρ) is NaN after exactly one warning if the temperature is below
273.15 K or the pressure above the limit for that temperature, and a number (if it returns) everywhere else -/
theorem C34_tc_ptrho (p T rho : ℝ) :
    ((T < 273.15 ∨ tcLimit T < p) ↔ Refused (TransportProperties.tc_ptrho .ideal (.fin p) (.fin T) (.fin rho))) ∧
    (¬ (T < 273.15 ∨ tcLimit T < p) → ∀ r,
      (TransportProperties.tc_ptrho .ideal (.fin p) (.fin T) (.fin rho)).out = .ok r → ∃ y : ℝ, r = .fin y) := by
  have key : ¬ (T < 273.15 ∨ tcLimit T < p) → ∀ r,
      (TransportProperties.tc_ptrho .ideal (.fin p) (.fin T) (.fin rho)).out = .ok r → ∃ y : ℝ, r = .fin y := by
    intro h r hr
    simp only [not_or, not_lt] at h
    have := (tc_in h.1 h.2).elim hr
    simpa [AllFin.ok] using this
  refine ⟨⟨tc_out _, fun h => ?_⟩, key⟩
  by_contra hn
  obtain ⟨m, hm⟩ := h
  obtain ⟨y, hy⟩ := key hn .nan (by rw [hm])
  cases hy

/-- the calls that end in the thermal conductivity at (p, t) -/
theorem C34_tc_pt (u : UnitSystem) (p t : ℝ) (r : Num)
    (hr : (XSteam.tc_pt .ideal u (.fin p) (.fin t)).out = .ok r) :
    (Quantity.T.si u t < 273.15 ∨ tcLimit (Quantity.T.si u t) < Quantity.p.si u p →
      r = .nan ∧ Warned (XSteam.tc_pt .ideal u (.fin p) (.fin t)).logs) ∧
    (¬ (Quantity.T.si u t < 273.15 ∨ tcLimit (Quantity.T.si u t) < Quantity.p.si u p) →
      ∀ v : ℝ, (XSteam.v_pt .ideal u (.fin p) (.fin t)).out = .ok (.fin v) → ∃ y : ℝ, r = .fin y) := by
  have hn : UnitConverter.fromSIunit_tc .ideal u .nan = pure .nan := by
    obtain ⟨y, h, hn⟩ := (C02_total .ideal FP.ideal_sane .tc u .nan).2
    simp only [Quantity.fromSI] at h
    rw [h, hn rfl]
  simp only [XSteam.tc_pt, si, pure_bind] at hr ⊢
  constructor
  · intro h
    have key : Post (XSteam.v_pt FP.ideal u (Num.fin p) (Num.fin t) >>= fun v => do
        let v ← UnitConverter.toSIunit_v FP.ideal u v
        let rho ← FP.ideal.div (Num.ofInt 1) v
        let __do_lift ← TransportProperties.tc_ptrho FP.ideal (.fin (Quantity.p.si u p)) (.fin (Quantity.T.si u t)) rho
        UnitConverter.fromSIunit_tc FP.ideal u __do_lift)
        (fun l r => r = .nan ∧ Warned l) (fun _ => True) True := by
      refine Post.bind (Post.any (fun _ _ => ?_) (fun _ => trivial) trivial)
      refine Post.bind (Post.any (fun _ _ => ?_) (fun _ => trivial) trivial)
      refine Post.bind (Post.any (fun _ rho => ?_) (fun _ => trivial) trivial)
      obtain ⟨m, hm⟩ := tc_out rho h
      rw [hm]
      refine Post.bind ?_
      refine Post.done ?_
      rw [hn]
      refine ⟨rfl, ?_⟩
      refine ⟨⟨.warning, m⟩, ?_, rfl⟩
      simp
    exact key.elim hr
  · intro h v hv
    simp only [not_or, not_lt] at h
    obtain ⟨l, a, e, hr⟩ := out_bind hr
    obtain rfl : a = .fin v := by rw [e] at hv; exact Outcome.ok.inj hv
    simp only [si, pure_bind] at hr
    obtain ⟨l2, a2, e2, hr⟩ := out_bind hr
    obtain ⟨l3, a3, e3, hr⟩ := out_bind hr
    simp only [ofInt_eq, div_ideal_eq] at e2
    split at e2
    · cases e2
    · cases e2
      obtain ⟨y, rfl⟩ : ∃ y : ℝ, a3 = .fin y := by
        have := (tc_in h.1 h.2).elim (a := a3) (by rw [e3])
        simpa [AllFin.ok] using this
      simp only [si] at hr
      exact ⟨_, (Outcome.ok.inj hr).symm⟩

/-- 100 °C and 1 bar, 1500 °C and 500 bar: one point inside, one outside -/
example : ¬ (Quantity.T.si .mks 100 < 273.15 ∨ tcLimit (Quantity.T.si .mks 100) < Quantity.p.si .mks 1) ∧
    (tcLimit (Quantity.T.si .mks 1500) < Quantity.p.si .mks 500) := by
  norm_num [Quantity.si, Quantity.scale, Quantity.offset, tcLimit]

/-! ## C33 -/

/-- the dimensionless viscosity of the dilute gas has a positive denominator -/
theorem my0_den_pos {x : ℝ} (hx : 0.42 ≤ x) :
    0 < 1 + 0.978197 / x + 0.579829 / x ^ 2 - 0.202354 / x ^ 3 := by
  have h0 : 0 < x := by linarith
  have : 0.579829 / x ^ 2 - 0.202354 / x ^ 3 = (0.579829 * x - 0.202354) / x ^ 3 := by field_simp
  have h' : 0 < (0.579829 * x - 0.202354) / x ^ 3 := div_pos (by linarith) (by positivity)
  have : 0 < 0.978197 / x := by positivity
  linarith

theorem my_rest_pos {p T rho : ℝ} (h1 : 273.15 ≤ T) (h2 : T ≤ 1173.15) (h3 : p ≤ 300) :
    Val (TransportProperties.my_AllRegions_pT.rest .ideal (.fin p) (.fin T) (.fin rho)) (0 < ·) := by
  have hx' : 0.42 ≤ T / 647.226 := by rw [le_div_iff₀ (by norm_num)]; norm_num; linarith
  have c : ¬ ((T > 1173.15) ∨ (T > 873.15 ∧ p > 300) ∨ (T > 423.15 ∧ p > 350) ∨ p > 500) := by
    rintro (h | h | h | h) <;> linarith [h]
  have e1 : ((273.15 : ℚ) : ℝ) = 273.15 := by norm_num
  have e2 : ((647.226 : ℚ) : ℝ) = 647.226 := by norm_num
  have e5 : ((0.5 : ℚ) : ℝ) = 0.5 := by norm_num
  have f1 : ((0.978197 : ℚ) : ℝ) = 0.978197 := by norm_num
  have f2 : ((0.579829 : ℚ) : ℝ) = 0.579829 := by norm_num
  have f3 : ((0.202354 : ℚ) : ℝ) = 0.202354 := by norm_num
  unfold TransportProperties.my_AllRegions_pT.rest
  simp only [lit_ideal, e1, e2, e5, f1, f2, f3]
  refine Val.any (Val.div (by norm_num) trivial) fun rhos => ?_
  refine Val.bind (Val.div (P := (· = T / 647.226)) (by norm_num) rfl) fun x hx => ?_
  rw [← hx] at hx'
  have hpos : 0 < x := by linarith
  rw [if_neg (by simp only [ofInt_eq, add_ideal, gt_num, fin_lt]; norm_num; norm_num at c; exact c)]
  refine Val.bind (Val.pow_pos (P := (· = x ^ (0.5 : ℝ))) hpos rfl) fun r hr => ?_
  refine Val.bind (Val.div (P := (· = 0.978197 / x)) hpos.ne' rfl) fun a1 ha1 => ?_
  refine Val.bind (Val.pow_nat (n := 2) (P := (· = x ^ 2)) rfl) fun x2 hx2 => ?_
  refine Val.bind (Val.div (P := (· = 0.579829 / x ^ 2)) (by rw [hx2]; positivity) (by rw [hx2])) fun a2 ha2 => ?_
  refine Val.bind (Val.pow_nat (n := 3) (P := (· = x ^ 3)) rfl) fun x3 hx3 => ?_
  refine Val.bind (Val.div (P := (· = 0.202354 / x ^ 3)) (by rw [hx3]; positivity) (by rw [hx3])) fun a3 ha3 => ?_
  have hd := my0_den_pos hx'
  rw [← ha1, ← ha2, ← ha3] at hd
  refine Val.bind (Val.div (b := ((1 : ℤ) : ℝ) + a1 + a2 - a3) (P := (0 < ·)) (by push_cast; exact hd.ne')
    (div_pos (by rw [hr]; positivity) (by push_cast; exact hd))) fun my0 hmy0 => ?_
  refine Val.any (Val.forRange _ fun i _ hi s => ?_) fun t => ?_
  · have hi7 : ∀ l : List ℚ, l.length = 6 → i < l.length := fun l hl => by omega
    have hl : x ≠ 0 := hpos.ne'
    repeat' (with_reducible first
      | exact Val.ret trivial
      | refine Val.idx (hi7 _ rfl) fun _ _ => ?_
      | refine Val.any (Val.div hl trivial) fun _ => ?_
      | refine Val.any (Val.pow_nat trivial) fun _ => ?_
      | refine Val.any (Val.pow_nat (n := 1) trivial) fun _ => ?_
      | refine Val.any (Val.pow_nat (n := 2) trivial) fun _ => ?_
      | refine Val.any (Val.pow_nat (n := 3) trivial) fun _ => ?_
      | refine Val.any (Val.pow_nat (n := 4) trivial) fun _ => ?_
      | refine Val.any (Val.pow_nat (n := 5) trivial) fun _ => ?_
      | refine Val.any (Val.pow_nat (n := 6) trivial) fun _ => ?_
      | (simp only [add_ideal, mul_ideal]; exact Val.ret trivial)
      | simp only [ofInt_eq, sub_ideal])
  · refine Val.bind (Val.exp (P := (0 < ·)) (Real.exp_pos _)) fun m hm => ?_
    refine Val.ret ?_
    push_cast
    positivity

theorem my_rest_out (F : FP) {p T rho : Num} (h : F.add (Num.ofInt 900) (F.lit 273.15) < T) :
    Post (TransportProperties.my_AllRegions_pT.rest F p T rho) (fun l r => r = .nan ∧ Warned l)
      (fun _ => True) True := by
  unfold TransportProperties.my_AllRegions_pT.rest
  refine Post.bind (Post.any (fun _ _ => ?_) (fun _ => trivial) trivial)
  refine Post.bind (Post.any (fun _ _ => ?_) (fun _ => trivial) trivial)
  rw [if_pos (Or.inl h)]
  refine Post.bind (Post.warn (Post.ret ⟨rfl, ?_⟩))
  simp

theorem region_pT_codes (F : FP) (p T : Num) : Post (RegionSelection.region_pT F p T)
    (fun _ r => 0 ≤ r ∧ r ≤ 5) (fun _ => True) True := by
  unfold RegionSelection.region_pT
  simp only [bind_pure, pure_bind, bind_assoc]
  repeat' with_reducible first
    | refine Post.bind (Post.warn (Post.ret ⟨?_, ?_⟩))
    | refine Post.ite (fun h => ?_) (fun h => ?_)
    | refine Post.ret ⟨?_, ?_⟩
    | refine Post.bind (Post.any (fun _ _ => ?_) (fun _ => trivial) trivial)
  all_goals norm_num

/-- a point in a region is in the box -/
theorem region_pT_box (p T : ℝ) : Post (RegionSelection.region_pT .ideal (.fin p) (.fin T))
    (fun _ r => r = 0 ∨ (273.15 < T ∧ p ≤ 100)) (fun _ => True) True := by
  have e1 : ((1073.15 : ℚ) : ℝ) = 1073.15 := by norm_num
  have e2 : ((50.0 : ℚ) : ℝ) = 50 := by norm_num
  have e3 : ((273.15 : ℚ) : ℝ) = 273.15 := by norm_num
  unfold RegionSelection.region_pT
  simp only [bind_pure]
  refine Post.ite (fun h => ?_) (fun h => Post.ite (fun h => ?_) (fun h => ?_))
  · simp only [lit_ideal, gt_num, fin_lt, e1, e2] at h
    exact Post.ret (.inr ⟨by linarith, by linarith⟩)
  · simp only [lit_ideal, gt_num, fin_lt, fin_le, e1, e3, ofInt_eq] at h
    have : 273.15 < T ∧ p ≤ 100 := ⟨h.2.1, by have := h.2.2.1; push_cast at this; exact this⟩
    exact Post.any (fun _ _ => .inr this) (fun _ => trivial) trivial
  · exact Post.bind (Post.warn (Post.ret (.inl rfl)))

theorem Post.of_sound {x : Py Num} {f : Num → Py β} {Q : List LogRec → β → Prop} (hx : Sound False x)
    (h : ∀ (l : List LogRec) (a : ℝ), Post (f (.fin a)) (fun m b => Q (l ++ m) b) (fun _ => True) True) :
    Post (x >>= f) Q (fun _ => True) True := by
  refine Post.bind (hx.mono ?_ (fun _ h => h) id)
  rintro l a (⟨y, rfl⟩ | ⟨h, -⟩)
  · exact h l y
  · exact h.elim

theorem Post.prepend {α : Type} {x : Py α} {l : List LogRec} {Q : List LogRec → α → Prop} {E : Err → Prop}
    {D : Prop} (h : Post x (fun m a => Q (l ++ m) a) E D) : Post (Py.prepend l x) Q E D := by
  rcases x with ⟨m, o⟩
  cases o <;> exact h

/-- the viscosity at a point of a region, whatever holds of the part after the choice of the density -/
theorem my_of_rest {p T : ℝ} {l : List LogRec} {k : ℤ} {Q : List LogRec → Num → Prop}
    (hreg : RegionSelection.region_pT .ideal (.fin p) (.fin T) = ⟨l, .ok k⟩) (hk : k ∈ [1, 2, 3, 5])
    (rest : ∀ (m : List LogRec) (rho : ℝ), Post (TransportProperties.my_AllRegions_pT.rest .ideal (.fin p)
      (.fin T) (.fin rho)) (fun m' => Q (m ++ m')) (fun _ => True) True) :
    Post (TransportProperties.my_AllRegions_pT .ideal (.fin p) (.fin T)) Q (fun _ => True) True := by
  have one : ∀ (m : List LogRec) (x : Py Num), Sound False x → Post (do
      let v ← x
      let rho ← FP.ideal.div (Num.ofInt 1) v
      TransportProperties.my_AllRegions_pT.rest .ideal (.fin p) (.fin T) rho)
      (fun m' => Q (m ++ m')) (fun _ => True) True := by
    intro m x hx
    refine Post.of_sound hx fun l v => ?_
    refine Post.of_sound (by sound_walk) fun l' rho => ?_
    have := rest (m ++ (l ++ l')) rho
    simpa only [List.append_assoc] using this
  simp only [List.mem_cons, List.not_mem_nil, or_false] at hk
  rcases hk with rfl | rfl | rfl | rfl
  all_goals
    simp only [TransportProperties.my_AllRegions_pT, hreg, bind_ok, Int.reduceEq, if_true, if_false]
    repeat refine Post.prepend ?_
    try simp only [← List.append_assoc]
  · exact one _ _ (by sound_walk)
  · exact one _ _ (by sound_walk)
  · refine Post.of_sound (by sound_walk) fun l v => ?_
    simp only [← List.append_assoc]
    exact one _ _ (by sound_walk)
  · exact one _ _ (by sound_walk)

/-- the viscosity at a point of a region that is not hotter than 1173.15 K -/
theorem my_pos {p T : ℝ} {l : List LogRec} {k : ℤ} (h1 : 273.15 ≤ T) (h2 : T ≤ 1173.15) (h3 : p ≤ 300)
    (hreg : RegionSelection.region_pT .ideal (.fin p) (.fin T) = ⟨l, .ok k⟩) (hk : k ∈ [1, 2, 3, 5]) :
    Post (TransportProperties.my_AllRegions_pT .ideal (.fin p) (.fin T))
      (fun _ r => ∃ y : ℝ, r = .fin y ∧ 0 < y) (fun _ => True) True := by
  refine my_of_rest hreg hk fun m rho => ?_
  obtain ⟨y, h, hy⟩ := my_rest_pos (rho := rho) h1 h2 h3
  rw [h]
  exact Post.ret ⟨y, rfl, hy⟩

/-- C33: where `my_pt` returns, it returns NaN after a warning for points outside the regions, on the
saturation line or hotter than 1173.15 K, and a positive number everywhere else (exact arithmetic) -/
theorem C33_my_pt (u : UnitSystem) (p t : ℝ) (k : ℤ) (r : Num)
    (hk : (RegionSelection.region_pT .ideal (.fin (Quantity.p.si u p)) (.fin (Quantity.T.si u t))).out = .ok k)
    (hr : (XSteam.my_pt .ideal u (.fin p) (.fin t)).out = .ok r) :
    if k ∈ [1, 2, 3, 5] ∧ Quantity.T.si u t ≤ 1173.15 then ∃ y : ℝ, r = .fin y ∧ 0 < y
    else r = .nan ∧ Warned (XSteam.my_pt .ideal u (.fin p) (.fin t)).logs := by
  have hbox := (region_pT_box (Quantity.p.si u p) (Quantity.T.si u t)).elim hk
  obtain ⟨l, hreg⟩ : ∃ l, RegionSelection.region_pT .ideal (.fin (Quantity.p.si u p))
      (.fin (Quantity.T.si u t)) = ⟨l, .ok k⟩ := ⟨_, by rw [← hk]⟩
  have hn : UnitConverter.fromSIunit_my .ideal u .nan = pure .nan := by
    obtain ⟨y, h, hn⟩ := (C02_total .ideal FP.ideal_sane .my u .nan).2
    simp only [Quantity.fromSI] at h
    rw [h, hn rfl]
  have hmy : ∀ y : ℝ, 0 < y → 0 < Quantity.my.user u y := fun y hy => by
    have : Quantity.my.offset u = 0 := by cases u <;> rfl
    rw [Quantity.user, this, sub_zero]; exact div_pos hy (Quantity.my.scale_pos u)
  by_cases h4 : k ∈ [1, 2, 3, 5]
  · have hb : 273.15 < Quantity.T.si u t ∧ Quantity.p.si u p ≤ 100 := by
      rcases hbox with rfl | h
      · simp at h4
      · exact h
    have hne : k ≠ 4 := by rintro rfl; simp at h4
    split
    · rename_i h
      simp only [XSteam.my_pt, si, pure_bind, hreg, bind_ok, if_neg hne, if_pos h4] at hr
      have key : Post (TransportProperties.my_AllRegions_pT .ideal (.fin (Quantity.p.si u p))
          (.fin (Quantity.T.si u t)) >>= UnitConverter.fromSIunit_my .ideal u)
          (fun _ r => ∃ y : ℝ, r = .fin y ∧ 0 < y) (fun _ => True) True := by
        refine Post.bind ((my_pos hb.1.le h.2 (by linarith [hb.2]) hreg h4).mono ?_ (fun _ h => h) id)
        rintro _ _ ⟨y, rfl, hy⟩
        rw [fromSI_my_fin]
        exact Post.ret ⟨_, rfl, hmy y hy⟩
      have hr' : (TransportProperties.my_AllRegions_pT .ideal (.fin (Quantity.p.si u p))
          (.fin (Quantity.T.si u t)) >>= UnitConverter.fromSIunit_my .ideal u).out = .ok r := by
        revert hr
        generalize TransportProperties.my_AllRegions_pT .ideal (.fin (Quantity.p.si u p))
          (.fin (Quantity.T.si u t)) >>= UnitConverter.fromSIunit_my .ideal u = z
        rcases z with ⟨m, o⟩
        cases o <;> exact id
      exact key.elim hr'
    · rename_i h
      have h : 1173.15 < Quantity.T.si u t := by
        by_contra h'
        exact h ⟨h4, not_lt.mp h'⟩
      have hT : FP.ideal.add (Num.ofInt 900) (FP.ideal.lit 273.15) < .fin (Quantity.T.si u t) := by
        simp only [lit_ideal, ofInt_eq, add_ideal, fin_lt]
        norm_num at h ⊢; linarith
      have key : Post (XSteam.my_pt .ideal u (.fin p) (.fin t)) (fun l r => r = .nan ∧ Warned l)
          (fun _ => True) True := by
        simp only [XSteam.my_pt, si, pure_bind, hreg, bind_ok, if_neg hne, if_pos h4]
        refine Post.prepend (Post.bind (my_of_rest hreg h4 fun m rho => ?_))
        refine (my_rest_out _ hT).mono (fun _ _ h => ?_) (fun _ h => h) id
        rw [h.1, hn]
        refine Post.ret ⟨rfl, ?_⟩
        have := h.2
        simp only [Warned.append] at this ⊢
        tauto
      exact key.elim hr
  · have h04 : k = 0 ∨ k = 4 := by
      have := (region_pT_codes .ideal (.fin (Quantity.p.si u p)) (.fin (Quantity.T.si u t))).elim hk
      simp only [List.mem_cons, List.not_mem_nil, or_false, not_or] at h4
      omega
    rw [if_neg (fun h => h4 h.1)]
    have := C13_refused .ideal u (.my_pt (.fin p) (.fin t)) _ _ _ _ rfl (toSI_p_fin u p) (toSI_T_fin u t) k hk h04
    simp only [Call.run] at this
    rw [this.1] at hr
    exact ⟨(Outcome.ok.inj hr).symm, this.2⟩

/-- C33 reaches both cases: 20 °C and 1 bar is in region 1 or 4, at most 1173.15 K; 1000 °C and 1 bar is in
region 5 and too hot -/
example : (RegionSelection.region_pT .ideal (.fin (Quantity.p.si .mks 1)) (.fin (Quantity.T.si .mks 1000))).out =
    .ok 5 ∧ ¬ Quantity.T.si .mks 1000 ≤ 1173.15 := by
  constructor
  · unfold RegionSelection.region_pT
    rw [if_pos]
    · rfl
    · simp only [lit_ideal, gt_num, fin_lt, ofInt_eq]
      norm_num [Quantity.si, Quantity.scale, Quantity.offset]
  · norm_num [Quantity.si, Quantity.scale, Quantity.offset]

/-! ## C39: heavy water -/

/-- C39: outside the temperature range the viscosity of heavy water is NaN, and an error is logged -/
theorem C39_my_outside (F : FP) (hF : F.Sane) (u : UnitSystem) (rho t T : Num)
    (hT : Quantity.T.toSI F u t = pure T) (h : T < F.lit 277 ∨ F.lit 775 < T) :
    Failed (XSteam_HW.my_rhoT F u rho t) := by
  obtain ⟨y, h1, -⟩ := (C02_total F hF .p u rho).1
  simp only [Quantity.toSI] at h1 hT
  have e1 : (277.0 : ℚ) = 277 := by norm_num
  have e2 : (775.0 : ℚ) = 775 := by norm_num
  simp only [XSteam_HW.my_rhoT, h1, hT, pure_bind, gt_num, e1, e2, if_pos h]
  exact ⟨_, rfl⟩

/-- C39: the same for the thermal conductivity -/
theorem C39_tc_outside (F : FP) (hF : F.Sane) (u : UnitSystem) (rho t T : Num)
    (hT : Quantity.T.toSI F u t = pure T) (h : T < F.lit 277 ∨ F.lit 825 < T) :
    Failed (XSteam_HW.tc_rhoT F u rho t) := by
  obtain ⟨y, h1, -⟩ := (C02_total F hF .p u rho).1
  simp only [Quantity.toSI] at h1 hT
  have e1 : (277.0 : ℚ) = 277 := by norm_num
  have e2 : (825.0 : ℚ) = 825 := by norm_num
  simp only [XSteam_HW.tc_rhoT, h1, hT, pure_bind, gt_num, e1, e2, if_pos h]
  exact ⟨_, rfl⟩

theorem Val.post {x : Py Num} {f : Num → Py β} {P : ℝ → Prop} {Q E D} (h : Val x P)
    (hf : ∀ y, P y → Post (f (.fin y)) Q E D) : Post (x >>= f) Q E D := by
  obtain ⟨y, rfl, hy⟩ := h
  rw [pure_bind]; exact hf y hy

theorem hw_den_pos {x : ℝ} (hx : 0.42 ≤ x) :
    0 < 1 + 0.940695 / x + 0.578377 / x ^ 2 - 0.202044 / x ^ 3 := by
  have h0 : 0 < x := by linarith
  have : 0.578377 / x ^ 2 - 0.202044 / x ^ 3 = (0.578377 * x - 0.202044) / x ^ 3 := by field_simp
  have h' : 0 < (0.578377 * x - 0.202044) / x ^ 3 := div_pos (by linarith) (by positivity)
  have h2 : 0 < 0.940695 / x := by positivity
  linarith

/-- the viscosity of heavy water in µPa s is a positive number from 271 K on, for every density -/
theorem hw_my_pos (rho : ℝ) {T : ℝ} (hT : 271 ≤ T) :
    Post (IAPWS_R4.myHW_rhoT_R4 .ideal (.fin rho) (.fin T)) (fun _ r => ∃ y : ℝ, r = .fin y ∧ 0 < y)
      (fun _ => False) False := by
  have hx' : 0.42 ≤ T / 643.847 := by rw [le_div_iff₀ (by norm_num)]; norm_num; linarith
  have e1 : ((643.847 : ℚ) : ℝ) = 643.847 := by norm_num
  have e2 : ((55.2651 : ℚ) : ℝ) = 55.2651 := by norm_num
  have e3 : ((1.0 : ℚ) : ℝ) = 1 := by norm_num
  have e4 : ((0.940695 : ℚ) : ℝ) = 0.940695 := by norm_num
  have e5 : ((0.578377 : ℚ) : ℝ) = 0.578377 := by norm_num
  have e6 : ((-0.202044 : ℚ) : ℝ) = -0.202044 := by norm_num
  unfold IAPWS_R4.myHW_rhoT_R4
  simp only [lit_ideal, e1, e2, e3]
  refine Post.bind (Post.logDebug ?_)
  refine Val.post (Val.div (P := (· = T / 643.847)) (by norm_num) rfl) fun x hx => ?_
  rw [← hx] at hx'
  have hpos : 0 < x := by linarith
  refine Val.post (P := fun _ => True) (Val.div (by norm_num) trivial) fun rhos _ => ?_
  refine Val.post (P := (0 < ·)) ?_ fun den hden => ?_
  · have hd := hw_den_pos hx'
    have p (n : ℕ) := pow_ideal_int (a := x) (n := (n : ℤ)) (Or.inl hpos.ne')
    have i0 : idx IAPWS_R4.myHW_rhoT_R4.A 0 = pure 1.0 := rfl
    have i1 : idx IAPWS_R4.myHW_rhoT_R4.A 1 = pure 0.940695 := rfl
    have i2 : idx IAPWS_R4.myHW_rhoT_R4.A 2 = pure 0.578377 := rfl
    have i3 : idx IAPWS_R4.myHW_rhoT_R4.A 3 = pure (-0.202044) := rfl
    have d (a : ℝ) (n : ℕ) := div_ideal (a := a) (b := x ^ (n : ℤ)) (zpow_ne_zero _ hpos.ne')
    simp only [forRange_lt (show 0 < 4 by norm_num), forRange_lt (show 0 + 1 < 4 by norm_num),
      forRange_lt (show 0 + 1 + 1 < 4 by norm_num), forRange_lt (show 0 + 1 + 1 + 1 < 4 by norm_num),
      show 0 + 1 + 1 + 1 + 1 = 4 from rfl, forRange_self, pure_bind, ofInt_eq, Nat.reduceAdd, i0, i1, i2, i3,
      p, d, add_ideal, e3, e4, e5, e6]
    refine Val.ret ?_
    simp only [zpow_natCast, pow_zero, pow_one]
    push_cast
    rw [neg_div]
    linarith
  refine Val.post (P := (0 < ·)) (Val.sqrt hpos.le (Real.sqrt_pos.2 hpos)) fun r hr => ?_
  refine Val.post (P := (0 < ·)) (Val.div hden.ne' (div_pos hr hden)) fun my0 hmy0 => ?_
  refine Val.post (P := fun _ => True) (Val.forRange _ fun i _ hi s => ?_) fun t _ => ?_
  · refine Val.any (Val.div hpos.ne' trivial) fun a => ?_
    refine Val.any (Val.pow_nat trivial) fun b => ?_
    refine Val.any (Val.forRange _ fun j _ hj s => ?_) fun t => Val.ret trivial
    have hj' : j < IAPWS_R4.myHW_rhoT_R4.B.length := hj
    refine Val.idx hj' fun row hrow => ?_
    have hi' : i < row.length := by
      have : row.length = 6 := by
        simp only [IAPWS_R4.myHW_rhoT_R4.B, List.mem_cons, List.not_mem_nil, or_false] at hrow
        rcases hrow with h | h | h | h | h | h | h <;> rw [h] <;> rfl
      omega
    refine Val.idx hi' fun _ _ => ?_
    refine Val.any (Val.pow_nat trivial) fun b => Val.ret trivial
  · refine Val.post (P := (0 < ·)) (Val.exp (Real.exp_pos _)) fun m hm => ?_
    refine Post.bind (Post.logDebug (Post.ret ⟨_, rfl, ?_⟩))
    positivity

/-- C39: inside the temperature range `my_rhoT` returns, for every density; it takes the density through the
conversion of a pressure and the viscosity through the conversion of a temperature.  In SI units that is harmless
and the result is a positive number. -/
theorem C39_my_inside (u : UnitSystem) (rho t : ℝ) (h1 : 277 ≤ Quantity.T.si u t) (h2 : Quantity.T.si u t ≤ 775) :
    ∃ m : ℝ, 0 < m ∧
      (XSteam_HW.my_rhoT .ideal .bare (.fin (Quantity.p.si u rho)) (.fin (Quantity.T.si u t))).out = .ok (.fin m) ∧
      (XSteam_HW.my_rhoT .ideal u (.fin rho) (.fin t)).out = .ok (.fin (Quantity.T.user u m)) := by
  have e1 : ((277.0 : ℚ) : ℝ) = 277 := by norm_num
  have e2 : ((775.0 : ℚ) : ℝ) = 775 := by norm_num
  have hc : ¬ (Quantity.T.si u t < 277 ∨ 775 < Quantity.T.si u t) := by
    rintro (h | h) <;> linarith
  have key := hw_my_pos (Quantity.p.si u rho) (T := Quantity.T.si u t) (by linarith)
  generalize hz : IAPWS_R4.myHW_rhoT_R4 .ideal (.fin (Quantity.p.si u rho)) (.fin (Quantity.T.si u t)) = z at key
  rcases z with ⟨l, o⟩
  cases o with
  | raise e => exact False.elim key
  | diverge => exact False.elim key
  | ok r =>
    obtain ⟨m, rfl, hm⟩ : ∃ y : ℝ, r = .fin y ∧ 0 < y := key
    refine ⟨m, hm, ?_, ?_⟩ <;>
    simp only [XSteam_HW.my_rhoT, si, pure_bind, Quantity.si_bare, lit_ideal, e1, e2, gt_num, fin_lt, if_neg hc,
      hz] <;>
    simp only [bind_ok, si, Quantity.user_bare] <;>
    rfl

/-- C39, the defect: in the MKS system the result of `my_rhoT` at `rho` kg/m³ is the viscosity at a tenth of that
density, minus 273.15 -/
theorem C39_my_mks (rho t : ℝ) (h1 : 3.85 ≤ t) (h2 : t ≤ 501.85) :
    ∃ m : ℝ, 0 < m ∧
      (XSteam_HW.my_rhoT .ideal .bare (.fin (rho / 10)) (.fin (t + 273.15))).out = .ok (.fin m) ∧
      (XSteam_HW.my_rhoT .ideal .mks (.fin rho) (.fin t)).out = .ok (.fin (m - 273.15)) := by
  have := C39_my_inside .mks rho t
  have e : Quantity.p.si .mks rho = rho / 10 := by norm_num [Quantity.si, Quantity.scale, Quantity.offset]; ring
  have e' : Quantity.T.si .mks t = t + 273.15 := by norm_num [Quantity.si, Quantity.scale, Quantity.offset]
  have e'' : ∀ m, Quantity.T.user .mks m = m - 273.15 := fun m => by
    norm_num [Quantity.user, Quantity.scale, Quantity.offset]
  simp only [e, e', e''] at this
  exact this (by linarith) (by linarith)

/-- both sides of the range -/
example : FP.ideal.lit 775 < .fin 800 ∧ (277 : ℝ) ≤ Quantity.T.si .mks 20 := by
  simp only [lit_ideal, fin_lt]
  norm_num [Quantity.si, Quantity.scale, Quantity.offset]

end PyX
