import Verif.Props.Saturation
import Verif.Props.RegionCodes
import Verif.Spec.RegionPT

/-!
# C07: `region_pT` is the map of regions
-/

namespace PyX

open Classical Py Num Spec.Sat Spec.PT

theorem psat_sat {T : ℝ} (_h : T < n10) (h0 : 0 ≤ theta T) (h1 : theta T ≤ 647.1735) : Sat (psat T) T := by
  have h1' : theta T ≤ 647.3 := by linarith
  have hb := betaOf_pos h0 h1'
  have hl : betaOf (theta T) < 2.199 := by
    have : satA (theta T) * 2.199 ^ 2 + satB (theta T) * 2.199 + satC (theta T) < 0 := by
      simp only [satA, satB, satC, n1, n2, n3, n4, n5, n6, n7, n8]
      nlinarith [mul_nonneg (sub_nonneg.2 h1) h0]
    exact root_lt (satC_pos _) (by norm_num) this
  refine ⟨by rw [psat]; positivity, ?_, ?_⟩
  · have := pow_lt_pow_left₀ hl hb.le (n := 4) (by norm_num)
    rw [psat]; norm_num at this ⊢; linarith
  · have e := quarter hb.le
    rw [show (0.25 : ℝ) = 1 / 4 by norm_num] at e
    rw [OnLine, psat, e, betaOf_eq h0 h1']

/-- there is only one saturation pressure -/
theorem sat_unique {T ps : ℝ} (h0 : 0 ≤ theta T) (h1 : theta T ≤ 647.3) (h : Sat ps T) : ps = psat T := by
  obtain ⟨a, b, c⟩ := h
  have e := quarter_pow a.le
  rw [show (0.25 : ℝ) = 1 / 4 by norm_num] at e
  have hb : 0 ≤ ps ^ (1 / 4 : ℝ) := Real.rpow_nonneg a.le _
  have hb' : ps ^ (1 / 4 : ℝ) ≤ 2.2 := by
    by_contra hn
    have := pow_le_pow_left₀ (by norm_num) (not_le.1 hn).le 4
    rw [e] at this
    norm_num at this b
    linarith
  rw [psat, betaOf_unique h0 h1 hb hb' c, e]

theorem theta_box {T : ℝ} (h0 : 273.15 < T) (h1 : T < 647.096) : T < n10 ∧ 0 ≤ theta T ∧ theta T ≤ 647.1735 := by
  have hn : T < n10 := by norm_num [n10]; norm_num at h1; linarith
  refine ⟨hn, by linarith [theta_gt hn], ?_⟩
  have := theta_mono h1 (by norm_num [n10])
  have h2 : theta 647.096 ≤ 647.1735 := by norm_num [theta, n9, n10]
  linarith

theorem B23p_T_eq (T : ℝ) : RegionBorders.B23p_T .ideal (.fin T) = pure (.fin (b23 T)) := by
  have h2 : FP.ideal.pow (.fin T) (.fin 2) = pure (.fin (T ^ 2)) := by
    have := pow_ideal_int (a := T) (n := 2) (Or.inr (by norm_num))
    rw [show ((2 : ℤ) : ℝ) = 2 by norm_num] at this
    rw [this]; norm_cast
  have i2 : Num.ofInt 2 = .fin 2 := by rw [ofInt_eq]; norm_num
  unfold RegionBorders.B23p_T
  simp only [i2, h2, pure_bind, lit_ideal, mul_ideal, sub_ideal, add_ideal, b23]
  norm_num

theorem saturated_iff {p T : ℝ} (h0 : 273.15 < T) (h1 : T < 647.096) :
    Saturated p T ↔ |p - psat T| < 0.00001 := by
  obtain ⟨a, b, c⟩ := theta_box h0 h1
  constructor
  · rintro ⟨ps, hs, h⟩
    rwa [← sat_unique b (by linarith) hs]
  · exact fun h => ⟨_, psat_sat a b c, h⟩

/-- C07: in exact arithmetic `region_pT` returns, for every pair of reals, the number of the region that
contains it, and it logs a warning exactly when there is none -/
theorem C07_region_pT (p T : ℝ) : ∃ l k, RegionSelection.region_pT .ideal (.fin p) (.fin T) = ⟨l, .ok k⟩ ∧
    InRegion k p T ∧ (k = 0 ∧ Warned l ∨ k ≠ 0 ∧ l = []) := by
  have e1 : FP.ideal.lit 1073.15 = .fin 1073.15 := by rw [lit_ideal]; norm_num
  have e2 : FP.ideal.lit 50.0 = .fin 50 := by rw [lit_ideal]; norm_num
  have e3 : FP.ideal.lit 2273.15 = .fin 2273.15 := by rw [lit_ideal]; norm_num
  have e4 : FP.ideal.lit 0.000611 = .fin 0.000611 := by rw [lit_ideal]; norm_num
  have e5 : FP.ideal.lit 273.15 = .fin 273.15 := by rw [lit_ideal]; norm_num
  have e6 : Num.ofInt 100 = .fin 100 := by rw [ofInt_eq]; norm_num
  have e7 : FP.ideal.lit 623.15 = .fin 623.15 := by rw [lit_ideal]; norm_num
  have e8 : FP.ideal.lit 647.096 = .fin 647.096 := by rw [lit_ideal]; norm_num
  have e9 : FP.ideal.lit 0.00001 = .fin 0.00001 := by rw [lit_ideal]; norm_num
  unfold RegionSelection.region_pT
  simp only [bind_pure, e1, e2, e3, e4, e5, e6, e7, e8, e9, gt_num, fin_lt, fin_le, B23p_T_eq, pure_bind]
  by_cases hot : 1073.15 < T ∧ p < 50 ∧ T < 2273.15 ∧ 0.000611 < p
  · rw [if_pos hot]
    exact ⟨[], 5, rfl, .inr (.inl ⟨rfl, hot.1, hot.2.2.1, hot.2.2.2, hot.2.1⟩), by simp⟩
  rw [if_neg hot]
  by_cases box : T ≤ 1073.15 ∧ 273.15 < T ∧ p ≤ 100 ∧ 0.000611 < p
  swap
  · rw [if_neg box]
    refine ⟨[⟨.warning, "Temperature outside valid area"⟩], 0, rfl, .inl ⟨rfl, ?_, ?_⟩, by simp⟩
    · exact fun h => box ⟨h.2.1, h.1, h.2.2.2, h.2.2.1⟩
    · exact fun h => hot ⟨h.1, h.2.2.2, h.2.1, h.2.2.1⟩
  rw [if_pos box]
  have hbox : Box p T := ⟨box.2.1, box.1, box.2.2.2, box.2.2.1⟩
  by_cases hT : 623.15 < T
  · rw [if_pos hT]
    by_cases hb : b23 T < p
    swap
    · rw [if_neg hb]
      refine ⟨[], 2, rfl, ?_, by simp⟩
      simp only [InRegion]
      exact .inr (.inr (.inr (.inr (.inl ⟨trivial, hbox, hT, not_lt.1 hb⟩))))
    rw [if_pos hb]
    by_cases hc : T < 647.096
    swap
    · rw [if_neg hc]
      exact ⟨[], 3, rfl, .inr (.inr (.inr (.inr (.inr (.inl ⟨rfl, hbox, hT, hb, fun h => hc h.1⟩))))), by simp⟩
    obtain ⟨a, b, c⟩ := theta_box hbox.1 hc
    rw [if_pos hc, p4_T_eq a b (by linarith)]
    simp only [pure_bind, sub_ideal, fabs_fin, fin_lt]
    by_cases hs : |p - psat T| < 0.00001
    · rw [if_pos hs]
      exact ⟨[], 4, rfl, .inr (.inr (.inr (.inr (.inr (.inr (.inr
        ⟨rfl, hbox, hT, hb, hc, (saturated_iff hbox.1 hc).2 hs⟩)))))), by simp⟩
    · rw [if_neg hs]
      exact ⟨[], 3, rfl, .inr (.inr (.inr (.inr (.inr (.inl
        ⟨rfl, hbox, hT, hb, fun h => hs ((saturated_iff hbox.1 hc).1 h.2)⟩))))), by simp⟩
  · rw [if_neg hT]
    have hc : T < 647.096 := by have := not_lt.1 hT; norm_num at this ⊢; linarith
    obtain ⟨a, b, c⟩ := theta_box hbox.1 hc
    rw [p4_T_eq a b (by linarith)]
    simp only [pure_bind, sub_ideal, fabs_fin, fin_lt]
    have iff := saturated_iff (p := p) hbox.1 hc
    by_cases hs : |p - psat T| < 0.00001
    · rw [if_pos hs]
      exact ⟨[], 4, rfl, .inr (.inr (.inr (.inr (.inr (.inr (.inl
        ⟨rfl, hbox, not_lt.1 hT, iff.2 hs⟩)))))), by simp⟩
    rw [if_neg hs]
    by_cases hp : psat T < p
    · rw [if_pos hp]
      exact ⟨[], 1, rfl, .inr (.inr (.inl ⟨rfl, hbox, not_lt.1 hT, fun h => hs (iff.1 h), _, psat_sat a b c, hp⟩)),
        by simp⟩
    · rw [if_neg hp]
      refine ⟨[], 2, rfl, .inr (.inr (.inr (.inl ⟨rfl, hbox, not_lt.1 hT, fun h => hs (iff.1 h), _, psat_sat a b c,
        lt_of_le_of_ne (not_lt.1 hp) ?_⟩))), by simp⟩
      rintro rfl
      exact hs (by norm_num)

/-- no point of the plane has two region numbers -/
theorem C07_unique (p T : ℝ) (k k' : ℤ) (h : InRegion k p T) (h' : InRegion k' p T) : k = k' := by
  have disj : Box p T → ¬ Hot p T := fun a b => absurd b.1 (not_lt.2 a.2.1)
  have sat : Box p T → T ≤ 623.15 → (∃ ps, Sat ps T ∧ ps < p) → ¬ ∃ ps, Sat ps T ∧ p < ps := by
    rintro a b ⟨x, hx, hxp⟩ ⟨y, hy, hyp⟩
    obtain ⟨_, t0, t1⟩ := theta_box a.1 (by linarith)
    rw [sat_unique t0 (by linarith) hx] at hxp
    rw [sat_unique t0 (by linarith) hy] at hyp
    linarith
  simp only [InRegion] at h h'
  rcases h with ⟨rfl, h⟩ | ⟨rfl, h⟩ | ⟨rfl, h⟩ | ⟨rfl, h⟩ | ⟨rfl, h⟩ | ⟨rfl, h⟩ | ⟨rfl, h⟩ | ⟨rfl, h⟩ <;>
  rcases h' with ⟨rfl, h'⟩ | ⟨rfl, h'⟩ | ⟨rfl, h'⟩ | ⟨rfl, h'⟩ | ⟨rfl, h'⟩ | ⟨rfl, h'⟩ | ⟨rfl, h'⟩ | ⟨rfl, h'⟩ <;>
  first
    | rfl
    | (exfalso; tauto)
    | exact (sat h.1 h.2.1 h.2.2.2 h'.2.2.2).elim
    | exact (sat h.1 h.2.1 h'.2.2.2 h.2.2.2).elim
    | (exfalso; have := h.2.1; have := h'.2.1; linarith)

/-- inside a region nothing is logged -/
theorem region_pT_pure {p T : ℝ} {k : ℤ} (h : InRegion k p T) (hk : k ≠ 0) :
    RegionSelection.region_pT .ideal (.fin p) (.fin T) = pure k := by
  obtain ⟨l, k', e, h', w⟩ := C07_region_pT p T
  obtain rfl := C07_unique p T k k' h h'
  rcases w with ⟨w, -⟩ | ⟨-, rfl⟩
  · exact (hk w).elim
  · exact e

/-- C07: the region number is returned if and only if the point is in that region -/
theorem C07_iff (p T : ℝ) (k : ℤ) :
    (RegionSelection.region_pT .ideal (.fin p) (.fin T)).out = .ok k ↔ InRegion k p T := by
  obtain ⟨l, k', e, h, -⟩ := C07_region_pT p T
  rw [e]
  constructor
  · intro hk
    rwa [Outcome.ok.inj hk] at h
  · intro hk
    exact congrArg Outcome.ok (C07_unique p T k' k h hk)

/-- C07, in every arithmetic: only documented codes, 0 only with a warning, and each code only on its side
of the borders -/
theorem C07_any_arithmetic (F : FP) (p T : Num) (r : ℤ) (hr : (RegionSelection.region_pT F p T).out = .ok r) :
    r ∈ ({0, 1, 2, 3, 4, 5} : Set ℤ) ∧
    (r = 0 → Warned (RegionSelection.region_pT F p T).logs) ∧
    (r = 5 ↔ F.lit 1073.15 < T ∧ p < F.lit 50.0 ∧ T < F.lit 2273.15 ∧ F.lit 0.000611 < p) ∧
    (r = 1 → T ≤ F.lit 1073.15 ∧ F.lit 273.15 < T ∧ p ≤ Num.ofInt 100 ∧ F.lit 0.000611 < p ∧ ¬ F.lit 623.15 < T) ∧
    (r = 2 → T ≤ F.lit 1073.15 ∧ F.lit 273.15 < T ∧ p ≤ Num.ofInt 100 ∧ F.lit 0.000611 < p) ∧
    (r = 3 → T ≤ F.lit 1073.15 ∧ F.lit 623.15 < T ∧ p ≤ Num.ofInt 100 ∧ F.lit 0.000611 < p) ∧
    (r = 4 → T ≤ F.lit 1073.15 ∧ F.lit 273.15 < T ∧ p ≤ Num.ofInt 100 ∧ F.lit 0.000611 < p ∧
      (F.lit 623.15 < T → T < F.lit 647.096)) := by
  refine Post.elim (Q := fun l r => r ∈ ({0, 1, 2, 3, 4, 5} : Set ℤ) ∧ (r = 0 → Warned l) ∧
    (r = 5 ↔ F.lit 1073.15 < T ∧ p < F.lit 50.0 ∧ T < F.lit 2273.15 ∧ F.lit 0.000611 < p) ∧
    (r = 1 → T ≤ F.lit 1073.15 ∧ F.lit 273.15 < T ∧ p ≤ Num.ofInt 100 ∧ F.lit 0.000611 < p ∧ ¬ F.lit 623.15 < T) ∧
    (r = 2 → T ≤ F.lit 1073.15 ∧ F.lit 273.15 < T ∧ p ≤ Num.ofInt 100 ∧ F.lit 0.000611 < p) ∧
    (r = 3 → T ≤ F.lit 1073.15 ∧ F.lit 623.15 < T ∧ p ≤ Num.ofInt 100 ∧ F.lit 0.000611 < p) ∧
    (r = 4 → T ≤ F.lit 1073.15 ∧ F.lit 273.15 < T ∧ p ≤ Num.ofInt 100 ∧ F.lit 0.000611 < p ∧
      (F.lit 623.15 < T → T < F.lit 647.096))) (E := fun _ => True) (D := True) ?_ hr
  unfold RegionSelection.region_pT
  simp only [bind_pure, gt_num]
  repeat' with_reducible first
    | refine Post.bind (Post.warn (Post.ret ?_))
    | refine Post.ite (fun _ => ?_) (fun _ => ?_)
    | refine Post.ret ?_
    | refine Post.bind (Post.any (fun _ _ => ?_) (fun _ => trivial) trivial)
  all_goals simp_all

/-- outside the numbers there is no region, in every sane arithmetic -/
theorem C07_not_finite (F : FP) (hF : F.Sane) (p T : Num) (h : (∀ x, p ≠ .fin x) ∨ (∀ x, T ≠ .fin x)) :
    ∃ m, RegionSelection.region_pT F p T = ⟨[⟨.warning, m⟩], .ok 0⟩ := by
  have fin : ∀ q : ℚ, 1e-100 ≤ |(q : ℝ)| → |(q : ℝ)| ≤ 1e100 → ∃ y, F.lit q = .fin y := fun q a b => by
    obtain ⟨y, hy, -⟩ := hF.normal q a b
    exact ⟨y, hy⟩
  obtain ⟨a1, e1⟩ := fin 1073.15 (by norm_num) (by norm_num)
  obtain ⟨a2, e2⟩ := fin 50.0 (by norm_num) (by norm_num)
  obtain ⟨a3, e3⟩ := fin 2273.15 (by norm_num) (by norm_num)
  obtain ⟨a4, e4⟩ := fin 0.000611 (by norm_num) (by norm_num)
  obtain ⟨a5, e5⟩ := fin 273.15 (by norm_num) (by norm_num)
  have e6 : Num.ofInt 100 = .fin 100 := by rw [ofInt_eq]; norm_num
  have key : ∀ (x : Num) (a b : ℝ), (∀ y, x ≠ .fin y) → ¬ ((x < .fin a ∨ x ≤ .fin a) ∧ .fin b < x) := by
    intro x a b hx ⟨h1, h2⟩
    have h1 : x < .fin a := by
      rcases h1 with h1 | h1 | h1
      · exact h1
      · exact h1
      · cases x <;> first | exact (hx _ rfl).elim | exact h1.elim
    cases x with
    | nan => exact h1
    | fin y => exact hx y rfl
    | inf s =>
      have h1 : s = true := h1
      have h2 : s = false := h2
      rw [h1] at h2
      cases h2
  unfold RegionSelection.region_pT
  simp only [bind_pure, gt_num, e1, e2, e3, e4, e5, e6]
  rw [if_neg, if_neg]
  · exact ⟨_, rfl⟩
  · rintro ⟨t1, t2, p1, p2⟩
    exact h.elim (fun h => key p _ _ h ⟨.inr p1, p2⟩) (fun h => key T _ _ h ⟨.inr t1, t2⟩)
  · rintro ⟨t1, p1, t2, p2⟩
    exact h.elim (fun h => key p _ _ h ⟨.inl p1, p2⟩) (fun h => key T _ _ h ⟨.inl t2, t1⟩)

/-! all regions but the band around the saturation line have simple points; the band contains the
saturation pressure itself -/

example : InRegion 5 1 1200 := .inr (.inl ⟨rfl, by norm_num [Hot]⟩)
example : InRegion 0 1 (-3) := .inl ⟨rfl, by norm_num [Box], by norm_num [Hot]⟩
example : InRegion 2 10 900 := by
  refine .inr (.inr (.inr (.inr (.inl ⟨rfl, ?_, ?_, ?_⟩)))) <;> norm_num [Box, b23]
example : InRegion 3 50 700 := by
  refine .inr (.inr (.inr (.inr (.inr (.inl ⟨rfl, ?_, ?_, ?_, ?_⟩))))) <;> norm_num [Box, b23]
example : ∃ p, InRegion 4 p 500 := by
  have h := theta_box (T := 500) (by norm_num) (by norm_num)
  have hs := psat_sat h.1 h.2.1 h.2.2
  refine ⟨psat 500, .inr (.inr (.inr (.inr (.inr (.inr (.inl ⟨rfl, ⟨by norm_num, by norm_num, ?_, ?_⟩, by norm_num,
    psat 500, hs, by norm_num⟩))))))⟩
  · have := (psat_range (T := 500) (by norm_num) (by norm_num)).1; linarith
  · have := (psat_range (T := 500) (by norm_num) (by norm_num)).2; linarith
theorem region1_point : InRegion 1 50 400 := by
  have h := theta_box (T := 400) (by norm_num) (by norm_num)
  have hs := psat_sat h.1 h.2.1 h.2.2
  have := hs.2.1
  refine .inr (.inr (.inl ⟨rfl, by norm_num [Box], by norm_num, ?_, psat 400, hs, by linarith⟩))
  rw [saturated_iff (by norm_num) (by norm_num), abs_of_nonneg (by linarith)]
  norm_num
  linarith

end PyX
