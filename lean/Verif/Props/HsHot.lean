import Verif.Lemmas.HsVapour
import Verif.Props.Refused
import Verif.Props.Backward2
import Verif.Props.NanCalls

/-!
# C79: hot steam is refused by enthalpy and entropy
-/

namespace PyX

open Classical Py Num _root_.Spec.Sat _root_.Spec.PT _root_.Spec.IF97 Kron

variable {p T h s : ℝ}

/-- the polynomial of `region_hs` for the isotherm 1073.15 K up to the entropy of the saturated vapour at 0.000611 MPa -/
theorem hMax_low (h0 : 6.7 ≤ s) (h1 : s ≤ 9.155759395) :
    -2.988734 * s ^ 4 + 121.4015 * s ^ 3 - 1805.15 * s ^ 2 + 11720.16 * s - 23998.33 < 4162 := by
  obtain ⟨d, rfl⟩ : ∃ d, s = 9.155759395 - d := ⟨9.155759395 - s, by ring⟩
  have d0 : 0 ≤ d := by linarith
  have d1 : d ≤ 2.456 := by linarith
  nlinarith [mul_nonneg d0 (sub_nonneg.2 d1), mul_nonneg (mul_nonneg d0 d0) (sub_nonneg.2 d1), sq_nonneg (d * (d - 0.6)), mul_nonneg d0 (sq_nonneg (d - 0.6)), mul_nonneg d0 (sq_nonneg (d - 1))]

/-- and beyond -/
theorem hMax_high (h0 : 9.155759395 ≤ s) (h1 : s ≤ 11.9212156897728) :
    -0.07554022 * s ^ 4 + 3.341571 * s ^ 3 - 55.42151 * s ^ 2 + 408.515 * s + 3031.338 < 4162 := by
  obtain ⟨d, rfl⟩ : ∃ d, s = 11.9212156897728 - d := ⟨11.9212156897728 - s, by ring⟩
  have d0 : 0 ≤ d := by linarith
  have d1 : d ≤ 2.766 := by linarith
  nlinarith [mul_nonneg d0 (sub_nonneg.2 d1), mul_nonneg (mul_nonneg d0 d0) (sub_nonneg.2 d1), sq_nonneg (d * (d - 0.6)), mul_nonneg d0 (sq_nonneg (d - 0.6)), mul_nonneg d0 (sq_nonneg (d - 1))]

private theorem e0 : FP.ideal.lit 0.0001545495919 = .fin 0.0001545495919 := by rw [lit_ideal]; norm_num
private theorem e1 : FP.ideal.lit 0.0415878 = .fin 0.0415878 := by rw [lit_ideal]; norm_num
private theorem e2 : FP.ideal.lit 2500.89262 = .fin 2500.89262 := by rw [lit_ideal]; norm_num
private theorem e3 : FP.ideal.lit 0.00015455 = .fin 0.00015455 := by rw [lit_ideal]; norm_num
private theorem e4 : FP.ideal.lit 9.155759 = .fin 9.155759 := by rw [lit_ideal]; norm_num
private theorem e5 : FP.ideal.lit 9.155759395 = .fin 9.155759395 := by rw [lit_ideal]; norm_num
private theorem e6 : FP.ideal.lit 3.77828134 = .fin 3.77828134 := by rw [lit_ideal]; norm_num
private theorem e7 : FP.ideal.lit 5.260578707 = .fin 5.260578707 := by rw [lit_ideal]; norm_num
private theorem e8 : FP.ideal.lit 11.9212156897728 = .fin 11.9212156897728 := by rw [lit_ideal]; norm_num
private theorem e9 : FP.ideal.lit 6.04048367171238 = .fin 6.04048367171238 := by rw [lit_ideal]; norm_num
private theorem e10 : FP.ideal.lit 4.41202148223476 = .fin 4.41202148223476 := by rw [lit_ideal]; norm_num
private theorem e11 : FP.ideal.lit 5.85 = .fin 5.85 := by rw [lit_ideal]; norm_num
private theorem p1 : FP.ideal.lit 2.988734 = .fin 2.988734 := by rw [lit_ideal]; norm_num
private theorem p2 : FP.ideal.lit 121.4015 = .fin 121.4015 := by rw [lit_ideal]; norm_num
private theorem p3 : FP.ideal.lit 1805.15 = .fin 1805.15 := by rw [lit_ideal]; norm_num
private theorem p4 : FP.ideal.lit 11720.16 = .fin 11720.16 := by rw [lit_ideal]; norm_num
private theorem p5 : FP.ideal.lit 23998.33 = .fin 23998.33 := by rw [lit_ideal]; norm_num
private theorem q1 : FP.ideal.lit 0.07554022 = .fin 0.07554022 := by rw [lit_ideal]; norm_num
private theorem q2 : FP.ideal.lit 3.341571 = .fin 3.341571 := by rw [lit_ideal]; norm_num
private theorem q3 : FP.ideal.lit 55.42151 = .fin 55.42151 := by rw [lit_ideal]; norm_num
private theorem q4 : FP.ideal.lit 408.515 = .fin 408.515 := by rw [lit_ideal]; norm_num
private theorem q5 : FP.ideal.lit 3031.338 = .fin 3031.338 := by rw [lit_ideal]; norm_num

/-- at the entropy of the saturated vapour at the lowest pressure, and from 6.7 kJ/(kg K) to it -/
theorem h4_s_small (h0 : 6.7 ≤ s) (h1 : s ≤ 9.155759395) : ∃ v : ℝ, Region4.h4_s .ideal (.fin s) = pure (.fin v) ∧ v < 4162 := by
  rcases h1.lt_or_eq with h | rfl
  · exact ⟨_, h4_s_4 h0 h, h4_s_4_lt h0 h⟩
  · refine ⟨-99999, ?_, by norm_num⟩
    unfold Region4.h4_s
    simp only [e0, e5, e6, e10, e11, gt_num, fin_lt, fin_le, neg_fin]
    rw [if_neg (by norm_num), if_neg (by norm_num), if_neg (by norm_num), if_neg (by norm_num), ofInt_eq]
    norm_num

private theorem either {α : Type} {c : Prop} {_ : Decidable c} {x y : α} {P : α → Prop} (hx : P x) (hy : P y) : P (if c then x else y) := by
  by_cases hc : c
  · rwa [if_pos hc]
  · rwa [if_neg hc]

private theorem e12 : FP.ideal.lit 0.000611 = .fin 0.000611 := by rw [lit_ideal]; norm_num

theorem vapour_thin {T : ℝ} (h0 : 273.15 ≤ T) (h1 : T ≤ 1073.15) : Vapour 0.000611 T := by
  have b := le_psat (T := 273.15) (Tk := 273.15) (β := 0.15723) (by norm_num) (by norm_num) (by norm_num) (by norm_num) (by norm_num)
    (by norm_num [eqQ, thQ])
  have v : Vapour 0.000611 273.15 := ⟨by norm_num, by norm_num, by norm_num, by norm_num,
    fun _ => by norm_num at b ⊢; linarith, fun h => by norm_num at h⟩
  exact v.up h0 h1

set_option exponentiation.threshold 2000 in
theorem log_611 : 363 * Real.log 2 < -(34 * Real.log 0.000611) ∧ -(167 * Real.log 0.000611) < 1783 * Real.log 2 := by
  have a : ((363 : ℕ) : ℝ) * Real.log 2 < (34 : ℕ) * Real.log (0.000611)⁻¹ := by
    rw [← Real.log_pow, ← Real.log_pow]
    exact Real.log_lt_log (by norm_num) (by norm_num)
  have b : ((167 : ℕ) : ℝ) * Real.log (0.000611)⁻¹ < (1783 : ℕ) * Real.log 2 := by
    rw [← Real.log_pow, ← Real.log_pow]
    exact Real.log_lt_log (by norm_num) (by norm_num)
  rw [Real.log_inv] at a b
  push_cast at a b
  constructor <;> linarith

theorem s2_thin_low : gamma2.s 0.000611 273.15 < 9.156 := by
  have l := log_611.2
  have l2 := Real.log_two_lt_d9
  rw [← div_lt_div_iff_of_pos_right Gamma.R_pos, Gamma.s, mul_div_cancel_left₀ _ Gamma.R_pos.ne']
  simp only [gamma2, dpoly, region2, region2Ideal, Term.d, List.map_cons, List.map_nil, List.sum_cons, List.sum_nil, ff, R]
  norm_num at l l2 ⊢
  linarith

theorem s2_thin_high : 11.921 < gamma2.s 0.000611 1073.15 := by
  have l := log_611.1
  have l2 := Real.log_two_gt_d9
  rw [← div_lt_div_iff_of_pos_right Gamma.R_pos, Gamma.s, mul_div_cancel_left₀ _ Gamma.R_pos.ne']
  simp only [gamma2, dpoly, region2, region2Ideal, Term.d, List.map_cons, List.map_nil, List.sum_cons, List.sum_nil, ff, R]
  norm_num at l l2 ⊢
  linarith

theorem strip_eval (h0 : 9.156 ≤ s) (h1 : s ≤ 11.921) : ∃ Tm hm : ℝ,
    Region2.T2_ps .ideal (.fin 0.000611) (.fin s) = pure (.fin Tm) ∧ Region2.h2_pT .ideal (.fin 0.000611) (.fin Tm) = pure (.fin hm) := by
  have hc : ContinuousOn (fun T => gamma2.s 0.000611 T) (Set.Icc 273.15 1073.15) := fun x hx =>
    ((at2 (vapour_thin hx.1 hx.2)).sT (by linarith [hx.1])).continuousAt.continuousWithinAt
  obtain ⟨T', ⟨a, b⟩, e⟩ := intermediate_value_Icc (by norm_num) hc
    ⟨(by linarith [s2_thin_low] : gamma2.s 0.000611 273.15 ≤ s), (by linarith [s2_thin_high])⟩
  obtain ⟨Tm, e1, d⟩ := T2_ps_accurate (vapour_thin a b) le_rfl
  simp only at e
  rw [e] at e1
  obtain ⟨d0, d1⟩ := abs_le.1 d
  refine ⟨Tm, _, e1, h2_pT_eq ⟨by norm_num, by linarith, ?_⟩⟩
  have : 0 < Tm := by linarith
  intro h
  rw [sub_eq_zero, div_eq_iff this.ne'] at h
  norm_num at h a b d1
  linarith

/-- C79: with an enthalpy of at least 4162 kJ/kg and an entropy of at least 6.7 kJ/(kg K) `region_hs` answers 0, or nothing -/
theorem C79_area (h s : ℝ) (hh : 4162 ≤ h) (hs : 6.7 ≤ s) :
    (∀ r, (RegionSelection.region_hs .ideal (.fin h) (.fin s)).out = .ok r → r = 0) ∧
    (s ≤ 9.155759395 ∨ 9.156 ≤ s ∧ s ≤ 11.921 ∨ 11.9212156897728 < s → (RegionSelection.region_hs .ideal (.fin h) (.fin s)).out = .ok 0) := by
  have n4 : FP.ideal.pow (.fin s) (Num.ofInt 4) = pure (.fin (s ^ 4)) := by
    rw [ofInt_eq, pow_ideal_int (Or.inr (by norm_num))]; norm_cast
  have n3 : FP.ideal.pow (.fin s) (Num.ofInt 3) = pure (.fin (s ^ 3)) := by
    rw [ofInt_eq, pow_ideal_int (Or.inr (by norm_num))]; norm_cast
  have n2 : FP.ideal.pow (.fin s) (Num.ofInt 2) = pure (.fin (s ^ 2)) := by
    rw [ofInt_eq, pow_ideal_int (Or.inr (by norm_num))]; norm_cast
  have dn : (-0.00015455 : ℝ) - 9.155759 ≠ 0 := by norm_num
  unfold RegionSelection.region_hs
  simp only [e0, e1, e2, e3, e4, e5, e6, e7, e8, e9, e10, p1, p2, p3, p4, p5, q1, q2, q3, q4, q5, ge_num, gt_num, fin_lt, fin_le, neg_fin,
    sub_ideal, div_ideal dn, pure_bind, mul_ideal, n4, n3, n2, add_ideal]
  rw [if_neg (show ¬ s < -0.0001545495919 by linarith)]
  have done {x : Py ℤ} (hx : x.out = .ok 0) : (∀ r, x.out = .ok r → r = 0) ∧ (s ≤ 9.155759395 ∨ 9.156 ≤ s ∧ s ≤ 11.921 ∨ 11.9212156897728 < s → x.out = .ok 0) :=
    ⟨fun r hr => by rw [hx] at hr; cases hr; rfl, fun _ => hx⟩
  refine either (P := fun x : Py ℤ => (∀ r, x.out = .ok r → r = 0) ∧ (s ≤ 9.155759395 ∨ 9.156 ≤ s ∧ s ≤ 11.921 ∨ 11.9212156897728 < s → x.out = .ok 0)) (done rfl) ?_
  rw [if_neg (fun k => by linarith [k.2])]
  by_cases c2 : s ≤ 11.9212156897728
  · rw [if_pos ⟨by linarith, c2⟩]
    by_cases c3 : 9.155759395 < s
    · have b := hMax_high c3.le c2
      rw [if_pos c3]
      refine ⟨fun r hr => ?_, fun k => ?_⟩
      swap
      · rcases k with k | ⟨k0, k1⟩ | k
        · linarith
        · obtain ⟨Tm, hm, g1, g2⟩ := strip_eval k0 k1
          rw [e12, g1, pure_bind, g2, pure_bind, if_neg (fun k => by linarith [k.2])]
          rfl
        · linarith
      refine Post.elim (Q := fun _ r => r = 0) (E := fun _ => True) (D := True) ?_ hr
      refine Post.bind (Post.any (fun _ _ => Post.bind (Post.any (fun _ _ => ?_) (fun _ => trivial) trivial)) (fun _ => trivial) trivial)
      rw [if_neg (fun k => by linarith [k.2])]
      exact rfl
    · rw [not_lt] at c3
      have b := hMax_low hs c3
      obtain ⟨v, hv, hv1⟩ := h4_s_small hs c3
      rw [if_neg (not_lt.2 c3), hv, pure_bind]
      simp only [fin_lt]
      rw [if_neg (by linarith), if_neg (by linarith), if_neg (by linarith)]
      exact done rfl
  · rw [if_neg (fun k => c2 k.2), if_neg (fun k => by linarith [k.2]), if_neg (fun k => by linarith [k.2])]
    exact done rfl

/-! ## The states of region 5 -/

theorem h5_1160 (h0 : 0 < p) (h1 : p ≤ 50) : 4162 < gamma5.h p 1160 := by
  have h2 : p ^ 2 ≤ 2500 := by nlinarith
  have h3 : p ^ 3 ≤ 125000 := by nlinarith [pow_pos h0 2]
  have h4 := pow_pos h0 2
  have h5 := pow_pos h0 3
  simp only [Gamma.h, gamma5, dpoly, region5, region5Ideal, Term.d, List.map_cons, List.map_nil, List.sum_cons, List.sum_nil, R, ff]
  field_simp
  norm_num
  nlinarith

theorem h5_1100 (h0 : 0 < p) (h1 : p ≤ 10) : 4162 < gamma5.h p 1100 := by
  have h2 : p ^ 2 ≤ 100 := by nlinarith
  have h3 : p ^ 3 ≤ 1000 := by nlinarith [pow_pos h0 2]
  have h4 := pow_pos h0 2
  have h5 := pow_pos h0 3
  simp only [Gamma.h, gamma5, dpoly, region5, region5Ideal, Term.d, List.map_cons, List.map_nil, List.sum_cons, List.sum_nil, R, ff]
  field_simp
  norm_num
  nlinarith

theorem s5_1160 (h0 : 0 < p) (h1 : p ≤ 50) : 18.48 < gamma5.s p 1160 / R + Real.log p := by
  rw [Gamma.s, mul_div_cancel_left₀ _ Gamma.R_pos.ne']
  have h2 : p ^ 2 ≤ 2500 := by nlinarith
  have h3 : p ^ 3 ≤ 125000 := by nlinarith [pow_pos h0 2]
  have h4 := pow_pos h0 2
  have h5 := pow_pos h0 3
  simp only [gamma5, dpoly, region5, region5Ideal, Term.d, List.map_cons, List.map_nil, List.sum_cons, List.sum_nil, ff]
  field_simp
  norm_num
  nlinarith

/-- the steam has at least 4162 kJ/kg and 6.7 kJ/(kg K) -/
theorem hot_bounds (h : Hot p T) (ht : 1160 ≤ T ∨ p ≤ 10 ∧ 1100 ≤ T) : 4162 ≤ gamma5.h p T ∧ 6.7 ≤ gamma5.s p T := by
  obtain ⟨-, T1, pm, p1⟩ := h
  have p0 : 0 < p := by linarith
  have tr {f : ℝ → ℝ} {x y b : ℝ} (hxy : x ≤ y) (hb : b < f x) (hf : x < y → f x < f y) : b ≤ f y := by
    rcases hxy.eq_or_lt with rfl | k
    · exact hb.le
    · exact (hb.trans (hf k)).le
  have l2 := Real.log_two_lt_d9
  rcases ht with ht | ⟨hp, ht⟩
  · refine ⟨tr ht (h5_1160 p0 p1.le) (h5_lt p0 p1.le (by norm_num) T1.le), tr ht ?_ (s5_lt p0 p1.le (by norm_num) T1.le)⟩
    have a := s5_1160 p0 p1.le
    have l : (7 : ℕ) * Real.log p < (40 : ℕ) * Real.log 2 := by
      rw [← Real.log_pow, ← Real.log_pow]
      refine Real.log_lt_log (pow_pos p0 _) (lt_of_le_of_lt (pow_le_pow_left₀ p0.le p1.le 7) (by norm_num))
    have : 14.518 < gamma5.s p 1160 / R := by norm_num at l ⊢; linarith
    rw [lt_div_iff₀ Gamma.R_pos] at this
    norm_num [R] at this ⊢
    linarith
  · refine ⟨tr ht (h5_1100 p0 hp) (h5_lt p0 p1.le (by norm_num) T1.le), tr (by linarith : (1073.2 : ℝ) ≤ T) ?_ (s5_lt p0 p1.le (by norm_num) T1.le)⟩
    have a := s5_warm p0 p1.le
    have l : Real.log p ≤ (4 : ℕ) * Real.log 2 := by
      rw [← Real.log_pow]
      exact Real.log_le_log p0 (by norm_num; linarith)
    have h2 : p ^ 2 ≤ 100 := by nlinarith
    have h5 := pow_pos p0 3
    have : 14.518 < gamma5.s p 1073.2 / R := by norm_num at a l ⊢; linarith
    rw [lt_div_iff₀ Gamma.R_pos] at this
    norm_num [R] at this ⊢
    linarith

/-- the entropies with which `region_hs` is known to return: all but two narrow gaps at the ends of the strip in which it evaluates
the backward equation of region 2 -/
def StripFree (s : ℝ) : Prop := s ≤ 9.155759395 ∨ 9.156 ≤ s ∧ s ≤ 11.921 ∨ 11.9212156897728 < s

/-- C79: in every unit system the steam of region 5 from 1160 K, or up to 10 MPa from 1100 K, has an enthalpy and an entropy, and at
these `p_hs` and `t_hs` return NaN with a warning if they return at all; they do unless the entropy is between 9.155759395 and
9.156 kJ/(kg K) or between 11.921 and 11.9212156897728 kJ/(kg K) -/
theorem C79_hs (u : UnitSystem) (p t : ℝ)
    (hr : (RegionSelection.region_pT .ideal (.fin (Quantity.p.si u p)) (.fin (Quantity.T.si u t))).out = .ok 5)
    (ht : 1160 ≤ Quantity.T.si u t ∨ Quantity.p.si u p ≤ 10 ∧ 1100 ≤ Quantity.T.si u t) :
    ∃ h s : ℝ, XSteam.h_pt .ideal u (.fin p) (.fin t) = pure (.fin h) ∧ XSteam.s_pt .ideal u (.fin p) (.fin t) = pure (.fin s) ∧
      ∀ c ∈ [Call.p_hs (.fin h) (.fin s), .t_hs (.fin h) (.fin s)],
        (∀ r, (c.run .ideal u).out = .ok r → Declined (c.run .ideal u)) ∧
        (StripFree (Quantity.s.si u s) → Declined (c.run .ideal u)) := by
  have hr := (C07_iff _ _ _).1 hr
  have b := hot_bounds (hot_of_region5 hr) ht
  have k := kernels_of_region (.inr (.inr rfl)) hr
  have g : gammaOf 5 = gamma5 := rfl
  rw [g] at k
  have q := C79_area _ _ b.1 b.2
  refine ⟨_, _, k.2.1, k.2.2.1, ?_⟩
  rw [← Quantity.si_user (q := .s) (u := u) (x := gamma5.s _ _), ← Quantity.si_user (q := .h) (u := u) (x := gamma5.h _ _)] at q
  generalize Quantity.h.user u _ = h at q
  generalize Quantity.s.user u _ = s at q
  have main {f : ℤ → Py Num} (hf : ∃ m, f 0 = warn m >>= fun _ => pure .nan) :
      (∀ r, (RegionSelection.region_hs .ideal (.fin (Quantity.h.si u h)) (.fin (Quantity.s.si u s)) >>= f).out = .ok r →
        Declined (RegionSelection.region_hs .ideal (.fin (Quantity.h.si u h)) (.fin (Quantity.s.si u s)) >>= f)) ∧
      (StripFree (Quantity.s.si u s) →
        Declined (RegionSelection.region_hs .ideal (.fin (Quantity.h.si u h)) (.fin (Quantity.s.si u s)) >>= f)) := by
    refine ⟨fun r h => ?_, fun h => .of_bind (q.2 h) hf⟩
    refine .of_bind ?_ hf
    cases hx : (RegionSelection.region_hs .ideal (.fin (Quantity.h.si u _)) (.fin (Quantity.s.si u s))).out with
    | ok r => rw [q.1 r hx]
    | raise e => rw [bind_def, andThen, hx] at h; cases h
    | diverge => rw [bind_def, andThen, hx] at h; cases h
  simp only [List.forall_mem_cons, Call.run]
  refine ⟨?_, ?_, by simp⟩
  · unfold XSteam.p_hs; simp only [si, pure_bind]; exact main ⟨_, by norm_num; rfl⟩
  · unfold XSteam.t_hs; simp only [si, pure_bind]; exact main ⟨_, by norm_num; rfl⟩

/-- in units of the standard: steam of 20 MPa and 1200 K -/
example : ∃ h s : ℝ, XSteam.h_pt .ideal .bare (.fin 20) (.fin 1200) = pure (.fin h) ∧
    XSteam.s_pt .ideal .bare (.fin 20) (.fin 1200) = pure (.fin s) ∧
    Declined (XSteam.p_hs .ideal .bare (.fin h) (.fin s)) ∧ Declined (XSteam.t_hs .ideal .bare (.fin h) (.fin s)) := by
  have r5 : InRegion 5 20 1200 := .inr (.inl ⟨rfl, by norm_num [Hot]⟩)
  obtain ⟨h, s, a1, a2, a3⟩ := C79_hs .bare 20 1200 (by simpa only [Quantity.si_bare] using (C07_iff _ _ _).2 r5)
    (.inl (by rw [Quantity.si_bare]; norm_num))
  have k := (kernels_of_region (u := .bare) (p := 20) (t := 1200) (.inr (.inr rfl)) (by simpa only [Quantity.si_bare] using r5)).2.2.1
  have g : gammaOf 5 = gamma5 := rfl
  simp only [Quantity.si_bare, Quantity.user_bare, g] at k
  have e := a2.symm.trans k
  have e : s = gamma5.s 20 1200 := by cases e; rfl
  have b : gamma5.s 20 1200 ≤ 9.155759395 := by
    have l : 0 < Real.log 20 := Real.log_pos (by norm_num)
    rw [← div_le_div_iff_of_pos_right Gamma.R_pos, Gamma.s, mul_div_cancel_left₀ _ Gamma.R_pos.ne']
    simp only [gamma5, dpoly, region5, region5Ideal, Term.d, List.map_cons, List.map_nil, List.sum_cons, List.sum_nil, ff, R]
    norm_num
    linarith
  rw [Quantity.si_bare, e] at a3
  exact ⟨h, _, a1, by rw [a2, e], (a3 (.p_hs _ _) (by simp)).2 (.inl b), (a3 (.t_hs _ _) (by simp)).2 (.inl b)⟩

end PyX
