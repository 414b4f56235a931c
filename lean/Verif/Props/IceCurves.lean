import Verif.Spec.IceCurves
import Verif.Props.Flow
import Verif.Lemmas.SI
import Mathlib.Analysis.Calculus.Deriv.MeanValue
import Mathlib.Analysis.SpecialFunctions.Pow.Deriv

/-!
# C31: melting and sublimation curves

Exact arithmetic, all unit systems.
-/

namespace PyX

open Classical Py Num Spec.IceCurves

/-! ## the code evaluates the equations -/

theorem forRange_three {σ : Type} (s : σ) (f : ℕ → σ → Py σ) :
    forRange 0 3 s f = f 0 s >>= fun s => f 1 s >>= fun s => f 2 s := by
  rw [forRange_lt (by norm_num)]
  congr 1; funext s
  rw [forRange_lt (by norm_num)]
  congr 1; funext s
  rw [forRange_lt (by norm_num)]
  simp only [forRange_self]
  exact bind_pure _

theorem iceIh_eq {T : ℝ} (hT : 0 < T) : IAPWS_R14.pmelt_T_iceIh .ideal (.fin T) = pure (.fin (ih T)) := by
  have l1 : FP.ideal.lit 273.16 = .fin tripleT := by rw [lit_ideal]; norm_num [tripleT]
  have l2 : FP.ideal.lit 611.657e-6 = .fin tripleP := by rw [lit_ideal]; norm_num [tripleP]
  have hθ : 0 < T / tripleT := div_pos hT (by norm_num [tripleT])
  unfold IAPWS_R14.pmelt_T_iceIh
  simp only [l1, l2, div_ideal (show tripleT ≠ 0 by norm_num [tripleT]), pure_bind]
  rw [forRange_three]
  simp only [IAPWS_R14.pmelt_T_iceIh.a, IAPWS_R14.pmelt_T_iceIh.b, idx, List.getElem?_cons_zero, List.getElem?_cons_succ,
    pure_bind, lit_ideal, pow_ideal_pos hθ, ofInt_eq, sub_ideal, mul_ideal, add_ideal]
  simp only [ih]
  congr 2
  norm_num
  ring

theorem iceIII_eq (T : ℝ) : IAPWS_R14.pmelt_T_iceIII .ideal (.fin T) = pure (.fin (iii T)) := by
  unfold IAPWS_R14.pmelt_T_iceIII
  simp only [lit_ideal]
  rw [div_ideal (by norm_num)]
  simp only [ofInt_eq, pow_ideal_int (n := 60) (Or.inr (by norm_num)), pure_bind, sub_ideal, mul_ideal]
  simp only [iii]
  congr 2
  norm_cast
  norm_num
  ring

theorem iceV_eq (T : ℝ) : IAPWS_R14.pmelt_T_iceV .ideal (.fin T) = pure (.fin (v T)) := by
  unfold IAPWS_R14.pmelt_T_iceV
  simp only [lit_ideal]
  rw [div_ideal (by norm_num)]
  simp only [ofInt_eq, pow_ideal_int (n := 8) (Or.inr (by norm_num)), pure_bind, sub_ideal, mul_ideal]
  simp only [v]
  congr 2
  norm_cast
  norm_num
  ring

theorem iceVI_eq {T : ℝ} (hT : 0 < T) : IAPWS_R14.pmelt_T_iceVI .ideal (.fin T) = pure (.fin (vi T)) := by
  unfold IAPWS_R14.pmelt_T_iceVI
  simp only [lit_ideal]
  rw [div_ideal (by norm_num)]
  simp only [ofInt_eq, pure_bind]
  rw [pow_ideal_pos (by norm_num; positivity)]
  simp only [pure_bind, sub_ideal, mul_ideal, vi]
  congr 2
  norm_num
  ring

theorem iceVII_eq {T : ℝ} (hT : 0 < T) : IAPWS_R14.pmelt_T_iceVII .ideal (.fin T) = pure (.fin (vii T)) := by
  have l1 : FP.ideal.lit 355.0 = .fin 355 := by rw [lit_ideal]; norm_num
  have l2 : FP.ideal.lit 2216.0 = .fin 2216 := by rw [lit_ideal]; norm_num
  unfold IAPWS_R14.pmelt_T_iceVII
  simp only [l1, l2]
  rw [div_ideal (by norm_num)]
  have hθ : T / 355 ≠ 0 := by positivity
  simp only [ofInt_eq, pow_ideal_int (n := -1) (Or.inl hθ), pow_ideal_int (n := 5) (Or.inl hθ),
    pow_ideal_int (n := 22) (Or.inl hθ), pure_bind, lit_ideal, sub_ideal, mul_ideal, add_ideal, exp_ideal, vii, viiLog]
  congr 2
  rw [mul_comm]
  congr 2
  rw [zpow_neg_one]
  norm_cast

theorem psubl_eq {T : ℝ} (hT : 0 < T) : IAPWS_R14.psubl_T .ideal (.fin T) = pure (.fin (subl T)) := by
  have l1 : FP.ideal.lit 273.16 = .fin tripleT := by rw [lit_ideal]; norm_num [tripleT]
  have l2 : FP.ideal.lit 611.657e-6 = .fin tripleP := by rw [lit_ideal]; norm_num [tripleP]
  have hθ : 0 < T / tripleT := div_pos hT (by norm_num [tripleT])
  unfold IAPWS_R14.psubl_T
  simp only [l1, l2, div_ideal (show tripleT ≠ 0 by norm_num [tripleT]), pure_bind]
  rw [forRange_three]
  simp only [IAPWS_R14.psubl_T.a, IAPWS_R14.psubl_T.b, idx, List.getElem?_cons_zero, List.getElem?_cons_succ,
    pure_bind, lit_ideal, pow_ideal_pos hθ, ofInt_eq, mul_ideal, add_ideal, exp_ideal]
  simp only [subl, sublLog]
  congr 2
  rw [mul_comm]
  congr 2
  rw [show (((-1 : ℤ) : ℝ)) = ((-1 : ℤ) : ℝ) from rfl, Real.rpow_intCast, zpow_neg_one]
  congr 1
  norm_num
  ring

/-- the equation of the standard for an ice type -/
noncomputable def Ice.melt : Ice → ℝ → ℝ
  | .Ih => ih
  | .III => iii
  | .V => v
  | .VI => vi
  | .VII => vii

theorem Ice.lo_pos (i : Ice) : (0 : ℝ) < i.lo := by cases i <;> norm_num [Ice.lo]

theorem Ice.curve_eq (i : Ice) {T : ℝ} (hT : 0 < T) : i.curve .ideal (.fin T) = pure (.fin (i.melt T)) := by
  cases i
  · exact iceIh_eq hT
  · exact iceIII_eq T
  · exact iceV_eq T
  · exact iceVI_eq hT
  · exact iceVII_eq hT

/-- C31: `pmelt_t` with a hint evaluates the equation of that ice -/
theorem C31_pmelt (u : UnitSystem) (i : Ice) (t : ℝ) (h1 : i.lo ≤ Quantity.T.si u t) (h2 : Quantity.T.si u t < i.hi) :
    XSteam.pmelt_t .ideal u (.fin t) (.int i.code) =
      pure (.fin (Quantity.p.user u (i.melt (Quantity.T.si u t)))) := by
  rw [(C30_hint .ideal FP.ideal_sane u (.fin t) _ i (Quantity.toSI_fin .T u t)).1
    ⟨by rw [lit_ideal, fin_le]; exact h1, by rw [lit_ideal, fin_lt]; exact h2⟩,
    i.curve_eq (i.lo_pos.trans_le h1), pure_bind, Quantity.fromSI_fin]

/-- C31: `psubl_t` evaluates the sublimation equation -/
theorem C31_psubl (u : UnitSystem) (t : ℝ) (h1 : 50 ≤ Quantity.T.si u t) (h2 : Quantity.T.si u t < tripleT) :
    XSteam.psubl_t .ideal u (.fin t) = pure (.fin (Quantity.p.user u (subl (Quantity.T.si u t)))) := by
  have l1 : FP.ideal.lit 273.16 = .fin tripleT := by rw [lit_ideal]; norm_num [tripleT]
  unfold XSteam.psubl_t
  simp only [si, pure_bind, l1, ofInt_eq, ge_num, fin_le, fin_lt]
  rw [if_pos ⟨by exact_mod_cast h1, h2⟩, psubl_eq (by linarith), pure_bind, fromSI_p_fin]

/-! ## reference points -/

/-- C31: the curves meet their reference points; the melting curve of ice Ih and the sublimation curve both
end in the triple point -/
theorem C31_reference :
    ih tripleT = tripleP ∧ subl tripleT = tripleP ∧ iii 251.165 = 208.566 ∧ v 256.164 = 350.1 ∧ vi 273.31 = 632.4 ∧
      vii 355 = 2216 := by
  have h1 : tripleT / tripleT = 1 := div_self (by norm_num [tripleT])
  refine ⟨?_, ?_, ?_, ?_, ?_, ?_⟩
  · rw [ih, h1]; simp only [Real.one_rpow]; norm_num
  · rw [subl, h1, sublLog]; simp only [Real.one_rpow]; norm_num
  · norm_num [iii]
  · norm_num [v]
  · rw [vi, div_self (by norm_num), Real.one_rpow]; norm_num
  · rw [vii, div_self (by norm_num), viiLog]; norm_num

/-- C31: neighbouring curves join where one ice takes over from the other (within 0.2 MPa) -/
theorem C31_joints : |iii 256.164 - v 256.164| < 0.2 ∧ |v 273.31 - vi 273.31| < 0.2 := by
  rw [C31_reference.2.2.2.1, C31_reference.2.2.2.2.1, abs_lt, abs_lt]
  norm_num [iii, v]

/-! ## monotonicity -/

theorem viiLog_deriv {θ : ℝ} (hθ : 0 < θ) : HasDerivAt viiLog
    (0.173683e1 * (θ ^ 2)⁻¹ + 0.544606e-1 * (5 * θ ^ 4) - 0.806106e-7 * (22 * θ ^ 21)) θ := by
  have h1 := ((hasDerivAt_inv hθ.ne').const_sub 1).const_mul (0.173683e1 : ℝ)
  have h2 := ((hasDerivAt_pow 5 θ).const_sub 1).const_mul (0.544606e-1 : ℝ)
  have h3 := ((hasDerivAt_pow 22 θ).const_sub 1).const_mul (0.806106e-7 : ℝ)
  refine ((h1.sub h2).add h3).congr_deriv ?_
  norm_num
  ring

theorem viiLog_continuous {a b : ℝ} (ha : 0 < a) : ContinuousOn viiLog (Set.Icc a b) := fun _ hx =>
  (viiLog_deriv (ha.trans_le hx.1)).continuousAt.continuousWithinAt

theorem viiLog_mono : StrictMonoOn viiLog (Set.Icc 1 (715 / 355)) := by
  refine strictMonoOn_of_deriv_pos (convex_Icc _ _) (viiLog_continuous one_pos) fun θ hθ => ?_
  rw [interior_Icc] at hθ
  obtain ⟨a, b⟩ := hθ
  have h0 : 0 < θ := by linarith
  rw [(viiLog_deriv h0).deriv]
  have h17 : θ ^ 17 ≤ (715 / 355) ^ 17 := pow_le_pow_left₀ h0.le b.le 17
  have h4 : 0 < θ ^ 4 := by positivity
  have h2 : 0 < (θ ^ 2)⁻¹ := by positivity
  have : 0 < θ ^ 4 * (0.544606e-1 * 5 - 0.806106e-7 * 22 * θ ^ 17) := by
    refine mul_pos h4 ?_
    have : (0.806106e-7 : ℝ) * 22 * θ ^ 17 ≤ 0.806106e-7 * 22 * (715 / 355) ^ 17 :=
      mul_le_mul_of_nonneg_left h17 (by norm_num)
    norm_num at this ⊢
    linarith
  have e : θ ^ 21 = θ ^ 4 * θ ^ 17 := by ring
  rw [e]
  nlinarith

theorem viiLog_anti : StrictAntiOn viiLog (Set.Icc (721 / 355) (751 / 355)) := by
  refine strictAntiOn_of_deriv_neg (convex_Icc _ _) (viiLog_continuous (by norm_num)) fun θ hθ => ?_
  rw [interior_Icc] at hθ
  obtain ⟨a, b⟩ := hθ
  have h0 : 0 < θ := lt_trans (by norm_num) a
  rw [(viiLog_deriv h0).deriv]
  have h17 : (721 / 355) ^ 17 ≤ θ ^ 17 := pow_le_pow_left₀ (by norm_num) a.le 17
  have h6 : (721 / 355) ^ 6 ≤ θ ^ 6 := pow_le_pow_left₀ (by norm_num) a.le 6
  have h4 : 0 < θ ^ 4 := by positivity
  have e : (θ ^ 2)⁻¹ = θ ^ 4 * (θ ^ 6)⁻¹ := by field_simp
  have h6' : (θ ^ 6)⁻¹ ≤ ((721 / 355) ^ 6)⁻¹ := inv_anti₀ (by positivity) h6
  have : θ ^ 4 * (0.173683e1 * (θ ^ 6)⁻¹ + 0.544606e-1 * 5 - 0.806106e-7 * 22 * θ ^ 17) < 0 := by
    refine mul_neg_of_pos_of_neg h4 ?_
    have k1 : (0.806106e-7 : ℝ) * 22 * (721 / 355) ^ 17 ≤ 0.806106e-7 * 22 * θ ^ 17 :=
      mul_le_mul_of_nonneg_left h17 (by norm_num)
    have k2 : (0.173683e1 : ℝ) * (θ ^ 6)⁻¹ ≤ 0.173683e1 * ((721 / 355) ^ 6)⁻¹ :=
      mul_le_mul_of_nonneg_left h6' (by norm_num)
    norm_num at k1 k2 ⊢
    linarith
  rw [e, show θ ^ 21 = θ ^ 4 * θ ^ 17 by ring]
  nlinarith

theorem sublLog_eq {θ : ℝ} (h : 0 < θ) : sublLog θ =
    -0.212144006e2 * θ ^ (-0.99666666667 : ℝ) + 0.273203819e2 * θ ^ (0.20666667 : ℝ) -
      0.610598130e1 * θ ^ (0.70333333 : ℝ) := by
  have e : ∀ b : ℝ, θ⁻¹ * θ ^ b = θ ^ (b - 1) := fun b => by
    rw [Real.rpow_sub h, Real.rpow_one]; field_simp
  have := e 0.333333333e-2
  have h2 := e 0.120666667e1
  have h3 := e 0.170333333e1
  norm_num at this h2 h3
  rw [sublLog]
  norm_num
  rw [← this, ← h2, ← h3]
  ring

theorem sublLog_mono : StrictMonoOn sublLog (Set.Ioc 0 1) := by
  have hd : ∀ θ : ℝ, 0 < θ → HasDerivAt sublLog (-0.212144006e2 * (-0.99666666667 * θ ^ (-0.99666666667 - 1 : ℝ)) +
      0.273203819e2 * (0.20666667 * θ ^ (0.20666667 - 1 : ℝ)) -
      0.610598130e1 * (0.70333333 * θ ^ (0.70333333 - 1 : ℝ))) θ := fun θ h => by
    have h1 := (Real.hasDerivAt_rpow_const (p := -0.99666666667) (Or.inl h.ne')).const_mul (-0.212144006e2 : ℝ)
    have h2 := (Real.hasDerivAt_rpow_const (p := 0.20666667) (Or.inl h.ne')).const_mul (0.273203819e2 : ℝ)
    have h3 := (Real.hasDerivAt_rpow_const (p := 0.70333333) (Or.inl h.ne')).const_mul (0.610598130e1 : ℝ)
    refine ((h1.add h2).sub h3).congr_of_eventuallyEq ?_
    filter_upwards [lt_mem_nhds h] with x hx
    exact sublLog_eq hx
  refine strictMonoOn_of_deriv_pos (convex_Ioc _ _) (fun x hx => (hd x hx.1).continuousAt.continuousWithinAt) fun θ hθ => ?_
  rw [interior_Ioc] at hθ
  obtain ⟨h0, h1⟩ := hθ
  rw [(hd θ h0).deriv]
  have a : 0 < θ ^ (-0.99666666667 - 1 : ℝ) := Real.rpow_pos_of_pos h0 _
  have b : θ ^ (0.70333333 - 1 : ℝ) ≤ θ ^ (0.20666667 - 1 : ℝ) :=
    Real.rpow_le_rpow_of_exponent_ge h0 h1.le (by norm_num)
  have c : 0 < θ ^ (0.70333333 - 1 : ℝ) := Real.rpow_pos_of_pos h0 _
  norm_num at a b c ⊢
  nlinarith

theorem ih_anti {a b : ℝ} (ha : 0 < a) (hab : a < b) : ih b < ih a := by
  have ht : (0 : ℝ) < tripleT := by norm_num [tripleT]
  have h : a / tripleT < b / tripleT := div_lt_div_of_pos_right hab ht
  have h0 : 0 ≤ a / tripleT := (div_pos ha ht).le
  have k1 := Real.rpow_lt_rpow h0 h (z := 3) (by norm_num)
  have k2 := Real.rpow_lt_rpow h0 h (z := 25.75) (by norm_num)
  have k3 := Real.rpow_lt_rpow h0 h (z := 103.75) (by norm_num)
  rw [ih, ih]
  refine mul_lt_mul_of_pos_left ?_ (by norm_num [tripleP])
  linarith

theorem iii_mono {a b : ℝ} (ha : 0 < a) (hab : a < b) : iii a < iii b := by
  have := pow_lt_pow_left₀ (div_lt_div_of_pos_right hab (by norm_num : (0 : ℝ) < 251.165)) (by positivity)
    (n := 60) (by norm_num)
  rw [iii, iii]; linarith

theorem v_mono {a b : ℝ} (ha : 0 < a) (hab : a < b) : v a < v b := by
  have := pow_lt_pow_left₀ (div_lt_div_of_pos_right hab (by norm_num : (0 : ℝ) < 256.164)) (by positivity)
    (n := 8) (by norm_num)
  rw [v, v]; linarith

theorem vi_mono {a b : ℝ} (ha : 0 < a) (hab : a < b) : vi a < vi b := by
  have := Real.rpow_lt_rpow (by positivity) (div_lt_div_of_pos_right hab (by norm_num : (0 : ℝ) < 273.31))
    (z := 4.6) (by norm_num)
  rw [vi, vi]; linarith

theorem vii_mono {a b : ℝ} (ha : 355 ≤ a) (hab : a < b) (hb : b ≤ 715) : vii a < vii b := by
  have := viiLog_mono (a := a / 355) (b := b / 355)
    ⟨by rw [le_div_iff₀ (by norm_num)]; linarith, div_le_div_of_nonneg_right (by linarith) (by norm_num)⟩
    ⟨by rw [le_div_iff₀ (by norm_num)]; linarith, div_le_div_of_nonneg_right hb (by norm_num)⟩
    (div_lt_div_of_pos_right hab (by norm_num))
  rw [vii, vii]
  exact mul_lt_mul_of_pos_left (Real.exp_lt_exp.2 this) (by norm_num)

theorem vii_anti {a b : ℝ} (ha : 721 ≤ a) (hab : a < b) (hb : b ≤ 751) : vii b < vii a := by
  have := viiLog_anti (a := a / 355) (b := b / 355)
    ⟨div_le_div_of_nonneg_right ha (by norm_num), div_le_div_of_nonneg_right (by linarith) (by norm_num)⟩
    ⟨div_le_div_of_nonneg_right (by linarith) (by norm_num), div_le_div_of_nonneg_right hb (by norm_num)⟩
    (div_lt_div_of_pos_right hab (by norm_num))
  rw [vii, vii]
  exact mul_lt_mul_of_pos_left (Real.exp_lt_exp.2 this) (by norm_num)

theorem subl_mono {a b : ℝ} (ha : 0 < a) (hab : a < b) (hb : b ≤ tripleT) : subl a < subl b := by
  have ht : (0 : ℝ) < tripleT := by norm_num [tripleT]
  have := sublLog_mono (a := a / tripleT) (b := b / tripleT)
    ⟨by positivity, by rw [div_le_one ht]; linarith⟩ ⟨div_pos (ha.trans hab) ht, by rwa [div_le_one ht]⟩
    (div_lt_div_of_pos_right hab ht)
  rw [subl, subl]
  exact mul_lt_mul_of_pos_left (Real.exp_lt_exp.2 this) (by norm_num [tripleP])

/-! ## the interface -/

/-- C31: the melting pressure of ice Ih falls with temperature -/
theorem C31_ice_Ih (u : UnitSystem) (s t : ℝ) (hst : s < t) (h1 : 251.165 ≤ Quantity.T.si u s)
    (h2 : Quantity.T.si u t < 273.16) :
    ∃ a b, XSteam.pmelt_t .ideal u (.fin s) (.int 1) = pure (.fin a) ∧
      XSteam.pmelt_t .ideal u (.fin t) (.int 1) = pure (.fin b) ∧ b < a := by
  have hs := Quantity.T.si_strictMono u hst
  have l : ((Ice.Ih.lo : ℚ) : ℝ) = 251.165 := by norm_num [Ice.lo]
  have r : ((Ice.Ih.hi : ℚ) : ℝ) = 273.16 := by norm_num [Ice.hi]
  refine ⟨_, _, C31_pmelt u .Ih s (by rw [l]; exact h1) (by rw [r]; linarith),
    C31_pmelt u .Ih t (by rw [l]; linarith) (by rw [r]; exact h2), Quantity.p.user_strictMono u ?_⟩
  exact ih_anti (lt_of_lt_of_le (by norm_num) h1) hs

/-- the highest temperature up to which the standard gives the melting curve of an ice type -/
def Ice.valid : Ice → ℚ
  | .VII => 715
  | i => i.hi

/-- C31: the melting pressures of the other ices rise with temperature, over the range of the standard -/
theorem C31_other_ices (u : UnitSystem) (i : Ice) (hi : i ≠ .Ih) (s t : ℝ) (hst : s < t) (h1 : i.lo ≤ Quantity.T.si u s)
    (h2 : Quantity.T.si u t < i.hi) (h3 : Quantity.T.si u t ≤ i.valid) :
    ∃ a b, XSteam.pmelt_t .ideal u (.fin s) (.int i.code) = pure (.fin a) ∧
      XSteam.pmelt_t .ideal u (.fin t) (.int i.code) = pure (.fin b) ∧ a < b := by
  have hs := Quantity.T.si_strictMono u hst
  refine ⟨_, _, C31_pmelt u i s h1 (by linarith), C31_pmelt u i t (by linarith) h2, Quantity.p.user_strictMono u ?_⟩
  have h0 : 0 < Quantity.T.si u s := i.lo_pos.trans_le h1
  cases i
  · exact absurd rfl hi
  · exact iii_mono h0 hs
  · exact v_mono h0 hs
  · exact vi_mono h0 hs
  · exact vii_mono (by norm_num [Ice.lo] at h1; exact h1) hs (by norm_num [Ice.valid] at h3; exact h3)

/-- C31: the sublimation pressure rises with temperature -/
theorem C31_sublimation (u : UnitSystem) (s t : ℝ) (hst : s < t) (h1 : 50 ≤ Quantity.T.si u s)
    (h2 : Quantity.T.si u t < 273.16) :
    ∃ a b, XSteam.psubl_t .ideal u (.fin s) = pure (.fin a) ∧ XSteam.psubl_t .ideal u (.fin t) = pure (.fin b) ∧
      a < b := by
  have hs := Quantity.T.si_strictMono u hst
  refine ⟨_, _, C31_psubl u s h1 (by rw [tripleT]; linarith), C31_psubl u t (by linarith) (by rw [tripleT]; exact h2),
    Quantity.p.user_strictMono u ?_⟩
  exact subl_mono (by linarith) hs (by rw [tripleT]; linarith)

/-- C31: melting and sublimation pressures are positive -/
theorem C31_positive (u : UnitSystem) (t : ℝ) :
    (∀ i : Ice, i.lo ≤ Quantity.T.si u t → Quantity.T.si u t < i.hi →
      ∃ p, XSteam.pmelt_t .ideal u (.fin t) (.int i.code) = pure (.fin p) ∧ 0 < p) ∧
    (50 ≤ Quantity.T.si u t → Quantity.T.si u t < 273.16 →
      ∃ p, XSteam.psubl_t .ideal u (.fin t) = pure (.fin p) ∧ 0 < p) := by
  have hu : ∀ x, 0 < x → 0 < Quantity.p.user u x := fun x hx => by
    have : Quantity.p.offset u = 0 := by cases u <;> rfl
    rw [Quantity.user, this, sub_zero]
    exact div_pos hx (Quantity.p.scale_pos u)
  refine ⟨fun i h1 h2 => ⟨_, C31_pmelt u i t h1 h2, hu _ ?_⟩,
    fun h1 h2 => ⟨_, C31_psubl u t h1 (by rw [tripleT]; exact h2), hu _ ?_⟩⟩
  · have h0 : 0 < Quantity.T.si u t := i.lo_pos.trans_le h1
    cases i
    · refine lt_trans (by norm_num [tripleP]) (C31_reference.1.symm.trans_lt (ih_anti h0 (b := tripleT) ?_))
      norm_num [Ice.hi] at h2; rw [tripleT]; norm_num; exact h2
    all_goals norm_num [Ice.lo] at h1
    · rcases h1.eq_or_lt with h | h
      · have := C31_reference.2.2.1
        norm_num at this
        simp only [Ice.melt, ← h, this]; norm_num
      · have k := iii_mono (by norm_num) h
        have := C31_reference.2.2.1
        norm_num at this
        rw [this] at k
        exact lt_trans (by norm_num) k
    · rcases h1.eq_or_lt with h | h
      · have := C31_reference.2.2.2.1
        norm_num at this
        simp only [Ice.melt, ← h, this]; norm_num
      · have k := v_mono (by norm_num) h
        have := C31_reference.2.2.2.1
        norm_num at this
        rw [this] at k
        exact lt_trans (by norm_num) k
    · rcases h1.eq_or_lt with h | h
      · have := C31_reference.2.2.2.2.1
        norm_num at this
        simp only [Ice.melt, ← h, this]; norm_num
      · have k := vi_mono (by norm_num) h
        have := C31_reference.2.2.2.2.1
        norm_num at this
        rw [this] at k
        exact lt_trans (by norm_num) k
    · simp only [Ice.melt, vii]; positivity
  · rw [subl, tripleP]; positivity

/-- C46: `pmelt_t` accepts ice VII up to 751 K although the standard ends at 715 K, and from 721 K on the
pressure it returns falls with temperature -/
theorem C46_ice_VII_falls (u : UnitSystem) (s t : ℝ) (hst : s < t) (h1 : 721 ≤ Quantity.T.si u s)
    (h2 : Quantity.T.si u t < 751) :
    ∃ a b, XSteam.pmelt_t .ideal u (.fin s) (.int 7) = pure (.fin a) ∧
      XSteam.pmelt_t .ideal u (.fin t) (.int 7) = pure (.fin b) ∧ b < a := by
  have hs := Quantity.T.si_strictMono u hst
  have l : ((Ice.VII.lo : ℚ) : ℝ) = 355 := by norm_num [Ice.lo]
  have r : ((Ice.VII.hi : ℚ) : ℝ) = 751 := by norm_num [Ice.hi]
  exact ⟨_, _, C31_pmelt u .VII s (by rw [l]; linarith) (by rw [r]; linarith),
    C31_pmelt u .VII t (by rw [l]; linarith) (by rw [r]; exact h2),
    Quantity.p.user_strictMono u (vii_anti h1 hs (by linarith))⟩

/-- ice Ih between -20 °C and -10 °C -/
example : ∃ a b, XSteam.pmelt_t .ideal .mks (.fin (-20)) (.int 1) = pure (.fin a) ∧
    XSteam.pmelt_t .ideal .mks (.fin (-10)) (.int 1) = pure (.fin b) ∧ b < a :=
  C31_ice_Ih .mks (-20) (-10) (by norm_num) (by norm_num [Quantity.si, Quantity.scale, Quantity.offset])
    (by norm_num [Quantity.si, Quantity.scale, Quantity.offset])

/-- ice VII at 400 K and 700 K -/
example : ∃ a b, XSteam.pmelt_t .ideal .bare (.fin 400) (.int 7) = pure (.fin a) ∧
    XSteam.pmelt_t .ideal .bare (.fin 700) (.int 7) = pure (.fin b) ∧ a < b :=
  C31_other_ices .bare .VII (by decide) 400 700 (by norm_num) (by norm_num [Ice.lo]) (by norm_num [Ice.hi])
    (by norm_num [Ice.valid])

/-- sublimation at 200 K and 250 K -/
example : ∃ a b, XSteam.psubl_t .ideal .bare (.fin 200) = pure (.fin a) ∧
    XSteam.psubl_t .ideal .bare (.fin 250) = pure (.fin b) ∧ a < b :=
  C31_sublimation .bare 200 250 (by norm_num) (by norm_num) (by norm_num)

/-- ice VII at 730 K and 750 K -/
example : ∃ a b, XSteam.pmelt_t .ideal .bare (.fin 730) (.int 7) = pure (.fin a) ∧
    XSteam.pmelt_t .ideal .bare (.fin 750) (.int 7) = pure (.fin b) ∧ b < a :=
  C46_ice_VII_falls .bare 730 750 (by norm_num) (by norm_num) (by norm_num)

end PyX
