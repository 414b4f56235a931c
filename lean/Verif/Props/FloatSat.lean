import Verif.Lemmas.Approx
import Verif.Props.RegionPT
import Verif.Props.Flow

/-!
# C83: saturation pressure and region numbers in floating point arithmetic
-/

namespace PyX

open Classical Py Num Spec.Sat Spec.PT

variable {F : FP}

private theorem i2 : Num.ofInt 2 = .fin 2 := by rw [ofInt_eq]; norm_num
private theorem i4 : Num.ofInt 4 = .fin 4 := by rw [ofInt_eq]; norm_num

/-! ## Sizes of the terms of the saturation equation -/

private theorem satA_abs {θ : ℝ} (h0 : 273.1 ≤ θ) (h1 : θ ≤ 647.3) : |satA θ| ≤ 460000 := by
  rw [satA, n1, n2, abs_le]
  constructor <;> norm_num at * <;> nlinarith

private theorem satB_abs {θ : ℝ} (h0 : 273.1 ≤ θ) (h1 : θ ≤ 647.3) : -2700000 ≤ satB θ ∧ satB θ ≤ -1100000 := by
  rw [satB, n3, n4, n5]
  constructor <;> norm_num at * <;> nlinarith [sq_nonneg (θ - 352)]

private theorem satC_abs {θ : ℝ} (h0 : 273.1 ≤ θ) (h1 : θ ≤ 647.3) : 200000 ≤ satC θ ∧ satC θ ≤ 3600000 := by
  rw [satC, n6, n7, n8]
  constructor <;> norm_num at * <;> nlinarith

private theorem disc_abs {θ : ℝ} (h0 : 273.1 ≤ θ) (h1 : θ ≤ 647.3) :
    (300000 : ℝ) ^ 2 ≤ satB θ ^ 2 - 4 * satA θ * satC θ ∧ satB θ ^ 2 - 4 * satA θ * satC θ ≤ (4000000 : ℝ) ^ 2 := by
  have b := satB_abs h0 h1
  have c := satC_abs h0 h1
  have a := abs_le.1 (satA_abs h0 h1)
  constructor
  · have u := sub_nonneg.2 h0
    have v := sub_nonneg.2 h1
    have p0 := pow_nonneg v 4
    have p1 := mul_nonneg u (pow_nonneg v 3)
    have p2 := mul_nonneg (pow_nonneg u 2) (pow_nonneg v 2)
    have p3 := mul_nonneg (pow_nonneg u 3) v
    have p4 := pow_nonneg u 4
    rw [satA, satB, satC, n1, n2, n3, n4, n5, n6, n7, n8]
    ring_nf at p0 p1 p2 p3 p4 ⊢
    norm_num at p0 p1 p2 p3 p4 ⊢
    linarith
  · nlinarith

private theorem betaOf_ge {θ : ℝ} (h0 : 273.1 ≤ θ) (h1 : θ ≤ 647.3) : 0.15 ≤ betaOf θ ∧ betaOf θ ≤ 2.2 := by
  have h00 : 0 ≤ θ := by linarith
  refine ⟨(lt_root (satC_pos θ) (eq29_neg h00 h1) (by norm_num) (by norm_num) ?_ (betaOf_pos h00 h1) ?_).le,
    (betaOf_lt h00 h1).le⟩
  · rw [satA, satB, satC, n1, n2, n3, n4, n5, n6, n7, n8]
    norm_num at *; nlinarith
  · have := betaOf_eq h00 h1
    rwa [eq29_β] at this

/-! ## The equation for the saturation pressure -/

/-- the saturation equation in floating point arithmetic, for an argument that is itself rounded -/
theorem p4_T_float (hF : F.Digits15) {t : Num} {T : ℝ} (ht : Approx t T 1e-11) (h0 : 273.1 ≤ T) (h1 : T ≤ 647.0961) :
    ∃ n, Region4.p4_T F t = pure n ∧ Approx n (psat T) (1e-8 * psat T) := by
  have hn : T - n10 ≤ -3 := by rw [n10]; norm_num at *; linarith
  have hn' : -378 ≤ T - n10 := by rw [n10]; norm_num at *; linarith
  have hq : |(-n9) / (T - n10)| ≤ 0.08 := by
    rw [abs_div, abs_of_neg (by linarith : T - n10 < 0), div_le_iff₀ (by linarith), n9]
    norm_num [abs_of_pos]; linarith
  have hθ0 : 273.1 ≤ theta T := by
    have := theta_gt (T := T) (by linarith)
    linarith
  have hθ1 : theta T ≤ 647.3 := by
    rw [theta, show T + n9 / (T - n10) = T - -n9 / (T - n10) by ring]
    have := (abs_le.1 hq).1
    norm_num at *; linarith
  have hT' : |theta T| ≤ 648 := by rw [abs_le]; constructor <;> linarith
  have bb := satB_abs hθ0 hθ1
  have bc := satC_abs hθ0 hθ1
  have ba := satA_abs hθ0 hθ1
  have bd := disc_abs hθ0 hθ1
  have bβ := betaOf_ge hθ0 hθ1
  have bs : Real.sqrt (satB (theta T) ^ 2 - 4 * satA (theta T) * satC (theta T)) ≤ 4000000 :=
    Real.sqrt_le_iff.2 ⟨by norm_num, bd.2⟩
  have bs' := Real.sqrt_nonneg (satB (theta T) ^ 2 - 4 * satA (theta T) * satC (theta T))
  have θ2 : theta T ^ 2 ≤ 419000 := by norm_num at *; nlinarith
  have θ2' : 0 ≤ theta T ^ 2 := by positivity
  -- literals
  have L9 : Approx (F.lit 0.23855557567849) (-n9) 1e-15 := .lit hF _ (by rw [n9]; norm_num) (M := 0.5) (by rw [n9]; norm_num [abs_le]) (by norm_num)
  have L10 : Approx (F.lit 650.17534844798) n10 1e-12 := .lit hF _ (by rw [n10]; norm_num) (M := 660) (by rw [n10]; norm_num [abs_le]) (by norm_num)
  have L1 : Approx (F.lit 1167.0521452767) n1 2e-12 := .lit hF _ (by rw [n1]; norm_num) (M := 1168) (by rw [n1]; norm_num [abs_le]) (by norm_num)
  have L2 : Approx (F.lit 724213.16703206) (-n2) 1e-9 := .lit hF _ (by rw [n2]; norm_num) (M := 724214) (by rw [n2]; norm_num [abs_le]) (by norm_num)
  have L3 : Approx (F.lit 17.073846940092) (-n3) 2e-14 := .lit hF _ (by rw [n3]; norm_num) (M := 18) (by rw [n3]; norm_num [abs_le]) (by norm_num)
  have L4 : Approx (F.lit 12020.82470247) n4 2e-11 := .lit hF _ (by rw [n4]; norm_num) (M := 12021) (by rw [n4]; norm_num [abs_le]) (by norm_num)
  have L5 : Approx (F.lit 3232555.0322333) (-n5) 4e-9 := .lit hF _ (by rw [n5]; norm_num) (M := 3232556) (by rw [n5]; norm_num [abs_le]) (by norm_num)
  have L6 : Approx (F.lit 14.91510861353) n6 2e-14 := .lit hF _ (by rw [n6]; norm_num) (M := 15) (by rw [n6]; norm_num [abs_le]) (by norm_num)
  have L7 : Approx (F.lit 4823.2657361591) (-n7) 1e-11 := .lit hF _ (by rw [n7]; norm_num) (M := 4824) (by rw [n7]; norm_num [abs_le]) (by norm_num)
  have L8 : Approx (F.lit 405113.40542057) n8 1e-9 := .lit hF _ (by rw [n8]; norm_num) (M := 405114) (by rw [n8]; norm_num [abs_le]) (by norm_num)
  -- theta
  have s1 := ht.sub hF L10 (M := 378) (δ' := 2e-11) (by rw [abs_le]; constructor <;> linarith) (by norm_num)
  obtain ⟨q, eq, s2⟩ := L9.div hF s1 (m := 3) (M := 0.08) (δ' := 2e-12) (by rw [abs_of_neg] <;> linarith) hq (by norm_num)
  have s3 := ht.sub hF s2 (M := 648) (δ' := 2e-11)
    (by rw [show T - -n9 / (T - n10) = theta T by rw [theta]; ring]; exact hT') (by norm_num)
  rw [show T - -n9 / (T - n10) = theta T by rw [theta]; ring] at s3
  obtain ⟨w, ew, s4⟩ := s3.sq hF (m := 273) (M := 648) (δ' := 3e-8) (by rw [abs_of_pos] <;> linarith) hT' (by norm_num)
  have hw : |theta T ^ 2| ≤ 419000 := by rw [abs_of_nonneg θ2']; exact θ2
  -- a
  have a1 := L1.mul hF s3 (X := 1168) (Y := 648) (δ' := 3e-8) (by rw [n1]; norm_num [abs_le]) hT' (by norm_num)
  have a2 := s4.add hF a1 (M := 1200000) (δ' := 7e-8)
    (by rw [n1, abs_le]; constructor <;> norm_num at * <;> linarith) (by norm_num)
  have a3 := a2.sub hF L2 (M := 460000) (δ' := 8e-8)
    (by rw [show theta T ^ 2 + n1 * theta T - -n2 = satA (theta T) by rw [satA]; ring]; exact ba) (by norm_num)
  rw [show theta T ^ 2 + n1 * theta T - -n2 = satA (theta T) by rw [satA]; ring] at a3
  -- B
  have b1 := L3.neg.mul hF s4 (X := 18) (Y := 419000) (δ' := 6e-7) (by rw [n3]; norm_num [abs_le]) hw (by norm_num)
  have b2 := L4.mul hF s3 (X := 12021) (Y := 648) (δ' := 3e-7) (by rw [n4]; norm_num [abs_le]) hT' (by norm_num)
  have b3 := b1.add hF b2 (M := 8000000) (δ' := 1e-6)
    (by rw [n3, n4, abs_le]; constructor <;> norm_num at * <;> linarith) (by norm_num)
  have eb : - -n3 * theta T ^ 2 + n4 * theta T - -n5 = satB (theta T) := by rw [satB]; ring
  have b4 := b3.sub hF L5 (M := 2700000) (δ' := 1.1e-6) (by rw [eb, abs_le]; constructor <;> linarith) (by norm_num)
  rw [eb] at b4
  -- C
  have c1 := L6.mul hF s4 (X := 15) (Y := 419000) (δ' := 5e-7) (by rw [n6]; norm_num [abs_le]) hw (by norm_num)
  have c2 := L7.mul hF s3 (X := 4824) (Y := 648) (δ' := 1.2e-7) (by rw [n7]; norm_num [abs_le]) hT' (by norm_num)
  have c3 := c1.sub hF c2 (M := 7000000) (δ' := 7e-7)
    (by rw [n6, n7, abs_le]; constructor <;> norm_num at * <;> linarith) (by norm_num)
  have ec : n6 * theta T ^ 2 - -n7 * theta T + n8 = satC (theta T) := by rw [satC]; ring
  have c4 := c3.add hF L8 (M := 3600000) (δ' := 8e-7) (by rw [ec, abs_le]; constructor <;> linarith) (by norm_num)
  rw [ec] at c4
  -- discriminant
  obtain ⟨v, ev, d1⟩ := b4.sq hF (m := 1100000) (M := 2700000) (δ' := 7)
    (by rw [abs_of_neg] <;> linarith) (by rw [abs_le]; constructor <;> linarith) (by norm_num)
  have d2 := (Approx.exact 4).mul hF a3 (X := 4) (Y := 460000) (δ' := 4e-7) (by norm_num [abs_of_pos]) ba (by norm_num)
  have d3 := d2.mul hF c4 (X := 1840000) (Y := 3600000) (δ' := 3)
    (by rw [abs_mul, show |(4 : ℝ)| = 4 by norm_num [abs_of_pos]]; linarith) (by rw [abs_le]; constructor <;> linarith) (by norm_num)
  have d4 := d1.sub hF d3 (M := 16000000000000) (δ' := 11)
    (by rw [abs_le]; constructor <;> linarith [bd.1, bd.2]) (by norm_num)
  obtain ⟨r, er, d5⟩ := d4.half hF (r := 300000) (M := 4000000) (δ' := 4e-5) (by norm_num) bd.1 bd.2 (by norm_num) (by norm_num) (by norm_num)
  -- quotient
  have e1 := b4.neg.add hF d5 (M := 6700000) (δ' := 5e-5) (by rw [abs_le]; constructor <;> linarith) (by norm_num)
  have e2 := (Approx.exact 2).mul hF c4 (X := 2) (Y := 3600000) (δ' := 2e-6) (by norm_num [abs_of_pos])
    (by rw [abs_le]; constructor <;> linarith) (by norm_num)
  obtain ⟨x, ex, e3⟩ := e2.div hF e1 (m := 1100000) (M := 2.2) (δ' := 1.05e-10) (by rw [abs_of_pos] <;> linarith)
    (by change |betaOf (theta T)| ≤ 2.2; rw [abs_le]; constructor <;> linarith) (by norm_num)
  have e4 : Approx x (betaOf (theta T)) (1e-9 * betaOf (theta T)) := Approx.mono e3 (by norm_num at *; linarith)
  obtain ⟨z, ez, e5⟩ := e4.fourth hF (by norm_num at *; linarith) (by norm_num at *; linarith) (by norm_num)
  refine ⟨z, ?_, e5.mono (by rw [psat]; exact mul_le_mul_of_nonneg_right (by norm_num) (by positivity))⟩
  unfold Region4.p4_T
  simp only [i2, i4, eq, ew, ev, er, ex, ez, pure_bind]

/-! ## Conversions -/

private theorem int_fin (n : ℤ) : Num.ofInt n = .fin (n : ℝ) := ofInt_eq n

private theorem zeroC (hF : F.Digits15) : Approx (F.lit Constants.ABSOLUTE_ZERO_CELSIUS) (-273.15) 4e-13 :=
  .lit hF _ (by norm_num [Constants.ABSOLUTE_ZERO_CELSIUS]) (M := 300) (by norm_num [abs_le]) (by norm_num)

/-- a temperature in the user's unit, converted -/
theorem toSI_T_float (hF : F.Digits15) (u : UnitSystem) {x : ℝ} (h0 : 0 ≤ Quantity.T.si u x) (h1 : Quantity.T.si u x ≤ 1000) :
    ∃ n, UnitConverter.toSIunit_T F u (.fin x) = pure n ∧ Approx n (Quantity.T.si u x) 1e-11 := by
  cases u
  · refine ⟨.fin x, by simp [UnitConverter.toSIunit_T], ?_⟩
    rw [show Quantity.T.si .bare x = x by norm_num [Quantity.si, Quantity.scale, Quantity.offset]]
    exact (Approx.exact x).mono (by norm_num)
  · have e : Quantity.T.si .mks x = x - -273.15 := by norm_num [Quantity.si, Quantity.scale, Quantity.offset]
    rw [e] at h0 h1 ⊢
    exact ⟨_, by simp [UnitConverter.toSIunit_T],
      (Approx.exact x).sub hF (zeroC hF) (M := 1000) (by rw [abs_le]; constructor <;> linarith) (by norm_num)⟩
  · have e : Quantity.T.si .fls x = 5 / 9 * (x - 32) - -273.15 := by
      norm_num [Quantity.si, Quantity.scale, Quantity.offset]; ring
    rw [e] at h0 h1 ⊢
    have i5 : Num.ofInt 5 = .fin 5 := by rw [ofInt_eq]; norm_num
    have i9 : Num.ofInt 9 = .fin 9 := by rw [ofInt_eq]; norm_num
    have i32 : Num.ofInt 32 = .fin 32 := by rw [ofInt_eq]; norm_num
    obtain ⟨c, ec, a1⟩ := (Approx.exact 5).div hF (Approx.exact 9) (m := 9) (M := 0.6) (δ' := 1e-15)
      (by norm_num [abs_of_pos]) (by norm_num [abs_of_pos, abs_le]) (by norm_num)
    have a2 := (Approx.exact x).sub hF (Approx.exact 32) (M := 1400) (δ' := 2e-12)
      (by norm_num at *; rw [abs_le]; constructor <;> linarith) (by norm_num)
    have a3 := a1.mul hF a2 (X := 0.6) (Y := 1400) (δ' := 4e-12) (by norm_num [abs_le])
      (by norm_num at *; rw [abs_le]; constructor <;> linarith) (by norm_num)
    have a4 := a3.sub hF (zeroC hF) (M := 1000) (δ' := 1e-11) (by rw [abs_le]; constructor <;> linarith) (by norm_num)
    exact ⟨_, by simp [UnitConverter.toSIunit_T, i5, i9, i32, ec], a4⟩

/-- a temperature in the user's unit, converted, up to 5000 K -/
theorem toSI_T_float_wide (hF : F.Digits15) (u : UnitSystem) {x : ℝ} (h0 : 0 ≤ Quantity.T.si u x) (h1 : Quantity.T.si u x ≤ 5000) :
    ∃ n, UnitConverter.toSIunit_T F u (.fin x) = pure n ∧ Approx n (Quantity.T.si u x) 1e-10 := by
  cases u
  · refine ⟨.fin x, by simp [UnitConverter.toSIunit_T], ?_⟩
    rw [show Quantity.T.si .bare x = x by norm_num [Quantity.si, Quantity.scale, Quantity.offset]]
    exact (Approx.exact x).mono (by norm_num)
  · have e : Quantity.T.si .mks x = x - -273.15 := by norm_num [Quantity.si, Quantity.scale, Quantity.offset]
    rw [e] at h0 h1 ⊢
    exact ⟨_, by simp [UnitConverter.toSIunit_T],
      (Approx.exact x).sub hF (zeroC hF) (M := 5000) (by rw [abs_le]; constructor <;> linarith) (by norm_num)⟩
  · have e : Quantity.T.si .fls x = 5 / 9 * (x - 32) - -273.15 := by
      norm_num [Quantity.si, Quantity.scale, Quantity.offset]; ring
    rw [e] at h0 h1 ⊢
    have i5 : Num.ofInt 5 = .fin 5 := by rw [ofInt_eq]; norm_num
    have i9 : Num.ofInt 9 = .fin 9 := by rw [ofInt_eq]; norm_num
    have i32 : Num.ofInt 32 = .fin 32 := by rw [ofInt_eq]; norm_num
    obtain ⟨c, ec, a1⟩ := (Approx.exact 5).div hF (Approx.exact 9) (m := 9) (M := 0.6) (δ' := 1e-15)
      (by norm_num [abs_of_pos]) (by norm_num [abs_of_pos, abs_le]) (by norm_num)
    have a2 := (Approx.exact x).sub hF (Approx.exact 32) (M := 10000) (δ' := 2e-11)
      (by norm_num at *; rw [abs_le]; constructor <;> linarith) (by norm_num)
    have a3 := a1.mul hF a2 (X := 0.6) (Y := 10000) (δ' := 4e-11) (by norm_num [abs_le])
      (by norm_num at *; rw [abs_le]; constructor <;> linarith) (by norm_num)
    have a4 := a3.sub hF (zeroC hF) (M := 5000) (δ' := 1e-10) (by rw [abs_le]; constructor <;> linarith) (by norm_num)
    exact ⟨_, by simp [UnitConverter.toSIunit_T, i5, i9, i32, ec], a4⟩

/-- a pressure in the user's unit, converted -/
theorem toSI_p_float (hF : F.Digits15) (u : UnitSystem) {x : ℝ} (h0 : 0 ≤ Quantity.p.si u x) (h1 : Quantity.p.si u x ≤ 1000) :
    ∃ n, UnitConverter.toSIunit_p F u (.fin x) = pure n ∧ Approx n (Quantity.p.si u x) 1e-11 := by
  cases u
  · refine ⟨.fin x, by simp [UnitConverter.toSIunit_p], ?_⟩
    rw [show Quantity.p.si .bare x = x by norm_num [Quantity.si, Quantity.scale, Quantity.offset]]
    exact (Approx.exact x).mono (by norm_num)
  · have e : Quantity.p.si .mks x = x / 10 := by norm_num [Quantity.si, Quantity.scale, Quantity.offset]; ring
    rw [e] at h0 h1 ⊢
    have i10 : Num.ofInt 10 = .fin 10 := by rw [ofInt_eq]; norm_num
    obtain ⟨n, en, a⟩ := (Approx.exact x).div hF (Approx.exact 10) (m := 10) (M := 1000) (δ' := 1e-11)
      (by norm_num [abs_of_pos]) (by rw [abs_le]; constructor <;> linarith) (by norm_num)
    exact ⟨n, by simp [UnitConverter.toSIunit_p, i10, en], a⟩
  · have e : Quantity.p.si .fls x = x * 0.00689475729 := by norm_num [Quantity.si, Quantity.scale, Quantity.offset]; ring
    rw [e] at h0 h1 ⊢
    have L : Approx (F.lit 0.00689475729) 0.00689475729 1e-17 :=
      .lit hF _ (by norm_num) (M := 0.007) (by norm_num [abs_le]) (by norm_num)
    have a := (Approx.exact x).mul hF L (X := 150000) (Y := 0.007) (δ' := 1e-11)
      (by norm_num at *; rw [abs_le]; constructor <;> linarith) (by norm_num [abs_le]) (by norm_num)
    exact ⟨_, by simp [UnitConverter.toSIunit_p], a⟩

/-- a pressure in MPa with its relative error, converted to the user's unit -/
theorem fromSI_p_float (hF : F.Digits15) (u : UnitSystem) {n : Num} {p : ℝ} (hn : Approx n p (1e-8 * p)) (h0 : 1e-6 ≤ p) (h1 : p ≤ 1000) :
    ∃ y, UnitConverter.fromSIunit_p F u n = pure (.fin y) ∧ |Quantity.p.si u y - p| ≤ 1.1e-8 * p := by
  cases u
  · obtain ⟨y, rfl, d⟩ := hn
    refine ⟨y, by simp [UnitConverter.fromSIunit_p], ?_⟩
    rw [show Quantity.p.si .bare y = y by norm_num [Quantity.si, Quantity.scale, Quantity.offset]]
    norm_num at *; linarith
  · have i10 : Num.ofInt 10 = .fin 10 := by rw [ofInt_eq]; norm_num
    obtain ⟨y, e, d⟩ := hn.mul hF (Approx.exact 10) (X := p) (Y := 10) (δ' := 1.1e-7 * p) (by rw [abs_of_nonneg (by linarith)])
      (by norm_num [abs_of_pos]) (by norm_num at *; constructor <;> linarith)
    refine ⟨y, by simp [UnitConverter.fromSIunit_p, i10, e], ?_⟩
    rw [show Quantity.p.si .mks y - p = (y - p * 10) * (1 / 10) by
      norm_num [Quantity.si, Quantity.scale, Quantity.offset]; ring, abs_mul]
    norm_num [abs_of_pos] at *; linarith
  · have L : Approx (F.lit 0.00689475729) 0.00689475729 1e-17 :=
      .lit hF _ (by norm_num) (M := 0.007) (by norm_num [abs_le]) (by norm_num)
    obtain ⟨m, em, y, rfl, d⟩ := hn.div hF L (m := 0.00689475729) (M := 146 * p) (δ' := 1.5e-6 * p) (by norm_num [abs_of_pos])
      (by rw [abs_of_nonneg (by positivity), div_le_iff₀ (by norm_num)]; norm_num at *; linarith)
      (by
        refine ⟨by norm_num, ?_, ?_⟩
        · rw [show (1e-8 * p + 146 * p * 1e-17) / (0.00689475729 - 1e-17) = p * ((1e-8 + 146 * 1e-17) / (0.00689475729 - 1e-17)) by ring]
          norm_num at *; linarith
        · rw [show (1e-8 * p + 146 * p * 1e-17) / (0.00689475729 - 1e-17) = p * ((1e-8 + 146 * 1e-17) / (0.00689475729 - 1e-17)) by ring]
          norm_num at *; linarith)
    refine ⟨y, by simp [UnitConverter.fromSIunit_p, em], ?_⟩
    rw [show Quantity.p.si .fls y - p = (y - p / 0.00689475729) * 0.00689475729 by
      norm_num [Quantity.si, Quantity.scale, Quantity.offset]; ring, abs_mul]
    norm_num [abs_of_pos] at *; linarith

theorem psat_abs {T : ℝ} (h0 : 273.1 ≤ T) (h1 : T ≤ 647.0961) : 1e-6 ≤ psat T ∧ psat T ≤ 1000 := by
  have hn : T - n10 ≤ -3 := by rw [n10]; norm_num at *; linarith
  have a : 273.1 ≤ theta T := by
    have := theta_gt (T := T) (by linarith)
    linarith
  have b : theta T ≤ 647.3 := by
    rw [theta, show T + n9 / (T - n10) = T - -n9 / (T - n10) by ring]
    have : -(0.08 : ℝ) ≤ -n9 / (T - n10) := by
      rw [le_div_iff_of_neg (by linarith), n9]; norm_num; linarith
    norm_num at *; linarith
  obtain ⟨c, d⟩ := betaOf_ge a b
  rw [psat]
  exact ⟨le_trans (by norm_num) (pow_le_pow_left₀ (by norm_num) c 4),
    (pow_le_pow_left₀ (by linarith) d 4).trans (by norm_num)⟩

/-- C83: `psat_t` in floating point arithmetic, in every unit system, returns the solution of the saturation equation with a
relative error of at most 1.1e-8 -/
theorem C83_psat_t (hF : F.Digits15) (u : UnitSystem) (t : ℝ) (h0 : 273.1001 ≤ Quantity.T.si u t) (h1 : Quantity.T.si u t ≤ 647.0959) :
    ∃ y ps : ℝ, XSteam.psat_t F u (.fin t) = pure (.fin y) ∧ Sat ps (Quantity.T.si u t) ∧ |Quantity.p.si u y - ps| ≤ 1.1e-8 * ps := by
  obtain ⟨n, en, hn⟩ := toSI_T_float hF u (x := t) (by linarith) (by linarith)
  obtain ⟨m, em, hm⟩ := p4_T_float hF hn (by norm_num at *; linarith) (by norm_num at *; linarith)
  have hp := psat_abs (T := Quantity.T.si u t) (by norm_num at *; linarith) (by norm_num at *; linarith)
  obtain ⟨y, ey, hy⟩ := fromSI_p_float hF u hm hp.1 hp.2
  have A : Approx (F.lit 647.096) 647.096 1e-12 := .lit hF _ (by norm_num) (M := 700) (by norm_num [abs_le]) (by norm_num)
  have B : Approx (F.lit 273.1) 273.1 1e-12 := .lit hF _ (by norm_num) (M := 700) (by norm_num [abs_le]) (by norm_num)
  refine ⟨y, psat (Quantity.T.si u t), ?_, ?_, hy⟩
  · obtain ⟨a, ea, da⟩ := A
    obtain ⟨b, eb, db⟩ := B
    obtain ⟨z, rfl, dz⟩ := hn
    rw [abs_le] at da db dz
    unfold XSteam.psat_t
    simp only [en, pure_bind, ea, eb, gt_num, fin_lt]
    rw [if_pos ⟨by norm_num at *; linarith, by norm_num at *; linarith⟩, em, pure_bind]
    exact ey
  · have hn : Quantity.T.si u t < n10 := by rw [n10]; norm_num at *; linarith
    refine psat_sat hn (by linarith [theta_gt hn]) ?_
    have := theta_mono (show Quantity.T.si u t < 647.096 by norm_num at *; linarith) (by norm_num [n10])
    have h2 : theta 647.096 ≤ 647.1735 := by norm_num [theta, n9, n10]
    linarith

/-! ## Regions -/

/-- the state keeps a distance from every border that `region_pT` compares with -/
structure Clear (p T : ℝ) : Prop where
  temperature : ∀ c ∈ [273.15, 623.15, 647.096, 1073.15, 2273.15], (1e-9 : ℝ) ≤ |T - c|
  pressure : ∀ c ∈ [0.000611, 50, 100], (1e-9 : ℝ) ≤ |p - c|
  border : 623.15 < T → T ≤ 1073.15 → (1e-8 : ℝ) ≤ |p - b23 T|
  line : T < 647.096 → ∀ ps, Sat ps T → (1e-6 : ℝ) ≤ |(|p - ps|) - 0.00001|

theorem Approx.lt_iff {a b : Num} {x y δ δ' : ℝ} (ha : Approx a x δ) (hb : Approx b y δ') (h : δ + δ' < |x - y|) : a < b ↔ x < y := by
  obtain ⟨a, rfl, da⟩ := ha
  obtain ⟨b, rfl, db⟩ := hb
  rw [abs_le] at da db
  rw [fin_lt]
  rcases le_total 0 (x - y) with h0 | h0
  · rw [abs_of_nonneg h0] at h
    exact ⟨fun _ => by linarith, fun _ => by linarith⟩
  · rw [abs_of_nonpos h0] at h
    exact ⟨fun _ => by linarith, fun _ => by linarith⟩

theorem Approx.le_iff {a b : Num} {x y δ δ' : ℝ} (ha : Approx a x δ) (hb : Approx b y δ') (h : δ + δ' < |x - y|) : a ≤ b ↔ x ≤ y := by
  obtain ⟨a, rfl, da⟩ := ha
  obtain ⟨b, rfl, db⟩ := hb
  rw [abs_le] at da db
  rw [fin_le]
  rcases le_total 0 (x - y) with h0 | h0
  · rw [abs_of_nonneg h0] at h
    exact ⟨fun _ => by linarith, fun _ => by linarith⟩
  · rw [abs_of_nonpos h0] at h
    exact ⟨fun _ => by linarith, fun _ => by linarith⟩

/-- the border between the regions 2 and 3 -/
theorem B23p_T_float (hF : F.Digits15) {b : Num} {T : ℝ} (hb : Approx b T 1e-10) (h0 : 623 ≤ T) (h1 : T ≤ 1074) :
    ∃ n, RegionBorders.B23p_T F b = pure n ∧ Approx n (b23 T) 1e-9 := by
  have L1 : Approx (F.lit 348.05185628969) 348.05185628969 1e-12 := .lit hF _ (by norm_num) (M := 400) (by norm_num [abs_le]) (by norm_num)
  have L2 : Approx (F.lit 1.1671859879975) 1.1671859879975 1e-14 := .lit hF _ (by norm_num) (M := 2) (by norm_num [abs_le]) (by norm_num)
  have L3 : Approx (F.lit 1.0192970039326e-03) 0.0010192970039326 1e-17 := .lit hF _ (by norm_num) (M := 0.002) (by norm_num [abs_le]) (by norm_num)
  have hT : |T| ≤ 1074 := by rw [abs_le]; constructor <;> linarith
  have hT2 : |T ^ 2| ≤ 1160000 := by rw [abs_of_nonneg (by positivity)]; nlinarith
  obtain ⟨w, ew, s1⟩ := hb.sq hF (m := 623) (M := 1074) (δ' := 2.2e-7) (by rw [abs_of_pos] <;> linarith) hT (by norm_num)
  have s2 := L2.mul hF hb (X := 1.2) (Y := 1074) (δ' := 1.4e-10) (by norm_num [abs_le]) hT (by norm_num)
  have s3 := L1.sub hF s2 (M := 1000) (δ' := 2e-10) (by rw [abs_le]; constructor <;> norm_num at * <;> linarith) (by norm_num)
  have s4 := L3.mul hF s1 (X := 0.0011) (Y := 1160000) (δ' := 2.6e-10) (by norm_num [abs_le]) hT2 (by norm_num)
  have s5 := s3.add hF s4 (M := 3000) (δ' := 1e-9) (by
    rw [abs_le] at hT2 ⊢; constructor <;> norm_num at * <;> linarith) (by norm_num)
  refine ⟨_, ?_, s5⟩
  unfold RegionBorders.B23p_T
  simp only [i2, ew, pure_bind]

/-- C83: away from the borders the classification is the one of exact arithmetic -/
theorem region_pT_float (hF : F.Digits15) {a b : Num} {p T : ℝ} (ha : Approx a p 1e-11) (hb : Approx b T 1e-10)
    (hb' : T ≤ 1000 → Approx b T 1e-11) (hc : Clear p T) :
    RegionSelection.region_pT F a b = RegionSelection.region_pT .ideal (.fin p) (.fin T) := by
  have e1 : FP.ideal.lit 1073.15 = .fin 1073.15 := by rw [lit_ideal]; norm_num
  have e2 : FP.ideal.lit 50.0 = .fin 50 := by rw [lit_ideal]; norm_num
  have e3 : FP.ideal.lit 2273.15 = .fin 2273.15 := by rw [lit_ideal]; norm_num
  have e4 : FP.ideal.lit 0.000611 = .fin 0.000611 := by rw [lit_ideal]; norm_num
  have e5 : FP.ideal.lit 273.15 = .fin 273.15 := by rw [lit_ideal]; norm_num
  have e6 : Num.ofInt 100 = .fin 100 := by rw [ofInt_eq]; norm_num
  have e7 : FP.ideal.lit 623.15 = .fin 623.15 := by rw [lit_ideal]; norm_num
  have e8 : FP.ideal.lit 647.096 = .fin 647.096 := by rw [lit_ideal]; norm_num
  have e9 : FP.ideal.lit 0.00001 = .fin 0.00001 := by rw [lit_ideal]; norm_num
  have L1 : Approx (F.lit 1073.15) 1073.15 3e-12 := .lit hF _ (by norm_num) (M := 2300) (by norm_num [abs_le]) (by norm_num)
  have L2 : Approx (F.lit 50.0) 50 3e-12 := .lit hF _ (by norm_num) (M := 2300) (by norm_num [abs_le]) (by norm_num)
  have L3 : Approx (F.lit 2273.15) 2273.15 3e-12 := .lit hF _ (by norm_num) (M := 2300) (by norm_num [abs_le]) (by norm_num)
  have L4 : Approx (F.lit 0.000611) 0.000611 3e-12 := .lit hF _ (by norm_num) (M := 2300) (by norm_num [abs_le]) (by norm_num)
  have L5 : Approx (F.lit 273.15) 273.15 3e-12 := .lit hF _ (by norm_num) (M := 2300) (by norm_num [abs_le]) (by norm_num)
  have L6 : Approx (Num.ofInt 100) 100 3e-12 := by rw [e6]; exact (Approx.exact 100).mono (by norm_num)
  have L7 : Approx (F.lit 623.15) 623.15 3e-12 := .lit hF _ (by norm_num) (M := 2300) (by norm_num [abs_le]) (by norm_num)
  have L8 : Approx (F.lit 647.096) 647.096 3e-12 := .lit hF _ (by norm_num) (M := 2300) (by norm_num [abs_le]) (by norm_num)
  have L9 : Approx (F.lit 0.00001) 0.00001 3e-12 := .lit hF _ (by norm_num) (M := 2300) (by norm_num [abs_le]) (by norm_num)
  have tT := hc.temperature
  have tp := hc.pressure
  simp only [List.mem_cons, List.not_mem_nil, or_false, forall_eq_or_imp, forall_eq] at tT tp
  obtain ⟨t1, t2, t3, t4, t5⟩ := tT
  obtain ⟨p1, p2, p3⟩ := tp
  have lt' : ∀ {x y : ℝ}, (1e-9 : ℝ) ≤ |x - y| → 1e-10 + 3e-12 < |x - y| := fun h => lt_of_lt_of_le (by norm_num) h
  have gt' : ∀ {x y : ℝ}, (1e-9 : ℝ) ≤ |x - y| → 3e-12 + 1e-10 < |y - x| := fun h => by
    rw [abs_sub_comm]; exact lt_of_lt_of_le (by norm_num) h
  have ha' := ha.mono (δ' := 1e-10) (by norm_num)
  unfold RegionSelection.region_pT
  simp only [bind_pure, e1, e2, e3, e4, e5, e7, e8, e9, gt_num, fin_lt, fin_le, B23p_T_eq, pure_bind,
    L1.lt_iff hb (gt' t4), ha'.lt_iff L2 (lt' p2), hb.lt_iff L3 (lt' t5), L4.lt_iff ha' (gt' p1), hb.le_iff L1 (lt' t4),
    L5.lt_iff hb (gt' t1), ha'.le_iff L6 (lt' p3), L7.lt_iff hb (gt' t2), hb.lt_iff L8 (lt' t3)]
  by_cases hot : 1073.15 < T ∧ p < 50 ∧ T < 2273.15 ∧ 0.000611 < p
  · rw [if_pos hot, if_pos hot]
  rw [if_neg hot, if_neg hot]
  rw [e6]
  simp only [fin_le]
  by_cases box : T ≤ 1073.15 ∧ 273.15 < T ∧ p ≤ 100 ∧ 0.000611 < p
  swap
  · rw [if_neg box, if_neg box]
  rw [if_pos box, if_pos box]
  obtain ⟨x1, x2, x3, x4⟩ := box
  have line : T < 647.096 → ∃ n, Region4.p4_T F b = pure n ∧ Region4.p4_T .ideal (.fin T) = pure (.fin (psat T)) ∧
      (Num.fabs (F.sub a n) < F.lit 0.00001 ↔ |p - psat T| < 0.00001) ∧ (¬ |p - psat T| < 0.00001 → (n < a ↔ psat T < p)) := by
    intro h
    obtain ⟨u, v, w⟩ := theta_box x2 h
    have hs := psat_sat u v w
    obtain ⟨n, en, hn⟩ := p4_T_float hF (hb' (by norm_num at *; linarith)) (by norm_num at *; linarith) (by norm_num at *; linarith)
    have hn' : Approx n (psat T) 2.4e-7 := hn.mono (by have := hs.2.1; norm_num at *; linarith)
    refine ⟨n, en, p4_T_eq u v (by linarith), ?_, ?_⟩
    · have d := ha.sub hF hn' (M := 200) (δ' := 3e-7)
        (by rw [abs_le]; constructor <;> linarith [hs.1, hs.2.1]) (by norm_num)
      have d' : Approx (Num.fabs (F.sub a n)) |p - psat T| 3e-7 := by
        obtain ⟨y, ey, dy⟩ := d
        rw [ey]
        exact ⟨|y|, rfl, (abs_abs_sub_abs_le _ _).trans dy⟩
      exact d'.lt_iff L9 (lt_of_lt_of_le (by norm_num) (hc.line h _ hs))
    · intro hne
      refine hn'.lt_iff ha ?_
      rw [abs_sub_comm]
      exact lt_of_lt_of_le (by norm_num) (not_lt.1 hne)
  by_cases hT : 623.15 < T
  · rw [if_pos hT, if_pos hT]
    obtain ⟨n, en, hn⟩ := B23p_T_float hF hb (by linarith) (by linarith)
    have iff := hn.lt_iff ha (by
      rw [abs_sub_comm]; exact lt_of_lt_of_le (by norm_num) (hc.border hT x1))
    rw [en]
    simp only [pure_bind, iff]
    by_cases hc' : T < 647.096
    · obtain ⟨m, em, ei, i1, -⟩ := line hc'
      simp only [hc', em, ei, pure_bind, i1, sub_ideal, fabs_fin, fin_lt]
    · simp only [hc', if_false]
  · rw [if_neg hT, if_neg hT]
    obtain ⟨m, em, ei, i1, i3⟩ := line (by norm_num at *; linarith)
    simp only [em, ei, pure_bind, i1, sub_ideal, fabs_fin, fin_lt]
    by_cases hs : |p - psat T| < 0.00001
    · simp only [hs, if_true]
    · simp only [hs, if_false, i3 hs]

/-- C83: in floating point arithmetic and in every unit system a state that is not next to a border gets the number of the region
that contains it, with a log record exactly if there is none -/
theorem C83_region (hF : F.Digits15) (u : UnitSystem) (p t : ℝ) (k : ℤ) (p0 : 0 ≤ Quantity.p.si u p) (p1 : Quantity.p.si u p ≤ 1000)
    (t0 : 0 ≤ Quantity.T.si u t) (t1 : Quantity.T.si u t ≤ 5000) (hc : Clear (Quantity.p.si u p) (Quantity.T.si u t))
    (hk : InRegion k (Quantity.p.si u p) (Quantity.T.si u t)) :
    ∃ p' t' l, Quantity.p.toSI F u (.fin p) = pure p' ∧ Quantity.T.toSI F u (.fin t) = pure t' ∧
      RegionSelection.region_pT F p' t' = ⟨l, .ok k⟩ ∧ (k = 0 ∧ Warned l ∨ k ≠ 0 ∧ l = []) := by
  obtain ⟨p', ep, hp⟩ := toSI_p_float hF u p0 p1
  obtain ⟨t', et, ht⟩ := toSI_T_float_wide hF u t0 t1
  obtain ⟨l, k', e, hk', hw⟩ := C07_region_pT (Quantity.p.si u p) (Quantity.T.si u t)
  obtain rfl := C07_unique _ _ _ _ hk hk'
  refine ⟨p', t', l, ep, et, ?_, hw⟩
  rw [region_pT_float hF hp ht ?_ hc, e]
  intro h
  obtain ⟨n, en, hn⟩ := toSI_T_float hF u t0 h
  rw [et] at en
  have : t' = n := by injection en with _ o; injection o
  rw [this]; exact hn

/-- C83: outside the regions and on the saturation line every property at (p, t) is refused in floating point arithmetic -/
theorem C83_refused (hF : F.Digits15) (u : UnitSystem) (c : Call) (p t : ℝ) (hc : c.ofPT = some (.fin p, .fin t))
    (p0 : 0 ≤ Quantity.p.si u p) (p1 : Quantity.p.si u p ≤ 1000) (t0 : 0 ≤ Quantity.T.si u t) (t1 : Quantity.T.si u t ≤ 5000)
    (hcl : Clear (Quantity.p.si u p) (Quantity.T.si u t))
    (hk : InRegion 0 (Quantity.p.si u p) (Quantity.T.si u t) ∨ InRegion 4 (Quantity.p.si u p) (Quantity.T.si u t)) :
    (c.run F u).out = .ok .nan ∧ Warned (c.run F u).logs := by
  rcases hk with hk | hk
  · obtain ⟨p', t', l, ep, et, e, -⟩ := C83_region hF u p t 0 p0 p1 t0 t1 hcl hk
    exact C13_refused F u c _ _ p' t' hc ep et 0 (by rw [e]) (.inl rfl)
  · obtain ⟨p', t', l, ep, et, e, -⟩ := C83_region hF u p t 4 p0 p1 t0 t1 hcl hk
    exact C13_refused F u c _ _ p' t' hc ep et 4 (by rw [e]) (.inr rfl)

/-! ## Cases -/

/-- binary64: the saturation pressure at 100 °C, in bar -/
example : ∃ y ps : ℝ, XSteam.psat_t .binary64 .mks (.fin 100) = pure (.fin y) ∧ Sat ps (Quantity.T.si .mks 100) ∧
    |Quantity.p.si .mks y - ps| ≤ 1.1e-8 * ps :=
  C83_psat_t Binary64.digits15 .mks 100 (by norm_num [Quantity.si, Quantity.scale, Quantity.offset])
    (by norm_num [Quantity.si, Quantity.scale, Quantity.offset])

private theorem clear_hot : Clear 1 3000 where
  temperature := by norm_num [abs_of_pos]
  pressure := by
    simp only [List.mem_cons, List.not_mem_nil, or_false, forall_eq_or_imp, forall_eq]
    norm_num [abs_of_pos, abs_of_neg]
  border h h' := by norm_num at h'
  line h := by norm_num at h

/-- binary64: 3000 K is refused by `h_pt` -/
example : ((Call.h_pt (.fin 1) (.fin 3000)).run .binary64 .bare).out = .ok .nan := by
  have e : Quantity.T.si .bare 3000 = 3000 := by norm_num [Quantity.si, Quantity.scale, Quantity.offset]
  have e' : Quantity.p.si .bare 1 = 1 := by norm_num [Quantity.si, Quantity.scale, Quantity.offset]
  refine (C83_refused Binary64.digits15 .bare (.h_pt (.fin 1) (.fin 3000)) 1 3000 rfl ?_ ?_ ?_ ?_ ?_ ?_).1 <;>
    simp only [e, e']
  · norm_num
  · norm_num
  · norm_num
  · norm_num
  · exact clear_hot
  · exact .inl (.inl ⟨rfl, by norm_num [Box], by norm_num [Hot]⟩)

private theorem clear_water : Clear 30 400 where
  temperature := by
    simp only [List.mem_cons, List.not_mem_nil, or_false, forall_eq_or_imp, forall_eq]
    norm_num [abs_of_pos, abs_of_neg]
  pressure := by
    simp only [List.mem_cons, List.not_mem_nil, or_false, forall_eq_or_imp, forall_eq]
    norm_num [abs_of_pos, abs_of_neg]
  border h _ := by norm_num at h
  line _ ps h := by
    have := h.1
    have := h.2.1
    have e : |30 - ps| = 30 - ps := abs_of_pos (by norm_num at *; linarith)
    rw [e, abs_of_pos (by norm_num at *; linarith)]
    norm_num at *; linarith

/-- binary64: water at 30 MPa and 400 K is in region 1 -/
example : ∃ p' t' l, Quantity.p.toSI .binary64 .bare (.fin 30) = pure p' ∧ Quantity.T.toSI .binary64 .bare (.fin 400) = pure t' ∧
    RegionSelection.region_pT .binary64 p' t' = ⟨l, .ok 1⟩ ∧ ((1 : ℤ) = 0 ∧ Warned l ∨ (1 : ℤ) ≠ 0 ∧ l = []) := by
  have e : Quantity.T.si .bare 400 = 400 := by norm_num [Quantity.si, Quantity.scale, Quantity.offset]
  have e' : Quantity.p.si .bare 30 = 30 := by norm_num [Quantity.si, Quantity.scale, Quantity.offset]
  refine C83_region Binary64.digits15 .bare 30 400 1 ?_ ?_ ?_ ?_ ?_ ?_ <;> simp only [e, e']
  · norm_num
  · norm_num
  · norm_num
  · norm_num
  · exact clear_water
  · obtain ⟨a, b, c⟩ := theta_box (T := 400) (by norm_num) (by norm_num)
    have hs := psat_sat a b c
    refine .inr (.inr (.inl ⟨rfl, by norm_num [Box], by norm_num, ?_, _, hs, by linarith [hs.2.1]⟩))
    rintro ⟨ps, h, d⟩
    rw [abs_lt] at d
    have := h.2.1
    norm_num at *; linarith

end PyX
