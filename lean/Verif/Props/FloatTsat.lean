import Verif.Props.FloatSat

/-!
# C83: saturation temperature in floating point arithmetic
-/

namespace PyX

open Classical Py Num Spec.Sat Spec.PT

variable {F : FP}

private theorem i2 : Num.ofInt 2 = .fin 2 := by rw [ofInt_eq]; norm_num
private theorem i4 : Num.ofInt 4 = .fin 4 := by rw [ofInt_eq]; norm_num

/-- `a ** 0.25`, relative error -/
theorem Approx.quarter (hF : F.Digits15) {a : Num} {x : ℝ} (ha : Approx a x (1e-14 * x)) (h0 : 1e-6 ≤ x) (h1 : x ≤ 1000) :
    ∃ n, F.pow a (F.lit 0.25) = pure n ∧ Approx n (x ^ (0.25 : ℝ)) (1.3e-14 * x ^ (0.25 : ℝ)) := by
  have eq' : F.lit 0.25 = .fin 0.25 := by rw [FP.lit, show ((0.25 : ℚ) : ℝ) = 0.25 by norm_num, hF.quarter]
  obtain ⟨a, rfl, da⟩ := ha
  have hx : 0 < x := lt_of_lt_of_le (by norm_num) h0
  obtain ⟨d1, d2⟩ := abs_le.1 da
  have ha0 : 5e-7 ≤ a := by norm_num at *; linarith
  have hap : 0 < a := lt_of_lt_of_le (by norm_num) ha0
  have qa := quarter_pow hap.le
  have qx := quarter_pow hx.le
  have pa : 0 < a ^ (0.25 : ℝ) := Real.rpow_pos_of_pos hap _
  have px : 0 < x ^ (0.25 : ℝ) := Real.rpow_pos_of_pos hx _
  obtain ⟨z, ez, dz⟩ : ∃ y, F.powr a 0.25 = .fin y ∧ |y - a ^ (0.25 : ℝ)| ≤ 1e-15 * |a ^ (0.25 : ℝ)| := by
    refine hF.pow a 0.25 hap.ne' (.inl hap) ?_ ?_
    · rw [abs_of_pos pa]
      by_contra hn
      have := pow_lt_pow_left₀ (not_le.1 hn) pa.le (n := 4) (by norm_num)
      rw [qa] at this
      norm_num at *; linarith
    · rw [abs_of_pos pa]
      by_contra hn
      have := pow_lt_pow_left₀ (not_le.1 hn) (by norm_num) (n := 4) (by norm_num)
      rw [qa] at this
      norm_num at *; linarith
  rw [abs_of_pos pa] at dz
  refine ⟨.fin z, ?_, z, rfl, ?_⟩
  · rw [eq']
    have : (0.25 : ℝ) ≠ 0 := by norm_num
    simp only [FP.pow, this, if_false, hap.ne', not_lt.2 hap.le, false_and, ez]
  · generalize a ^ (0.25 : ℝ) = α at *
    generalize x ^ (0.25 : ℝ) = β at *
    have key : |α - β| ≤ 1e-14 * β := by
      rw [← qa, ← qx, show α ^ 4 - β ^ 4 = (α - β) * (α ^ 3 + α ^ 2 * β + α * β ^ 2 + β ^ 3) by ring, abs_mul,
        abs_of_pos (show 0 < α ^ 3 + α ^ 2 * β + α * β ^ 2 + β ^ 3 by positivity)] at da
      have b3 : 0 < β ^ 3 := by positivity
      have : |α - β| * β ^ 3 ≤ 1e-14 * β * β ^ 3 := by
        refine le_trans (mul_le_mul_of_nonneg_left ?_ (abs_nonneg _)) (da.trans (le_of_eq (by ring)))
        have : 0 ≤ α ^ 3 + α ^ 2 * β + α * β ^ 2 := by positivity
        linarith
      exact le_of_mul_le_mul_right this b3
    have := abs_add_le (z - α) (α - β)
    rw [sub_add_sub_cancel] at this
    obtain ⟨k1, k2⟩ := abs_le.1 key
    norm_num at *; linarith

/-! ## Sizes -/

section
variable {β : ℝ} (h0 : 0.157263 < β) (h1 : β < 2.167309)
include h0 h1

private theorem satE_abs : |satE β| ≤ 18 := by
  rw [satE, n3, n6, abs_le]; constructor <;> norm_num at * <;> nlinarith
private theorem satF_abs : |satF β| ≤ 27000 := by
  rw [satF, n1, n4, n7, abs_le]; constructor <;> norm_num at * <;> nlinarith
private theorem satG_abs : -10100000 ≤ satG β ∧ satG β ≤ -120000 := by
  rw [satG, n2, n5, n8]; constructor <;> norm_num at * <;> nlinarith

private theorem discT : (3000 : ℝ) ^ 2 ≤ satF β ^ 2 - 4 * satE β * satG β ∧ satF β ^ 2 - 4 * satE β * satG β ≤ (40000 : ℝ) ^ 2 := by
  constructor
  · have u := sub_nonneg.2 h0.le
    have v := sub_nonneg.2 h1.le
    have p0 := pow_nonneg v 4
    have p1 := mul_nonneg u (pow_nonneg v 3)
    have p2 := mul_nonneg (pow_nonneg u 2) (pow_nonneg v 2)
    have p3 := mul_nonneg (pow_nonneg u 3) v
    have p4 := pow_nonneg u 4
    rw [satE, satF, satG, n1, n2, n3, n4, n5, n6, n7, n8]
    ring_nf at p0 p1 p2 p3 p4 ⊢
    norm_num at p0 p1 p2 p3 p4 ⊢
    linarith
  · have a := abs_le.1 (satE_abs h0 h1)
    have b := abs_le.1 (satF_abs h0 h1)
    have c := satG_abs h0 h1
    nlinarith
end

theorem tempOf_contract (a b : ℝ) : |tempOf a - tempOf b| ≤ |a - b| := by
  wlog h : tempOf b ≤ tempOf a generalizing a b
  · rw [abs_sub_comm, abs_sub_comm a b]
    exact this b a (le_of_not_ge h)
  have ea := theta_tempOf a
  have eb := theta_tempOf b
  have la := tempOf_lt a
  have lb := tempOf_lt b
  rw [abs_of_nonneg (by linarith)]
  refine le_trans ?_ (le_abs_self _)
  conv_rhs => rw [← ea, ← eb]
  have h9 : n9 < 0 := by norm_num [n9]
  have : n9 / (tempOf b - n10) ≤ n9 / (tempOf a - n10) := by
    rw [← neg_div_neg_eq n9 (tempOf b - n10), ← neg_div_neg_eq n9 (tempOf a - n10)]
    exact div_le_div_of_nonneg_left (by linarith) (by linarith) (by linarith)
  simp only [theta]; linarith

/-- from `ϑ` to the temperature -/
theorem tempOf_float (hF : F.Digits15) {D : ℝ} (h0 : 273 ≤ D) (h1 : D ≤ 647.3) :
    ∃ n, (do F.div (F.sub (F.add (F.lit 650.17534844798) (.fin D)) (← F.pow (F.sub (← F.pow (F.add (F.lit 650.17534844798) (.fin D)) (Num.ofInt 2)) (F.mul (Num.ofInt 4) (F.add (Num.neg (F.lit 0.23855557567849)) (F.mul (F.lit 650.17534844798) (.fin D))))) (F.lit 0.5))) (Num.ofInt 2)) = pure n ∧
      Approx n (tempOf D) 1e-8 := by
  have L9 : Approx (F.lit 0.23855557567849) (-n9) 1e-15 := .lit hF _ (by rw [n9]; norm_num) (M := 0.5) (by rw [n9]; norm_num [abs_le]) (by norm_num)
  have L10 : Approx (F.lit 650.17534844798) n10 1e-12 := .lit hF _ (by rw [n10]; norm_num) (M := 660) (by rw [n10]; norm_num [abs_le]) (by norm_num)
  have X := Approx.exact D
  have hD : |D| ≤ 648 := by rw [abs_le]; constructor <;> linarith
  have hA0 : 900 ≤ n10 + D := by rw [n10]; norm_num at *; linarith
  have hA1 : n10 + D ≤ 1298 := by rw [n10]; norm_num at *; linarith
  have a1 := L10.add hF X (M := 1298) (δ' := 3e-12) (by rw [abs_le]; constructor <;> linarith) (by norm_num)
  obtain ⟨w, ew, a2⟩ := a1.sq hF (m := 900) (M := 1298) (δ' := 1e-8) (by rw [abs_of_pos] <;> linarith)
    (by rw [abs_le]; constructor <;> linarith) (by norm_num)
  have b1 := L10.mul hF X (X := 651) (Y := 648) (δ' := 2e-9) (by rw [n10]; norm_num [abs_le]) hD (by norm_num)
  have c0 : 0 ≤ n9 + n10 * D := by rw [n9, n10]; norm_num at *; linarith
  have c1 : n9 + n10 * D ≤ 422000 := by rw [n9, n10]; norm_num at *; linarith
  have b2 := L9.neg.add hF b1 (M := 422000) (δ' := 3e-9) (by rw [neg_neg, abs_le]; constructor <;> linarith) (by norm_num)
  rw [neg_neg] at b2
  have b3 := (Approx.exact 4).mul hF b2 (X := 4) (Y := 422000) (δ' := 1.4e-8) (by norm_num [abs_of_pos])
    (by rw [abs_le]; constructor <;> linarith) (by norm_num)
  have hd := temp_disc D
  have d0 : (3 : ℝ) ^ 2 ≤ (n10 + D) ^ 2 - 4 * (n9 + n10 * D) := by
    rw [hd, n9, n10]; norm_num at *; nlinarith
  have d1 : (n10 + D) ^ 2 - 4 * (n9 + n10 * D) ≤ (400 : ℝ) ^ 2 := by
    rw [hd, n9, n10]; norm_num at *; nlinarith
  have e1 := a2.sub hF b3 (M := 160000) (δ' := 2.5e-8) (by rw [abs_le]; constructor <;> linarith) (by norm_num)
  obtain ⟨r, er, e2⟩ := e1.half hF (r := 3) (M := 400) (δ' := 9e-9) (by norm_num) d0 d1 (by norm_num) (by norm_num) (by norm_num)
  have s0 := Real.sqrt_nonneg ((n10 + D) ^ 2 - 4 * (n9 + n10 * D))
  have s1 : Real.sqrt ((n10 + D) ^ 2 - 4 * (n9 + n10 * D)) ≤ 400 := Real.sqrt_le_iff.2 ⟨by norm_num, d1⟩
  have e3 := a1.sub hF e2 (M := 1300) (δ' := 1e-8) (by rw [abs_le]; constructor <;> linarith) (by norm_num)
  obtain ⟨n, en, e4⟩ := e3.div hF (Approx.exact 2) (m := 2) (M := 650) (δ' := 1e-8) (by norm_num [abs_of_pos])
    (by rw [abs_le]; constructor <;> linarith) (by norm_num)
  refine ⟨n, ?_, e4⟩
  simp only [i2, i4, ew, er, pure_bind, en]

/-- the saturation temperature in floating point arithmetic -/
theorem T4_p_float (hF : F.Digits15) {a : Num} {p : ℝ} (ha : Approx a p (1e-14 * p)) (h0 : 0.000611657 < p) (h1 : p < 22.06395) :
    ∃ n, Region4.T4_p F a = pure n ∧ Approx n (tsat p) 1.5e-7 := by
  obtain ⟨b0, b1⟩ := quarter_range h0 h1
  obtain ⟨q, eq, s0⟩ := ha.quarter hF (by norm_num at *; linarith) (by norm_num at *; linarith)
  rw [tsat_eq]
  generalize p ^ (0.25 : ℝ) = β at *
  replace s0 : Approx q β 3e-14 := s0.mono (by norm_num at *; linarith)
  have hβ : |β| ≤ 2.168 := by rw [abs_le]; constructor <;> norm_num at * <;> linarith
  have β2 : |β ^ 2| ≤ 4.7 := by rw [abs_of_nonneg (by positivity)]; norm_num at *; nlinarith
  have bE := satE_abs b0 b1
  have bF := satF_abs b0 b1
  have bG := satG_abs b0 b1
  have bG' : |satG β| ≤ 10100000 := by rw [abs_le]; constructor <;> linarith
  have bd := discT b0 b1
  have t0 := thetaOf_gt b0 b1
  have t1 := thetaOf_lt b0 b1
  have L1 : Approx (F.lit 1167.0521452767) n1 2e-12 := .lit hF _ (by rw [n1]; norm_num) (M := 1168) (by rw [n1]; norm_num [abs_le]) (by norm_num)
  have L2 : Approx (F.lit 724213.16703206) (-n2) 1e-9 := .lit hF _ (by rw [n2]; norm_num) (M := 724214) (by rw [n2]; norm_num [abs_le]) (by norm_num)
  have L3 : Approx (F.lit 17.073846940092) (-n3) 2e-14 := .lit hF _ (by rw [n3]; norm_num) (M := 18) (by rw [n3]; norm_num [abs_le]) (by norm_num)
  have L4 : Approx (F.lit 12020.82470247) n4 2e-11 := .lit hF _ (by rw [n4]; norm_num) (M := 12021) (by rw [n4]; norm_num [abs_le]) (by norm_num)
  have L5 : Approx (F.lit 3232555.0322333) (-n5) 4e-9 := .lit hF _ (by rw [n5]; norm_num) (M := 3232556) (by rw [n5]; norm_num [abs_le]) (by norm_num)
  have L6 : Approx (F.lit 14.91510861353) n6 2e-14 := .lit hF _ (by rw [n6]; norm_num) (M := 15) (by rw [n6]; norm_num [abs_le]) (by norm_num)
  have L7 : Approx (F.lit 4823.2657361591) (-n7) 1e-11 := .lit hF _ (by rw [n7]; norm_num) (M := 4824) (by rw [n7]; norm_num [abs_le]) (by norm_num)
  have L8 : Approx (F.lit 405113.40542057) n8 1e-9 := .lit hF _ (by rw [n8]; norm_num) (M := 405114) (by rw [n8]; norm_num [abs_le]) (by norm_num)
  obtain ⟨w, ew, s1⟩ := s0.sq hF (m := 0.15) (M := 2.168) (δ' := 1.4e-13)
    (by rw [abs_of_pos] <;> norm_num at * <;> linarith) hβ (by norm_num)
  -- E
  have a1 := L3.mul hF s0 (X := 18) (Y := 2.168) (δ' := 7e-13) (by rw [n3]; norm_num [abs_le]) hβ (by norm_num)
  have a2 := s1.sub hF a1 (M := 50) (δ' := 1e-12)
    (by rw [abs_le] at β2; rw [n3, abs_le]; constructor <;> norm_num at * <;> linarith) (by norm_num)
  have ea : β ^ 2 - -n3 * β + n6 = satE β := by rw [satE]; ring
  have a3 := a2.add hF L6 (M := 18) (δ' := 1.1e-12) (by rw [ea]; exact bE) (by norm_num)
  rw [ea] at a3
  -- f
  have f1 := L1.mul hF s1 (X := 1168) (Y := 4.7) (δ' := 2e-10) (by rw [n1]; norm_num [abs_le]) β2 (by norm_num)
  have f2 := L4.mul hF s0 (X := 12021) (Y := 2.168) (δ' := 5e-10) (by rw [n4]; norm_num [abs_le]) hβ (by norm_num)
  have f3 := f1.add hF f2 (M := 40000) (δ' := 8e-10)
    (by rw [abs_le] at β2; rw [n1, n4, abs_le]; constructor <;> norm_num at * <;> linarith) (by norm_num)
  have ef : n1 * β ^ 2 + n4 * β - -n7 = satF β := by rw [satF]; ring
  have f4 := f3.sub hF L7 (M := 27000) (δ' := 9e-10) (by rw [ef]; exact bF) (by norm_num)
  rw [ef] at f4
  -- G
  have g1 := L2.neg.mul hF s1 (X := 724214) (Y := 4.7) (δ' := 1.2e-7) (by rw [n2]; norm_num [abs_le]) β2 (by norm_num)
  have g2 := L5.mul hF s0 (X := 3232556) (Y := 2.168) (δ' := 1.2e-7) (by rw [n5]; norm_num [abs_le]) hβ (by norm_num)
  have g3 := g1.sub hF g2 (M := 12000000) (δ' := 2.6e-7)
    (by rw [abs_le] at β2; rw [n2, n5, abs_le]; constructor <;> norm_num at * <;> linarith) (by norm_num)
  have eg : - -n2 * β ^ 2 - -n5 * β + n8 = satG β := by rw [satG]; ring
  have g4 := g3.add hF L8 (M := 10100000) (δ' := 2.8e-7) (by rw [eg]; exact bG') (by norm_num)
  rw [eg] at g4
  -- discriminant
  obtain ⟨v, ev, d1⟩ := f4.sq' hF (M := 27000) (δ' := 5e-5) bF (by norm_num)
  have d2 := (Approx.exact 4).mul hF a3 (X := 4) (Y := 18) (δ' := 5e-12) (by norm_num [abs_of_pos]) bE (by norm_num)
  have d3 := d2.mul hF g4 (X := 72) (Y := 10100000) (δ' := 8e-5)
    (by rw [abs_mul, show |(4 : ℝ)| = 4 by norm_num [abs_of_pos]]; linarith) bG' (by norm_num)
  have d4 := d1.sub hF d3 (M := 1600000000) (δ' := 1.4e-4) (by rw [abs_le]; constructor <;> linarith [bd.1, bd.2]) (by norm_num)
  obtain ⟨r, er, d5⟩ := d4.half hF (r := 3000) (M := 40000) (δ' := 5e-8) (by norm_num) bd.1 bd.2 (by norm_num) (by norm_num) (by norm_num)
  have s2 := Real.sqrt_nonneg (satF β ^ 2 - 4 * satE β * satG β)
  have s3 : Real.sqrt (satF β ^ 2 - 4 * satE β * satG β) ≤ 40000 := Real.sqrt_le_iff.2 ⟨by norm_num, bd.2⟩
  have bF' := abs_le.1 bF
  have k1 := f4.neg.sub hF d5 (M := 70000) (δ' := 6e-8) (by rw [abs_le]; constructor <;> linarith) (by norm_num)
  have k2 := (Approx.exact 2).mul hF g4 (X := 2) (Y := 10100000) (δ' := 6e-7) (by norm_num [abs_of_pos]) bG' (by norm_num)
  have hd := denom_pos (gneg b0) (by norm_num) (eq29_pos (by linarith) b1)
  have ed : satF β ^ 2 - 4 * satE β * satG β = (-satF β) ^ 2 - 4 * -satE β * -satG β := by ring
  rw [← ed, neg_neg] at hd
  have et : 2 * satG β / (-satF β - Real.sqrt (satF β ^ 2 - 4 * satE β * satG β)) = thetaOf β := by
    rw [thetaOf, ← ed, neg_neg, div_eq_div_iff (by linarith) hd.ne']; ring
  have hden : 370 ≤ |(-satF β - Real.sqrt (satF β ^ 2 - 4 * satE β * satG β))| := by
    rw [abs_of_neg (by linarith)]
    rw [div_eq_iff (by linarith)] at et
    by_contra hn
    have hn := not_le.1 hn
    have : thetaOf β * (satF β + Real.sqrt (satF β ^ 2 - 4 * satE β * satG β)) ≤ 648 * 370 :=
      mul_le_mul (by linarith) (by linarith) hd.le (by norm_num)
    linarith
  obtain ⟨D, eD, k3⟩ := k2.div hF k1 (m := 370) (M := 648) (δ' := 1.2e-7) hden
    (by rw [et, abs_le]; constructor <;> linarith) (by norm_num)
  rw [et] at k3
  obtain ⟨D, rfl, dD⟩ := k3
  obtain ⟨c1, c2⟩ := abs_le.1 dD
  obtain ⟨n, en, m, rfl, dm⟩ := tempOf_float hF (D := D) (by norm_num at *; linarith) (by norm_num at *; linarith)
  refine ⟨_, ?_, m, rfl, ?_⟩
  · unfold Region4.T4_p
    simp only [i2, i4] at en
    simp only [i2, i4, eq, ew, ev, er, eD, pure_bind]
    exact en
  · have := abs_add_le (m - tempOf D) (tempOf D - tempOf (thetaOf β))
    rw [sub_add_sub_cancel] at this
    have := (tempOf_contract D (thetaOf β)).trans dD
    norm_num at *; linarith

/-- a pressure in the user's unit, converted, with its relative error -/
theorem toSI_p_rel (hF : F.Digits15) (u : UnitSystem) {x : ℝ} (h0 : 1e-6 ≤ Quantity.p.si u x) (h1 : Quantity.p.si u x ≤ 1000) :
    ∃ n, UnitConverter.toSIunit_p F u (.fin x) = pure n ∧ Approx n (Quantity.p.si u x) (1e-14 * Quantity.p.si u x) := by
  cases u
  · refine ⟨.fin x, by simp [UnitConverter.toSIunit_p], ?_⟩
    have e : Quantity.p.si .bare x = x := by norm_num [Quantity.si, Quantity.scale, Quantity.offset]
    rw [e] at h0 ⊢
    exact (Approx.exact x).mono (by norm_num at *; linarith)
  · have e : Quantity.p.si .mks x = x / 10 := by norm_num [Quantity.si, Quantity.scale, Quantity.offset]; ring
    rw [e] at h0 h1 ⊢
    have i10 : Num.ofInt 10 = .fin 10 := by rw [ofInt_eq]; norm_num
    obtain ⟨n, en, a⟩ := (Approx.exact x).div hF (Approx.exact 10) (m := 10) (M := x / 10) (δ' := 1e-14 * (x / 10))
      (by norm_num [abs_of_pos]) (by rw [abs_of_nonneg (le_trans (by norm_num) h0)]) (by norm_num at *; constructor <;> linarith)
    exact ⟨n, by simp [UnitConverter.toSIunit_p, i10, en], a⟩
  · have e : Quantity.p.si .fls x = x * 0.00689475729 := by norm_num [Quantity.si, Quantity.scale, Quantity.offset]; ring
    rw [e] at h0 h1 ⊢
    have hx : 0 ≤ x := by norm_num at *; linarith
    have L : Approx (F.lit 0.00689475729) 0.00689475729 1e-17 :=
      .lit hF _ (by norm_num) (M := 0.007) (by norm_num [abs_le]) (by norm_num)
    have a := (Approx.exact x).mul hF L (X := x) (Y := 0.007) (δ' := 1e-14 * (x * 0.00689475729))
      (by rw [abs_of_nonneg hx]) (by norm_num [abs_le]) (by norm_num at *; constructor <;> linarith)
    exact ⟨_, by simp [UnitConverter.toSIunit_p], a⟩

/-- a temperature in K with its error, converted to the user's unit -/
theorem fromSI_T_float (hF : F.Digits15) (u : UnitSystem) {n : Num} {T : ℝ} (hn : Approx n T 1.5e-7) (h0 : 200 ≤ T) (h1 : T ≤ 1000) :
    ∃ y, UnitConverter.fromSIunit_T F u n = pure (.fin y) ∧ |Quantity.T.si u y - T| ≤ 2e-7 := by
  have Z : Approx (F.lit Constants.ABSOLUTE_ZERO_CELSIUS) (-273.15) 4e-13 :=
    .lit hF _ (by norm_num [Constants.ABSOLUTE_ZERO_CELSIUS]) (M := 300) (by norm_num [abs_le]) (by norm_num)
  cases u
  · obtain ⟨y, rfl, d⟩ := hn
    refine ⟨y, by simp [UnitConverter.fromSIunit_T], ?_⟩
    rw [show Quantity.T.si .bare y = y by norm_num [Quantity.si, Quantity.scale, Quantity.offset]]
    norm_num at *; linarith
  · obtain ⟨y, e, d⟩ := hn.add hF Z (M := 1000) (δ' := 2e-7) (by rw [abs_le]; constructor <;> norm_num at * <;> linarith) (by norm_num)
    refine ⟨y, by simp [UnitConverter.fromSIunit_T, e], ?_⟩
    rwa [show Quantity.T.si .mks y - T = y - (T + -273.15) by norm_num [Quantity.si, Quantity.scale, Quantity.offset]; ring]
  · have i5 : Num.ofInt 5 = .fin 5 := by rw [ofInt_eq]; norm_num
    have i9 : Num.ofInt 9 = .fin 9 := by rw [ofInt_eq]; norm_num
    have i32 : Num.ofInt 32 = .fin 32 := by rw [ofInt_eq]; norm_num
    obtain ⟨c, ec, a1⟩ := (Approx.exact 9).div hF (Approx.exact 5) (m := 5) (M := 2) (δ' := 3e-15)
      (by norm_num [abs_of_pos]) (by norm_num [abs_of_pos, abs_le]) (by norm_num)
    have a2 := hn.add hF Z (M := 1000) (δ' := 1.6e-7) (by rw [abs_le]; constructor <;> norm_num at * <;> linarith) (by norm_num)
    have a3 := a2.mul hF a1 (X := 1000) (Y := 1.8) (δ' := 3e-7) (by rw [abs_le]; constructor <;> norm_num at * <;> linarith)
      (by norm_num [abs_le]) (by norm_num)
    obtain ⟨y, e, d⟩ := a3.add hF (Approx.exact 32) (M := 2000) (δ' := 3.1e-7)
      (by rw [abs_le]; constructor <;> norm_num at * <;> linarith) (by norm_num)
    refine ⟨y, by simp [UnitConverter.fromSIunit_T, i5, i9, i32, ec, e], ?_⟩
    rw [show Quantity.T.si .fls y - T = (y - ((T + -273.15) * (9 / 5) + 32)) * (5 / 9) by
      norm_num [Quantity.si, Quantity.scale, Quantity.offset]; ring, abs_mul]
    norm_num [abs_of_pos] at *; linarith

/-- C83: `tsat_p` in floating point arithmetic, in every unit system, returns the solution of the saturation equation up to 2e-7 K -/
theorem C83_tsat_p (hF : F.Digits15) (u : UnitSystem) (p : ℝ) (h0 : 0.00061166 ≤ Quantity.p.si u p) (h1 : Quantity.p.si u p ≤ 22.0639) :
    ∃ y ts : ℝ, XSteam.tsat_p F u (.fin p) = pure (.fin y) ∧ 273.1 < ts ∧ ts < 647.096 ∧ OnLine (Quantity.p.si u p) ts ∧
      |Quantity.T.si u y - ts| ≤ 2e-7 := by
  obtain ⟨n, en, hn⟩ := toSI_p_rel hF u (x := p) (by norm_num at *; linarith) (by norm_num at *; linarith)
  have g0 : 0.000611657 < Quantity.p.si u p := by norm_num at *; linarith
  have g1 : Quantity.p.si u p < 22.06395 := by norm_num at *; linarith
  obtain ⟨m, em, hm⟩ := T4_p_float hF hn g0 g1
  have hr := tsat_range g0 g1
  obtain ⟨y, ey, hy⟩ := fromSI_T_float hF u hm (by norm_num at *; linarith) (by norm_num at *; linarith)
  have A : Approx (F.lit 22.06395) 22.06395 1e-12 := .lit hF _ (by norm_num) (M := 700) (by norm_num [abs_le]) (by norm_num)
  have B : Approx (F.lit 0.000611657) 0.000611657 1e-12 := .lit hF _ (by norm_num) (M := 700) (by norm_num [abs_le]) (by norm_num)
  obtain ⟨b0, b1⟩ := quarter_range g0 g1
  refine ⟨y, tsat (Quantity.p.si u p), ?_, hr.1, hr.2, ?_, hy⟩
  · obtain ⟨a, ea, da⟩ := A
    obtain ⟨b, eb, db⟩ := B
    obtain ⟨z, rfl, dz⟩ := hn
    rw [abs_le] at da db dz
    unfold XSteam.tsat_p
    simp only [en, pure_bind, ea, eb, gt_num, fin_lt]
    rw [if_pos ⟨by norm_num at *; linarith, by norm_num at *; linarith⟩, em, pure_bind]
    exact ey
  · rw [OnLine, tsat_eq, theta_tempOf, show (1 / 4 : ℝ) = 0.25 by norm_num, thetaOf_eq b0 b1]

/-- binary64: the boiling point at 14.7 psi -/
example : ∃ y ts : ℝ, XSteam.tsat_p .binary64 .fls (.fin 14.7) = pure (.fin y) ∧ 273.1 < ts ∧ ts < 647.096 ∧
    OnLine (Quantity.p.si .fls 14.7) ts ∧ |Quantity.T.si .fls y - ts| ≤ 2e-7 :=
  C83_tsat_p Binary64.digits15 .fls 14.7 (by norm_num [Quantity.si, Quantity.scale, Quantity.offset])
    (by norm_num [Quantity.si, Quantity.scale, Quantity.offset])

end PyX
