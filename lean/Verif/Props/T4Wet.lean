import Verif.Props.T4Ends
import Verif.Props.Saturation
import Verif.Props.Backward
import Verif.Props.Defects

/-!
# C59: `t_hs` and `p_hs` raise `ValueError` for wet steam of low enthalpy

For entropies from 3.778 to 5.211 kJ/(kg K) `T4_hs` starts its search at the pressure `p3sat_h(h)`, an equation for the saturation line
of region 3 (1671 to 2564 kJ/kg). For a smaller enthalpy the equation gives pressures such as 10¹⁰ MPa; there the specific volume is
negative, and its logarithm raises `ValueError`.
-/

namespace PyX

open Classical Py Num Spec Spec.IF97

/-- exact arithmetic has no error at all -/
theorem ideal_rough : FP.ideal.Rough where
  rel x y h := by
    cases h
    norm_num
    positivity
  pow_rel a n y h := by
    have : y = a ^ n := by
      have : FP.ideal.powr a n = .fin (a ^ (n : ℝ)) := rfl
      rw [this] at h
      cases h
      exact Real.rpow_intCast a n
    subst this
    norm_num
    positivity
  pow_float _ _ _ _ := rfl
  pow_not_nan _ _ h := by cases h
  neg_float _ _ := rfl

/-! ## The starting pressure -/

private def satTable : List Term :=
  (RegionBorders.p3sat_h.ni.zip (RegionBorders.p3sat_h.Ii.zip RegionBorders.p3sat_h.Ji)).map fun a => ⟨a.2.1, a.2.2, a.1⟩

theorem dpoly_zero (ts : List Term) (a b : ℝ) : dpoly ts 0 0 a b = (ts.map fun t => (t.n : ℝ) * a ^ t.I * b ^ t.J).sum := by
  simp [dpoly, Term.d, ff]

private theorem p3sat_h_eq (h : ℝ) : RegionBorders.p3sat_h .ideal (.fin h) =
    pure (.fin (dpoly satTable 0 0 (h / 2600 - 1.02) (h / 2600 - 0.608) * 22)) := by
  have iI : RegionBorders.p3sat_h.Ii = satTable.map Term.I := rfl
  have iJ : RegionBorders.p3sat_h.Ji = satTable.map Term.J := rfl
  have iN : RegionBorders.p3sat_h.ni = satTable.map Term.n := rfl
  have e5 : FP.ideal.lit 1.02 = .fin 1.02 := by rw [lit_ideal]; norm_num
  have e6 : FP.ideal.lit 0.608 = .fin 0.608 := by rw [lit_ideal]; norm_num
  unfold RegionBorders.p3sat_h
  rw [iI, iJ, iN]
  simp only [e5, e6, ofInt_eq, Int.cast_ofNat, Int.cast_zero, div_ideal (show (2600 : ℝ) ≠ 0 by norm_num), pure_bind, sub_ideal]
  rw [backsum (N := 14) _ rfl (fun t ht => .inr ((by decide +kernel : ∀ t ∈ satTable, 0 ≤ t.I) t ht))
    (fun t ht => .inr ((by decide +kernel : ∀ t ∈ satTable, 0 ≤ t.J) t ht))]
  simp only [pure_bind, mul_ideal]

/-- below 1250 kJ/kg the equation gives more than 10⁷ MPa -/
private theorem p3sat_h_big {h : ℝ} (h0 : 900 ≤ h) (h1 : h ≤ 1250) :
    10000000 ≤ dpoly satTable 0 0 (h / 2600 - 1.02) (h / 2600 - 0.608) * 22 := by
  rw [dpoly_zero]
  obtain ⟨A, hA⟩ : ∃ A : ℝ, h / 2600 - 1.02 = -A := ⟨1.02 - h / 2600, by ring⟩
  obtain ⟨B, hB⟩ : ∃ B : ℝ, h / 2600 - 0.608 = -B := ⟨0.608 - h / 2600, by ring⟩
  have A0 : 0.539 ≤ A := by norm_num at hA ⊢; linarith
  have B0 : 0.127 ≤ B := by norm_num at hB ⊢; linarith
  have B1 : B ≤ 1 := by norm_num at hB ⊢; linarith
  rw [hA, hB]
  have A0' : 0 < A := by linarith
  have B0' : 0 < B := by linarith
  -- the last term outweighs the negative ones
  have key : ∀ (c : ℝ) (i j : ℕ), i ≤ 36 → j ≤ 24 → c * 100 ≤ 8.13641294467829e37 * (0.539 ^ (36 - i) * 0.127 ^ (24 - j)) →
      c * (A ^ i * B ^ j) * 100 ≤ 8.13641294467829e37 * (A ^ 36 * B ^ 24) := by
    intro c i j hi hj hc
    have e1 : A ^ 36 = A ^ i * A ^ (36 - i) := by rw [← pow_add]; congr 1; omega
    have e2 : B ^ 24 = B ^ j * B ^ (24 - j) := by rw [← pow_add]; congr 1; omega
    have m1 : (0.539 : ℝ) ^ (36 - i) ≤ A ^ (36 - i) := pow_le_pow_left₀ (by norm_num) A0 _
    have m2 : (0.127 : ℝ) ^ (24 - j) ≤ B ^ (24 - j) := pow_le_pow_left₀ (by norm_num) B0 _
    have m := mul_le_mul m1 m2 (by positivity) (by positivity)
    have : c * 100 ≤ 8.13641294467829e37 * (A ^ (36 - i) * B ^ (24 - j)) :=
      hc.trans (mul_le_mul_of_nonneg_left m (by norm_num))
    have := mul_le_mul_of_nonneg_right this (show 0 ≤ A ^ i * B ^ j by positivity)
    rw [e1, e2]
    linarith
  have k1 := key 9.36203654849857 1 1 (by norm_num) (by norm_num) (by norm_num)
  have k2 := key 8623.32011700662 5 3 (by norm_num) (by norm_num) (by norm_num)
  have k3 := key 3.89718771997719e18 14 16 (by norm_num) (by norm_num) (by norm_num)
  have k4 := key 3.33775713645296e22 20 16 (by norm_num) (by norm_num) (by norm_num)
  have k5 := key 35649946963.6328 22 3 (by norm_num) (by norm_num) (by norm_num)
  have k6 := key 1.48547544720641e26 24 18 (by norm_num) (by norm_num) (by norm_num)
  have k7 := key 54817 0 0 (by norm_num) (by norm_num) (by norm_num)
  have p1 : 0 ≤ A * B ^ 3 := by positivity
  have p2 : 0 ≤ A * B ^ 4 := by positivity
  have p3 : 0 ≤ A * B ^ 36 := by positivity
  have p4 : 0 ≤ A ^ 7 := by positivity
  have p5 : 0 ≤ A ^ 8 * B ^ 24 := by positivity
  have p6 : 0 ≤ A ^ 28 * B ^ 8 := by positivity
  have e : ((satTable.map fun t => (t.n : ℝ) * (-A) ^ t.I * (-B) ^ t.J)).sum =
      0.600073641753024 - 9.36203654849857 * (A ^ 1 * B ^ 1) + 24.6590798594147 * (A * B ^ 3) + 107.014222858224 * (A * B ^ 4) +
      91582131580576.8 * (A * B ^ 36) - 8623.32011700662 * (A ^ 5 * B ^ 3) + 23.5837344740032 * A ^ 7 +
      2.52304969384128e17 * (A ^ 8 * B ^ 24) - 3.89718771997719e18 * (A ^ 14 * B ^ 16) - 3.33775713645296e22 * (A ^ 20 * B ^ 16) -
      35649946963.6328 * (A ^ 22 * B ^ 3) - 1.48547544720641e26 * (A ^ 24 * B ^ 18) + 3.30611514838798e18 * (A ^ 28 * B ^ 8) +
      8.13641294467829e37 * (A ^ 36 * B ^ 24) := by
    have neg : ∀ (x : ℝ) (n : ℕ), (-x) ^ (n : ℤ) = (-1) ^ n * x ^ n := by
      intro x n
      rw [zpow_natCast, ← neg_one_mul x, mul_pow]
    simp only [satTable, RegionBorders.p3sat_h.ni, RegionBorders.p3sat_h.Ii, RegionBorders.p3sat_h.Ji, List.zip_cons_cons, List.zip_nil_right,
      List.map_cons, List.map_nil, List.sum_cons, List.sum_nil]
    have z : ∀ (x : ℝ) (n : ℕ), x ^ ((OfNat.ofNat n : ℤ)) = x ^ n := fun x n => zpow_natCast x n
    norm_cast
    push_cast
    ring
  rw [e]
  norm_num at k1 k2 k3 k4 k5 k6 k7 ⊢
  linarith

/-! ## The first pass -/

theorem T4_p_large {p : ℝ} (hp : 500000 ≤ p) : ∃ T : ℝ, Region4.T4_p .ideal (.fin p) = pure (.fin T) ∧ 0 < T := by
  have p0 : 0 < p := by linarith
  have lq : FP.ideal.lit 0.25 = .fin 0.25 := by rw [lit_ideal]; norm_num
  have lh : FP.ideal.lit 0.5 = .fin 0.5 := by rw [lit_ideal]; norm_num
  have l1 : FP.ideal.lit 17.073846940092 = .fin 17.073846940092 := by rw [lit_ideal]; norm_num
  have l2 : FP.ideal.lit 14.91510861353 = .fin 14.91510861353 := by rw [lit_ideal]; norm_num
  have l3 : FP.ideal.lit 1167.0521452767 = .fin 1167.0521452767 := by rw [lit_ideal]; norm_num
  have l4 : FP.ideal.lit 12020.82470247 = .fin 12020.82470247 := by rw [lit_ideal]; norm_num
  have l5 : FP.ideal.lit 4823.2657361591 = .fin 4823.2657361591 := by rw [lit_ideal]; norm_num
  have l6 : FP.ideal.lit 724213.16703206 = .fin 724213.16703206 := by rw [lit_ideal]; norm_num
  have l7 : FP.ideal.lit 3232555.0322333 = .fin 3232555.0322333 := by rw [lit_ideal]; norm_num
  have l8 : FP.ideal.lit 405113.40542057 = .fin 405113.40542057 := by rw [lit_ideal]; norm_num
  have l9 : FP.ideal.lit 650.17534844798 = .fin 650.17534844798 := by rw [lit_ideal]; norm_num
  have l10 : FP.ideal.lit 0.23855557567849 = .fin 0.23855557567849 := by rw [lit_ideal]; norm_num
  have z2 : ∀ x : ℝ, FP.ideal.pow (.fin x) (.fin 2) = pure (.fin (x ^ 2)) := by
    intro x
    have := pow_ideal_int (a := x) (n := 2) (.inr (by norm_num))
    simpa using this
  have hf : ∀ {x : ℝ}, 0 < x → FP.ideal.pow (.fin x) (.fin 0.5) = pure (.fin (Real.sqrt x)) := by
    intro x hx
    rw [pow_ideal_pos hx, Real.sqrt_eq_rpow]
    norm_num
  have hβ : (26 : ℝ) ≤ p ^ (0.25 : ℝ) := by
    have : (26 : ℝ) = ((26 : ℝ) ^ 4) ^ (0.25 : ℝ) := by
      rw [← Real.rpow_natCast, ← Real.rpow_mul (by norm_num)]
      norm_num
    rw [this]
    exact Real.rpow_le_rpow (by norm_num) (by linarith) (by norm_num)
  unfold Region4.T4_p
  simp only [lq, lh, l1, l2, l3, l4, l5, l6, l7, l8, l9, l10, ofInt_eq, Int.cast_ofNat, pow_ideal_pos p0, pure_bind, z2, mul_ideal, sub_ideal, add_ideal,
    neg_fin]
  generalize p ^ (0.25 : ℝ) = β at hβ
  generalize hE : β ^ 2 - 17.073846940092 * β + 14.91510861353 = E
  generalize hf' : 1167.0521452767 * β ^ 2 + 12020.82470247 * β - 4823.2657361591 = f
  generalize hG : -724213.16703206 * β ^ 2 - 3232555.0322333 * β + 405113.40542057 = G
  have b2 : 26 * β ≤ β ^ 2 := by nlinarith
  have E0 : 0 < E := by norm_num at hE; nlinarith
  have E1 : E ≤ β ^ 2 := by norm_num at hE; nlinarith
  have f0 : 0 < f := by norm_num at hf'; nlinarith
  have f1 : f ≤ 1700 * β ^ 2 := by norm_num at hf'; nlinarith
  have G0 : G ≤ -(700000 * β ^ 2) := by norm_num at hG; nlinarith
  have G1 : -(900000 * β ^ 2) ≤ G := by norm_num at hG; nlinarith
  have bp : 0 < β ^ 2 := by positivity
  have hD : 0 < f ^ 2 - 4 * E * G := by nlinarith [mul_pos E0 (show 0 < -G by linarith)]
  have hS : Real.sqrt (f ^ 2 - 4 * E * G) ≤ 3000 * β ^ 2 := by
    rw [Real.sqrt_le_left (by positivity)]
    have a : f ^ 2 ≤ (1700 * β ^ 2) ^ 2 := pow_le_pow_left₀ f0.le f1 2
    have b : E * -G ≤ β ^ 2 * (900000 * β ^ 2) := mul_le_mul E1 (by linarith) (by linarith) bp.le
    nlinarith [sq_nonneg (β ^ 2)]
  have hd : -f - Real.sqrt (f ^ 2 - 4 * E * G) < 0 := by linarith [Real.sqrt_nonneg (f ^ 2 - 4 * E * G)]
  simp only [hf hD, pure_bind, sub_ideal, div_ideal hd.ne, add_ideal, mul_ideal, z2]
  have D1 : 1 ≤ 2 * G / (-f - Real.sqrt (f ^ 2 - 4 * E * G)) := by
    rw [le_div_iff_of_neg hd]
    linarith
  generalize 2 * G / (-f - Real.sqrt (f ^ 2 - 4 * E * G)) = d at D1
  have e : (650.17534844798 + d) ^ 2 - 4 * (-0.23855557567849 + 650.17534844798 * d) = (650.17534844798 - d) ^ 2 + 4 * 0.23855557567849 := by ring
  have hD2 : 0 < (650.17534844798 + d) ^ 2 - 4 * (-0.23855557567849 + 650.17534844798 * d) := by rw [e]; positivity
  simp only [hf hD2, pure_bind, sub_ideal, div_ideal (two_ne_zero (α := ℝ))]
  refine ⟨_, rfl, ?_⟩
  have : Real.sqrt ((650.17534844798 + d) ^ 2 - 4 * (-0.23855557567849 + 650.17534844798 * d)) < 650.17534844798 + d := by
    rw [Real.sqrt_lt' (by linarith)]
    norm_num at D1 ⊢
    linarith
  linarith

private def volTable : List Term :=
  (Region3.v3_ph.ni.zip (Region3.v3_ph.Ii.zip Region3.v3_ph.Ji)).map fun a => ⟨a.2.1, a.2.2, a.1⟩

/-- the specific volume of region 3 at an absurd pressure is negative -/
theorem v3_large {p : ℝ} (hp : 500000 ≤ p) : ∃ v : ℝ, Region3.v3_ph .ideal (.fin p) (.ofInt (-99999)) = pure (.fin v) ∧ v < 0 := by
  have iI : Region3.v3_ph.Ii = volTable.map Term.I := rfl
  have iJ : Region3.v3_ph.Ji = volTable.map Term.J := rfl
  have iN : Region3.v3_ph.ni = volTable.map Term.n := rfl
  have l1 : FP.ideal.lit 2014.64004206875 = .fin 2014.64004206875 := by rw [lit_ideal]; norm_num
  have l2 : FP.ideal.lit 3.74696550136983 = .fin 3.74696550136983 := by rw [lit_ideal]; norm_num
  have l3 : FP.ideal.lit 2.19921901054187e-02 = .fin 2.19921901054187e-02 := by rw [lit_ideal]; norm_num
  have l4 : FP.ideal.lit 8.7513168600995e-05 = .fin 8.7513168600995e-05 := by rw [lit_ideal]; norm_num
  have l5 : FP.ideal.lit 0.128 = .fin 0.128 := by rw [lit_ideal]; norm_num
  have l6 : FP.ideal.lit 0.727 = .fin 0.727 := by rw [lit_ideal]; norm_num
  have l7 : FP.ideal.lit 0.0028 = .fin 0.0028 := by rw [lit_ideal]; norm_num
  have z2 : FP.ideal.pow (.fin p) (.fin 2) = pure (.fin (p ^ 2)) := by
    simpa using pow_ideal_int (a := p) (n := 2) (.inr (by norm_num))
  have z3 : FP.ideal.pow (.fin p) (.fin 3) = pure (.fin (p ^ 3)) := by
    simpa using pow_ideal_int (a := p) (n := 3) (.inr (by norm_num))
  unfold Region3.v3_ph
  rw [iI, iJ, iN]
  simp only [l1, l2, l3, l4, l5, l6, l7, ofInt_eq, Int.cast_ofNat, Int.cast_zero, Int.cast_neg, z2, z3, pure_bind, mul_ideal, add_ideal, sub_ideal, fin_lt,
    div_ideal (show (100 : ℝ) ≠ 0 by norm_num), div_ideal (show (2100 : ℝ) ≠ 0 by norm_num)]
  rw [if_pos (by norm_num; nlinarith [sq_nonneg p])]
  have x5 : 5000 ≤ p / 100 + 0.128 := by norm_num; linarith
  generalize p / 100 + 0.128 = x at x5
  rw [backsum (N := 32) _ rfl (fun t ht => .inl (by linarith)) (fun t ht => .inl (by norm_num))]
  refine ⟨_, rfl, ?_⟩
  have y1 : (-49 : ℝ) ≤ -99999 / 2100 - 0.727 := by norm_num
  have y2 : (-99999 / 2100 - 0.727 : ℝ) ≤ -48 := by norm_num
  generalize (-99999 / 2100 - 0.727 : ℝ) = y at y1 y2
  have split : volTable = volTable.take 31 ++ [⟨8, 2, -0.0408757344495612⟩] := by
    norm_num [volTable, Region3.v3_ph.ni, Region3.v3_ph.Ii, Region3.v3_ph.Ji]
  rw [dpoly_zero, split, List.map_append, List.sum_append]
  have head : ((volTable.take 31).map fun t => (t.n : ℝ) * x ^ t.I * y ^ t.J).sum ≤ 31 * (1.3e8 * x ^ 5) := by
    have := List.sum_le_card_nsmul ((volTable.take 31).map fun t => (t.n : ℝ) * x ^ t.I * y ^ t.J) (1.3e8 * x ^ 5) (by
      intro r hr
      obtain ⟨t, ht, rfl⟩ := List.mem_map.1 hr
      obtain ⟨c1, c2, c3, c4, c5⟩ := (by decide +kernel : ∀ t ∈ volTable.take 31, |t.n| * 49 ^ t.J.toNat ≤ 1000000 * 5000 ^ (5 - t.I).toNat ∧
        0 ≤ t.J ∧ t.I ≤ 5 ∧ -12 ≤ t.I ∧ 1e-6 ≤ |t.n|) t ht
      have z : ∀ a : ℝ, |a - a| ≤ 1e-6 * |a| + 1e-200 := by
        intro a
        rw [sub_self, abs_zero]
        positivity
      have := v3_term ideal_rough x5 y1 y2 c1 c2 c3 c4 c5 (lit_ideal _) (z (x ^ t.I)) (z (y ^ t.J)) rfl rfl
      exact (abs_le.1 this).2)
    rwa [List.length_map, show (volTable.take 31).length = 31 from rfl, nsmul_eq_mul] at this
  have x3 : (5000 : ℝ) ^ 3 ≤ x ^ 3 := pow_le_pow_left₀ (by norm_num) x5 3
  have x5' : 0 < x ^ 5 := by positivity
  have last : (([⟨8, 2, -0.0408757344495612⟩] : List Term).map fun t => (t.n : ℝ) * x ^ t.I * y ^ t.J).sum ≤ -(x ^ 5 * x ^ 3) := by
    have e : (([⟨8, 2, -0.0408757344495612⟩] : List Term).map fun t => (t.n : ℝ) * x ^ t.I * y ^ t.J).sum =
        -0.0408757344495612 * (x ^ 5 * x ^ 3) * y ^ 2 := by
      simp only [List.map_cons, List.map_nil, List.sum_cons, List.sum_nil, add_zero]
      norm_cast
      push_cast
      ring
    rw [e]
    have : (2304 : ℝ) ≤ y ^ 2 := by nlinarith
    nlinarith [mul_pos x5' (show 0 < x ^ 3 by positivity)]
  nlinarith

theorem s3_neg {ρ T : ℝ} (hρ : ρ < 0) (hT : 0 < T) : Region3.s3_rhoT .ideal (.fin ρ) (.fin T) = Py.raise .value := by
  have iIi : Region3.s3_rhoT.Ii = 0 :: region3.map Term.I := rfl
  have iJi : Region3.s3_rhoT.Ji = 0 :: region3.map Term.J := rfl
  have ini : Region3.s3_rhoT.ni = region3Log :: region3.map Term.n := rfl
  have i0 : idx Region3.s3_rhoT.ni 0 = pure region3Log := rfl
  have l1 : FP.ideal.lit 322.0 = .fin 322 := by rw [lit_ideal]; norm_num
  have l2 : FP.ideal.lit Constants.CRITICAL_TEMPERATURE = .fin 647.096 := by rw [lit_ideal]; norm_num [Constants.CRITICAL_TEMPERATURE]
  have neg : ρ / 322 < 0 := by linarith
  have hx : ρ / 322 ≠ 0 := neg.ne
  have hτ : (647.096 : ℝ) / T ≠ 0 := div_ne_zero (by norm_num) hT.ne'
  have hlog : FP.ideal.log (.fin (ρ / 322)) = Py.raise .value := by simp [FP.log, neg.le]
  unfold Region3.s3_rhoT
  simp only [i0]
  rw [iIi, iJi, ini]
  simp only [l1, l2, div_ideal (show (322 : ℝ) ≠ 0 by norm_num), div_ideal hT.ne', pure_bind, ofInt_eq, Int.cast_zero]
  rw [loop2 (N := 39) (a := 1) (b := 40) region3 rfl rfl
    (fun t => Term.d t 0 0 (ρ / 322) (647.096 / T))
    (fun t => Term.d t 0 1 (ρ / 322) (647.096 / T)) 0 0 _ fun i hi s0 s1 => ?_]
  rotate_left
  · simp only [idx_cons_map _ _ hi, pure_bind, lit_ideal, pow_ideal_int (Or.inl hx),
      pow_ideal_int (Or.inl hτ), mul_ideal, add_ideal, Term.d, ff]
    push_cast
    ring_nf
  simp only [pure_bind, hlog]
  rfl

open Region4 in
/-- the first pass raises -/
theorem entropy_large {h p : ℝ} (hh : -99999 < h) (hp : 500000 ≤ p) :
    T4_hs.entropy .ideal (.fin h) (.fin p) = Py.raise .value := by
  have l1 : FP.ideal.lit 16.529 = .fin 16.529 := by rw [lit_ideal]; norm_num
  have l2 : FP.ideal.lit 22.06395 = .fin 22.06395 := by rw [lit_ideal]; norm_num
  have n16 : ¬ p < 16.529 := by norm_num; linarith
  have n22 : ¬ p < 22.06395 := by norm_num; linarith
  have hV : h4V_p .ideal (.fin p) = pure (.ofInt (-99999)) := by
    unfold h4V_p
    rw [l2, if_neg (fun h => n22 h.2)]
    rfl
  have hL : h4L_p .ideal (.fin p) = pure (.ofInt (-99999)) := by
    unfold h4L_p
    rw [l2, if_neg (fun h => n22 h.2)]
    rfl
  obtain ⟨T, hT, T0⟩ := T4_p_large hp
  obtain ⟨v, hv, v0⟩ := v3_large hp
  have hx : x4_ph .ideal (.fin p) (.fin h) = pure (.ofInt 1) := by
    unfold x4_ph
    rw [hV, hL]
    simp only [pure_bind]
    rw [if_pos (by simp only [ofInt_eq, gt_num, fin_lt]; push_cast; exact hh)]
  have hd : FP.ideal.div (.ofInt 1) (.fin v) = pure (.fin (1 / v)) := by
    rw [ofInt_eq, Int.cast_one, div_ideal v0.ne]
  unfold T4_hs.entropy
  rw [hT, hx, l1, hV]
  simp only [pure_bind, fin_lt, if_neg n16, hv, hd, s3_neg (one_div_neg.2 v0) T0]
  rfl

open Region4 in
theorem T4_hs_large {h s : ℝ} (h0 : 900 ≤ h) (h1 : h ≤ 1250) (s0 : 3.77828134 < s) (s1 : s ≤ 5.210887663) :
    T4_hs .ideal (.fin h) (.fin s) = Py.raise .value := by
  have l1 : FP.ideal.lit 5.210887825 = .fin 5.210887825 := by rw [lit_ideal]; norm_num
  have l2 : FP.ideal.lit 0.0001545495919 = .fin 0.0001545495919 := by rw [lit_ideal]; norm_num
  have l3 : FP.ideal.lit 3.77828134 = .fin 3.77828134 := by rw [lit_ideal]; norm_num
  have l4 : FP.ideal.lit 4.41202148223476 = .fin 4.41202148223476 := by rw [lit_ideal]; norm_num
  have l5 : FP.ideal.lit 5.210887663 = .fin 5.210887663 := by rw [lit_ideal]; norm_num
  have l6 : FP.ideal.lit 0.000611 = .fin 0.000611 := by rw [lit_ideal]; norm_num
  have l7 : FP.ideal.lit 0.000001 = .fin 0.000001 := by rw [lit_ideal]; norm_num
  have l8 : FP.ideal.lit 0.0000001 = .fin 0.0000001 := by rw [lit_ideal]; norm_num
  have P := p3sat_h_big h0 h1
  have E := p3sat_h_eq h
  generalize dpoly satTable 0 0 (h / 2600 - 1.02) (h / 2600 - 0.608) * 22 = q at P E
  have loop : whileLoop (T4_hs.pass2 .ideal (.fin h) (.fin s)) (none, .ofInt (-1000), .fin q, .fin 0.000611) = Py.raise .value := by
    rw [whileLoop_eq, T4_hs.pass2_eq]
    have hm : FP.ideal.mid (.fin 0.000611) (.fin q) = .fin ((0.000611 + q) / 2) := rfl
    simp only [widthPass]
    rw [if_pos, FP.div_two, pure_bind, hm, entropy_large (by linarith) (by norm_num; linarith)]
    · rfl
    · simp only [l7, l8, ofInt_eq, sub_ideal, Num.fabs, gt_num, fin_lt]
      push_cast
      constructor
      · rw [abs_of_nonneg] <;> norm_num at * <;> linarith
      · rw [abs_of_nonneg] <;> norm_num <;> linarith
  unfold T4_hs
  rw [if_neg (by rw [l1]; rintro ⟨a, -⟩; have a : 5.210887825 < s := a; norm_num at a s1; linarith),
    if_neg (by rw [l3]; rintro ⟨-, a⟩; have a := (fin_le _ _).1 a; linarith)]
  simp only [E, l6, l3, l4, l5, gt_num, fin_lt, fin_le]
  by_cases hs : s ≤ 4.41202148223476
  · rw [if_pos ⟨s0, hs⟩]
    simp only [pure_bind, getVar, loop]
    rfl
  · rw [if_neg (fun a => hs a.2), if_pos ⟨not_le.1 hs, s1⟩]
    simp only [pure_bind, getVar, loop]
    rfl

/-- C59: `t_hs`, `p_hs` and `tc_hs` end in a `ValueError` for every point classified as region 4 with an enthalpy from 900 to 1250 kJ/kg and
an entropy above 3.77828134 and up to 5.210887663 kJ/(kg K); all unit systems -/
theorem C59_value_error (u : UnitSystem) (h s : ℝ) (l : List LogRec) (h0 : 900 ≤ Quantity.h.si u h) (h1 : Quantity.h.si u h ≤ 1250)
    (s0 : 3.77828134 < Quantity.s.si u s) (s1 : Quantity.s.si u s ≤ 5.210887663)
    (hr : RegionSelection.region_hs .ideal (.fin (Quantity.h.si u h)) (.fin (Quantity.s.si u s)) = ⟨l, .ok 4⟩) :
    (XSteam.t_hs .ideal u (.fin h) (.fin s)).out = .raise .value ∧ (XSteam.p_hs .ideal u (.fin h) (.fin s)).out = .raise .value ∧
      (XSteam.tc_hs .ideal u (.fin h) (.fin s)).out = .raise .value := by
  have T := T4_hs_large h0 h1 s0 s1
  have hp : (XSteam.p_hs .ideal u (.fin h) (.fin s)).out = .raise .value := by
    unfold XSteam.p_hs
    simp only [si, pure_bind, hr]
    simp only [T]
    rfl
  refine ⟨?_, hp, ?_⟩
  · unfold XSteam.t_hs
    simp only [si, pure_bind, hr]
    simp only [T]
    rfl
  · unfold XSteam.tc_hs
    dsimp only
    generalize XSteam.p_hs .ideal u (.fin h) (.fin s) = q at hp ⊢
    obtain ⟨l, o⟩ := q
    cases hp
    rfl

/-! Wet steam of 1230 kJ/kg and 4.45 kJ/(kg K). -/

private theorem region_hs_wet : RegionSelection.region_hs .ideal (.fin 1230) (.fin 4.45) = pure 4 := by
  have e0 : FP.ideal.lit 0.0001545495919 = .fin 0.0001545495919 := by rw [lit_ideal]; norm_num
  have e1 : FP.ideal.lit 3.77828134 = .fin 3.77828134 := by rw [lit_ideal]; norm_num
  have e2 : FP.ideal.lit 4.41202148223476 = .fin 4.41202148223476 := by rw [lit_ideal]; norm_num
  have e3 : FP.ideal.lit 5.260578707 = .fin 5.260578707 := by rw [lit_ideal]; norm_num
  have e4 : FP.ideal.lit 0.0415878 = .fin 0.0415878 := by rw [lit_ideal]; norm_num
  have e5 : FP.ideal.lit 2500.89262 = .fin 2500.89262 := by rw [lit_ideal]; norm_num
  have e6 : FP.ideal.lit 0.00015455 = .fin 0.00015455 := by rw [lit_ideal]; norm_num
  have e7 : FP.ideal.lit 9.155759 = .fin 9.155759 := by rw [lit_ideal]; norm_num
  have e8 : FP.ideal.lit 9.155759395 = .fin 9.155759395 := by rw [lit_ideal]; norm_num
  unfold RegionSelection.region_hs
  simp only [e0, e1, e2, e3, e4, e5, e6, e7, e8, neg_fin, sub_ideal, ge_num, fin_lt, fin_le]
  rw [if_neg (by norm_num), div_ideal (by norm_num), pure_bind]
  simp only [mul_ideal, fin_lt]
  rw [if_neg (by norm_num), if_neg (by norm_num), if_neg (by norm_num), if_neg (by norm_num), if_pos (by norm_num),
    h4_s_3 (by norm_num) (by norm_num) (by norm_num) (by norm_num), pure_bind, if_pos]
  rw [fin_lt]
  simp only [poly, h4s3, Region4.h4_s.ni_3, Region4.h4_s.Ii_3, Region4.h4_s.Ji_3, List.zip, List.zipWith, List.map_cons,
    List.map_nil, List.sum_cons, List.sum_nil, zpow_ofNat]
  norm_num

example : (XSteam.t_hs .ideal .bare (.fin 1230) (.fin 4.45)).out = .raise .value := by
  have e1 : Quantity.h.si .bare 1230 = 1230 := by norm_num [Quantity.si, Quantity.scale, Quantity.offset]
  have e2 : Quantity.s.si .bare 4.45 = 4.45 := by norm_num [Quantity.si, Quantity.scale, Quantity.offset]
  exact (C59_value_error .bare 1230 4.45 [] (by rw [e1]; norm_num) (by rw [e1]; norm_num) (by rw [e2]; norm_num) (by rw [e2]; norm_num)
    (by rw [e1, e2]; exact region_hs_wet)).1

end PyX
