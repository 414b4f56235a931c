import Verif.Spec.Transport
import Verif.Props.Transport
import Verif.Lemmas.Terms
import Verif.Props.Stability
import Verif.Props.Derived
import Verif.Props.Dispatch

/-!
# C64, C65: viscosity and thermal conductivity are the published correlations
-/

namespace PyX

open Classical Py Spec.Transport

variable {p T rho : ℝ}

theorem pow_ideal_nat (a : ℝ) (n : ℕ) : FP.ideal.pow (.fin a) (.fin ((n : ℤ) : ℝ)) = pure (.fin (a ^ n)) := by
  rw [pow_ideal_int (Or.inr (by positivity)), zpow_natCast]

theorem idx_getD {l : List ℚ} {i : ℕ} (h : i < l.length) : idx l i = pure (l.getD i 0) := by
  rw [idx_lt h]; simp [h]

theorem mu_pos {T : ℝ} (h : 272 ≤ T) (rho : ℝ) : 0 < mu rho T := by
  have hx : 0.42 ≤ T / 647.226 := by rw [le_div_iff₀ (by norm_num)]; norm_num; linarith
  have := my0_den_pos hx
  have : 0 < T / 647.226 := by linarith
  unfold mu mu0 mu1
  positivity

theorem my_rest_eq (h1 : 272 ≤ T) (h2 : T ≤ 1173.15) (h3 : p ≤ 300) :
    TransportProperties.my_AllRegions_pT.rest .ideal (.fin p) (.fin T) (.fin rho) = pure (.fin (mu rho T)) := by
  have hx : 0.42 ≤ T / 647.226 := by rw [le_div_iff₀ (by norm_num)]; norm_num; linarith
  have c : ¬ ((T > 1173.15) ∨ (T > 873.15 ∧ p > 300) ∨ (T > 423.15 ∧ p > 350) ∨ p > 500) := by
    rintro (h | h | h | h) <;> linarith [h]
  unfold TransportProperties.my_AllRegions_pT.rest mu mu0 mu1
  have e1 : ((647.226 : ℚ) : ℝ) = 647.226 := by norm_num
  have e2 : ((317.763 : ℚ) : ℝ) = 317.763 := by norm_num
  have f1 : ((0.978197 : ℚ) : ℝ) = 0.978197 := by norm_num
  have f2 : ((0.579829 : ℚ) : ℝ) = 0.579829 := by norm_num
  have f3 : ((0.202354 : ℚ) : ℝ) = 0.202354 := by norm_num
  have f4 : ((0.5 : ℚ) : ℝ) = 1 / 2 := by norm_num
  simp only [lit_ideal, e1, e2, f1, f2, f3, f4, div_ideal (show (647.226 : ℝ) ≠ 0 by norm_num), div_ideal (show (317.763 : ℝ) ≠ 0 by norm_num),
    pure_bind]
  rw [if_neg (by simp only [ofInt_eq, add_ideal, gt_num, fin_lt]; norm_num; norm_num at c; exact c)]
  generalize T / 647.226 = x at hx ⊢
  generalize rho / 317.763 = d
  have hpos : 0 < x := by linarith
  have hd := my0_den_pos hx
  have n2 := pow_ideal_nat x 2
  have n3 := pow_ideal_nat x 3
  have m (i : ℕ) := pow_ideal_nat (1 / x - 1) i
  have k (i : ℕ) := pow_ideal_nat (d - 1) i
  have k1 := k 1
  have k2 := k 2
  have k3 := k 3
  have k4 := k 4
  have k5 := k 5
  have k6 := k 6
  push_cast at n2 n3 m k1 k2 k3 k4 k5 k6 hd
  simp only [ofInt_eq, Int.cast_one, Int.cast_ofNat, Int.cast_zero, Int.cast_natCast, n2, n3, pure_bind, div_ideal hpos.ne', div_ideal (pow_pos hpos _).ne',
    pow_ideal_pos hpos, add_ideal, sub_ideal, div_ideal hd.ne', m, k1, k2, k3, k4, k5, k6, mul_ideal]
  rw [loop1 (N := 6) (a := 0) (b := 6) (List.range 6) rfl rfl (fun i =>
      ((TransportProperties.my_AllRegions_pT.h0.getD i 0 : ℚ) : ℝ) * (1 / x - 1) ^ i +
      ((TransportProperties.my_AllRegions_pT.h1.getD i 0 : ℚ) : ℝ) * (1 / x - 1) ^ i * (d - 1) ^ 1 +
      ((TransportProperties.my_AllRegions_pT.h2.getD i 0 : ℚ) : ℝ) * (1 / x - 1) ^ i * (d - 1) ^ 2 +
      ((TransportProperties.my_AllRegions_pT.h3.getD i 0 : ℚ) : ℝ) * (1 / x - 1) ^ i * (d - 1) ^ 3 +
      ((TransportProperties.my_AllRegions_pT.h4.getD i 0 : ℚ) : ℝ) * (1 / x - 1) ^ i * (d - 1) ^ 4 +
      ((TransportProperties.my_AllRegions_pT.h5.getD i 0 : ℚ) : ℝ) * (1 / x - 1) ^ i * (d - 1) ^ 5 +
      ((TransportProperties.my_AllRegions_pT.h6.getD i 0 : ℚ) : ℝ) * (1 / x - 1) ^ i * (d - 1) ^ 6)]
  · simp only [pure_bind, mul_ideal, exp_ideal, ← Real.sqrt_eq_rpow]
    congr 2
    rw [mul_right_comm, mul_comm (√x / _)]
    congr 3
    · simp only [List.range, List.range.loop, visc, List.map, List.sum_cons, List.sum_nil, List.getD_cons_zero, List.getD_cons_succ,
        TransportProperties.my_AllRegions_pT.h0, TransportProperties.my_AllRegions_pT.h1, TransportProperties.my_AllRegions_pT.h2, TransportProperties.my_AllRegions_pT.h3, TransportProperties.my_AllRegions_pT.h4, TransportProperties.my_AllRegions_pT.h5, TransportProperties.my_AllRegions_pT.h6]
      push_cast
      ring
  · intro i hi s
    have hi' : i < 6 := by simpa using hi
    have hl : ∀ l : List ℚ, l.length = 6 → idx l i = pure (l.getD i 0) := fun l hl => idx_getD (by omega)
    simp only [Nat.add_zero, List.getElem_range, hl _ (show TransportProperties.my_AllRegions_pT.h0.length = 6 from rfl),
      hl _ (show TransportProperties.my_AllRegions_pT.h1.length = 6 from rfl), hl _ (show TransportProperties.my_AllRegions_pT.h2.length = 6 from rfl),
      hl _ (show TransportProperties.my_AllRegions_pT.h3.length = 6 from rfl), hl _ (show TransportProperties.my_AllRegions_pT.h4.length = 6 from rfl),
      hl _ (show TransportProperties.my_AllRegions_pT.h5.length = 6 from rfl), hl _ (show TransportProperties.my_AllRegions_pT.h6.length = 6 from rfl),
      pure_bind, add_ideal]
    congr 2
    ring

theorem my_ph_rest_eq (h1 : 272 ≤ T) (h2 : T ≤ 1173.15) (h3 : p ≤ 300) :
    TransportProperties.my_AllRegions_ph.rest .ideal (.fin p) (.fin T) (.fin rho) = pure (.fin (mu rho T)) := by
  have hx : 0.42 ≤ T / 647.226 := by rw [le_div_iff₀ (by norm_num)]; norm_num; linarith
  have c : ¬ ((T > 1173.15) ∨ (T > 873.15 ∧ p > 300) ∨ (T > 423.15 ∧ p > 350) ∨ p > 500) := by
    rintro (h | h | h | h) <;> linarith [h]
  unfold TransportProperties.my_AllRegions_ph.rest mu mu0 mu1
  have e1 : ((647.226 : ℚ) : ℝ) = 647.226 := by norm_num
  have e2 : ((317.763 : ℚ) : ℝ) = 317.763 := by norm_num
  have f1 : ((0.978197 : ℚ) : ℝ) = 0.978197 := by norm_num
  have f2 : ((0.579829 : ℚ) : ℝ) = 0.579829 := by norm_num
  have f3 : ((0.202354 : ℚ) : ℝ) = 0.202354 := by norm_num
  have f4 : ((0.5 : ℚ) : ℝ) = 1 / 2 := by norm_num
  simp only [lit_ideal, e1, e2, f1, f2, f3, f4, div_ideal (show (647.226 : ℝ) ≠ 0 by norm_num), div_ideal (show (317.763 : ℝ) ≠ 0 by norm_num),
    pure_bind]
  rw [if_neg (by simp only [ofInt_eq, add_ideal, gt_num, fin_lt]; norm_num; norm_num at c; exact c)]
  generalize T / 647.226 = x at hx ⊢
  generalize rho / 317.763 = d
  have hpos : 0 < x := by linarith
  have hd := my0_den_pos hx
  have n2 := pow_ideal_nat x 2
  have n3 := pow_ideal_nat x 3
  have m (i : ℕ) := pow_ideal_nat (1 / x - 1) i
  have k (i : ℕ) := pow_ideal_nat (d - 1) i
  have k1 := k 1
  have k2 := k 2
  have k3 := k 3
  have k4 := k 4
  have k5 := k 5
  have k6 := k 6
  push_cast at n2 n3 m k1 k2 k3 k4 k5 k6 hd
  simp only [ofInt_eq, Int.cast_one, Int.cast_ofNat, Int.cast_zero, Int.cast_natCast, n2, n3, pure_bind, div_ideal hpos.ne', div_ideal (pow_pos hpos _).ne',
    pow_ideal_pos hpos, add_ideal, sub_ideal, div_ideal hd.ne', m, k1, k2, k3, k4, k5, k6, mul_ideal]
  rw [loop1 (N := 6) (a := 0) (b := 6) (List.range 6) rfl rfl (fun i =>
      ((TransportProperties.my_AllRegions_ph.h0.getD i 0 : ℚ) : ℝ) * (1 / x - 1) ^ i +
      ((TransportProperties.my_AllRegions_ph.h1.getD i 0 : ℚ) : ℝ) * (1 / x - 1) ^ i * (d - 1) ^ 1 +
      ((TransportProperties.my_AllRegions_ph.h2.getD i 0 : ℚ) : ℝ) * (1 / x - 1) ^ i * (d - 1) ^ 2 +
      ((TransportProperties.my_AllRegions_ph.h3.getD i 0 : ℚ) : ℝ) * (1 / x - 1) ^ i * (d - 1) ^ 3 +
      ((TransportProperties.my_AllRegions_ph.h4.getD i 0 : ℚ) : ℝ) * (1 / x - 1) ^ i * (d - 1) ^ 4 +
      ((TransportProperties.my_AllRegions_ph.h5.getD i 0 : ℚ) : ℝ) * (1 / x - 1) ^ i * (d - 1) ^ 5 +
      ((TransportProperties.my_AllRegions_ph.h6.getD i 0 : ℚ) : ℝ) * (1 / x - 1) ^ i * (d - 1) ^ 6)]
  · simp only [pure_bind, mul_ideal, exp_ideal, ← Real.sqrt_eq_rpow]
    congr 2
    rw [mul_right_comm, mul_comm (√x / _)]
    congr 3
    · simp only [List.range, List.range.loop, visc, List.map, List.sum_cons, List.sum_nil, List.getD_cons_zero, List.getD_cons_succ,
        TransportProperties.my_AllRegions_ph.h0, TransportProperties.my_AllRegions_ph.h1, TransportProperties.my_AllRegions_ph.h2, TransportProperties.my_AllRegions_ph.h3, TransportProperties.my_AllRegions_ph.h4, TransportProperties.my_AllRegions_ph.h5, TransportProperties.my_AllRegions_ph.h6]
      push_cast
      ring
  · intro i hi s
    have hi' : i < 6 := by simpa using hi
    have hl : ∀ l : List ℚ, l.length = 6 → idx l i = pure (l.getD i 0) := fun l hl => idx_getD (by omega)
    simp only [Nat.add_zero, List.getElem_range, hl _ (show TransportProperties.my_AllRegions_ph.h0.length = 6 from rfl),
      hl _ (show TransportProperties.my_AllRegions_ph.h1.length = 6 from rfl), hl _ (show TransportProperties.my_AllRegions_ph.h2.length = 6 from rfl),
      hl _ (show TransportProperties.my_AllRegions_ph.h3.length = 6 from rfl), hl _ (show TransportProperties.my_AllRegions_ph.h4.length = 6 from rfl),
      hl _ (show TransportProperties.my_AllRegions_ph.h5.length = 6 from rfl), hl _ (show TransportProperties.my_AllRegions_ph.h6.length = 6 from rfl),
      pure_bind, add_ideal]
    congr 2
    ring


theorem dT_pos (t : ℝ) : 0 < dT t := by unfold dT; positivity

theorem Q_pos (t : ℝ) : 2 < Q t := by
  have := dT_pos t
  have : 0 < 0.0822994 / dT t ^ (3 / 5 : ℝ) := by positivity
  unfold Q; linarith

theorem tc_rest_eq (hT : 0 < T) (hr : 0 < rho) :
    TransportProperties.tc_ptrho.rest .ideal (.fin T) (.fin rho) = pure (.fin (lam rho T)) := by
  unfold TransportProperties.tc_ptrho.rest lam
  have e1 : ((647.26 : ℚ) : ℝ) = 647.26 := by norm_num
  have e2 : ((317.7 : ℚ) : ℝ) = 317.7 := by norm_num
  have e3 : ((0.00308976 : ℚ) : ℝ) = 0.00308976 := by norm_num
  have e4 : ((0.0822994 : ℚ) : ℝ) = 0.0822994 := by norm_num
  have e5 : ((10.0932 : ℚ) : ℝ) = 10.0932 := by norm_num
  have hx : 0 < T / 647.26 := by positivity
  have hd : 0 < rho / 317.7 := by positivity
  simp only [lit_ideal, e1, e2, e3, e4, e5, div_ideal (show (647.26 : ℝ) ≠ 0 by norm_num), div_ideal (show (317.7 : ℝ) ≠ 0 by norm_num),
    pure_bind]
  generalize T / 647.26 = x at hx ⊢
  generalize rho / 317.7 = d at hd ⊢
  have q2 (a : ℝ) := pow_ideal_nat a 2
  push_cast at q2
  have hD := dT_pos x
  have hQ := Q_pos x
  simp only [ofInt_eq, Int.cast_one, Int.cast_ofNat, sub_ideal, fabs_fin, add_ideal, div_ideal (show (5 : ℝ) ≠ 0 by norm_num),
    pure_bind, pow_ideal_pos hx, Real.rpow_ofNat, q2]
  rw [show |x - 1| + 0.00308976 = dT x from rfl]
  have hQ' : (0 : ℝ) < 1 + Q x := by linarith
  have eS : S x = if 1 ≤ x then 1 / dT x else 10.0932 / dT x ^ (3 / 5 : ℝ) := rfl
  have hp : (0 : ℝ) < dT x ^ (3 / 5 : ℝ) := Real.rpow_pos_of_pos hD _
  have eQ : 2 + 0.0822994 / dT x ^ (3 / 5 : ℝ) = Q x := rfl
  simp only [ge_num, fin_le]
  split_ifs at eS ⊢ with h <;>
  · simp only [neg_fin, mul_ideal, exp_ideal, pure_bind, pow_ideal_pos hD, div_ideal hp.ne', div_ideal hD.ne', add_ideal, eQ,
      div_ideal (pow_pos hx _).ne', div_ideal (pow_pos hd _).ne', pow_ideal_pos hd, pow_ideal_pos hx, div_ideal hQ'.ne', sub_ideal,
      div_ideal (show (2 : ℝ) ≠ 0 by norm_num), Real.rpow_ofNat, ← eS]
    congr 2
    unfold lam0 lam1 lam2
    rw [Real.sqrt_eq_rpow]
    push_cast
    norm_num

/-! ## the conductivity is positive -/

theorem exp_neg_le {z : ℝ} (hz : 0 ≤ z) : Real.exp (-z) ≤ 1 / (1 + z + z ^ 2 / 2 + z ^ 3 / 6 + z ^ 4 / 24) := by
  have h := Real.sum_le_exp_of_nonneg hz 5
  simp only [Finset.sum_range_succ, Finset.sum_range_zero, Nat.factorial] at h
  norm_num at h
  rw [Real.exp_neg, ← one_div]
  exact one_div_le_one_div_of_le (by positivity) (by linarith)

theorem lam0_ge {t : ℝ} (h0 : 0.422 ≤ t) (h1 : t ≤ 3.52) : 0.0155 ≤ lam0 t := by
  have hs : 0.649 ≤ √t := Real.le_sqrt_of_sq_le (by norm_num at *; linarith)
  have hp : 0.0240 ≤ 0.0102811 + 0.0299621 * t + 0.0156146 * t ^ 2 - 0.00422464 * t ^ 3 := by
    have : 0.0325 ≤ 0.0299621 + 0.0156146 * t - 0.00422464 * t ^ 2 := by
      nlinarith [mul_nonneg (sub_nonneg.2 h0) (sub_nonneg.2 h1)]
    nlinarith [mul_le_mul h0 this (by norm_num) (by linarith)]
  unfold lam0
  nlinarith [mul_le_mul hs hp (by norm_num) (by positivity)]

theorem lam1_low {d : ℝ} (h0 : 0 ≤ d) (h1 : d ≤ 1) : -0.0001 ≤ lam1 d := by
  have e0 : 0.3745 ≤ Real.exp (-(0.171587 * 2.392190 ^ 2)) := by
    rw [Real.exp_neg, ← one_div, le_div_iff₀ (Real.exp_pos _)]
    have := Real.exp_bound' (x := 0.171587 * 2.392190 ^ 2) (by norm_num) (by norm_num) (n := 8) (by norm_num)
    simp only [Finset.sum_range_succ, Finset.sum_range_zero, Nat.factorial] at this
    norm_num at this ⊢
    linarith
  have e1 := Real.add_one_le_exp (-(0.171587 * d * (d + 2 * 2.392190)))
  have e2 : 0 ≤ -(0.171587 * d * (d + 2 * 2.392190)) + 1 := by nlinarith
  unfold lam1
  rw [show -0.171587 * (d + 2.392190) ^ 2 = -(0.171587 * 2.392190 ^ 2) + -(0.171587 * d * (d + 2 * 2.392190)) by ring, Real.exp_add]
  have := mul_le_mul e0 e1 e2 (Real.exp_pos _).le
  nlinarith

theorem lam1_ge {a d : ℝ} (h : a ≤ d) : -0.397070 + 0.400302 * a ≤ lam1 d := by
  have := Real.exp_pos (-0.171587 * (d + 2.392190) ^ 2)
  unfold lam1
  linarith

theorem lam2_ge {d t : ℝ} (hd : 0 < d) (ht : 0.422 ≤ t) : -(0.3304 * Real.exp (-(6.17937 / d ^ 5))) ≤ lam2 d t := by
  have h0 : 0 < t := by linarith
  have hD := dT_pos t
  have hS : 0 ≤ S t := by unfold S; split_ifs <;> positivity
  have a1 : 0 ≤ (0.0701309 / t ^ 10 + 0.0118520) * d ^ (9 / 5 : ℝ) * Real.exp (0.642857 * (1 - d ^ (14 / 5 : ℝ))) := by positivity
  have a2 : 0 ≤ 0.00169937 * S t * d ^ Q t * Real.exp (Q t / (1 + Q t) * (1 - d ^ (1 + Q t))) := by positivity
  have a3 : (0.2739 : ℝ) ≤ t ^ (3 / 2 : ℝ) := by
    rw [show (3 / 2 : ℝ) = 1 + 1 / 2 by norm_num, Real.rpow_add h0, Real.rpow_one, ← Real.sqrt_eq_rpow]
    have hs : 0.6495 ≤ √t := Real.le_sqrt_of_sq_le (by norm_num at *; linarith)
    nlinarith [mul_le_mul ht hs (by norm_num) h0.le]
  have a4 : Real.exp (-4.11717 * t ^ (3 / 2 : ℝ)) ≤ 0.3239 := by
    refine (Real.exp_le_exp.2 (show -4.11717 * t ^ (3 / 2 : ℝ) ≤ -1.1276 by norm_num at *; linarith)).trans ?_
    have := Real.sum_le_exp_of_nonneg (show (0 : ℝ) ≤ 1.1276 by norm_num) 9
    simp only [Finset.sum_range_succ, Finset.sum_range_zero, Nat.factorial] at this
    rw [Real.exp_neg, inv_le_comm₀ (Real.exp_pos _) (by norm_num)]
    refine le_trans ?_ this
    norm_num
  unfold lam2
  rw [sub_eq_add_neg (-4.11717 * t ^ (3 / 2 : ℝ)), Real.exp_add]
  have := mul_le_mul_of_nonneg_right a4 (Real.exp_pos (-(6.17937 / d ^ 5))).le
  have := Real.exp_pos (-(6.17937 / d ^ 5))
  linarith

theorem dip {b d c : ℝ} (h : d ≤ b) (hd : 0 < d) (z : ℝ) (hz : 0 ≤ z) (hb : z ≤ 6.17937 / b ^ 5)
    (hc : 1 / (1 + z + z ^ 2 / 2 + z ^ 3 / 6 + z ^ 4 / 24) ≤ c) : Real.exp (-(6.17937 / d ^ 5)) ≤ c := by
  refine le_trans ?_ ((exp_neg_le hz).trans hc)
  rw [Real.exp_le_exp, neg_le_neg_iff]
  exact hb.trans (div_le_div_of_nonneg_left (by norm_num) (by positivity) (by gcongr))

/-- the conductivity of water is positive -/
theorem lam_pos (h0 : 273.15 ≤ T) (h1 : T ≤ 2273.15) (hr : 0 < rho) : 0 < lam rho T := by
  unfold lam
  have ht : 0.422 ≤ T / 647.26 := by rw [le_div_iff₀ (by norm_num)]; norm_num at *; linarith
  have ht' : T / 647.26 ≤ 3.52 := by rw [div_le_iff₀ (by norm_num)]; norm_num at *; linarith
  have hd : 0 < rho / 317.7 := by positivity
  have g0 := lam0_ge ht ht'
  generalize T / 647.26 = t at *
  generalize rho / 317.7 = d at *
  have g2 := lam2_ge hd ht
  have pos := Real.exp_pos (-(6.17937 / d ^ 5))
  rcases le_or_gt d 1 with h | h
  · have := lam1_low hd.le h
    have := dip (c := 0.0080) h hd 6.17 (by norm_num) (by norm_num) (by norm_num)
    linarith
  rcases le_or_gt d 1.1 with h' | h'
  · have := lam1_ge h.le
    have := dip (c := 0.04) h' hd 3.8 (by norm_num) (by norm_num) (by norm_num)
    linarith
  rcases le_or_gt d 1.2 with h | h
  · have := lam1_ge h'.le
    have := dip (c := 0.1) h hd 2.48 (by norm_num) (by norm_num) (by norm_num)
    linarith
  rcases le_or_gt d 1.3 with h' | h'
  · have := lam1_ge h.le
    have := dip (c := 0.2) h' hd 1.66 (by norm_num) (by norm_num) (by norm_num)
    linarith
  rcases le_or_gt d 1.45 with h | h
  · have := lam1_ge h'.le
    have := dip (c := 0.39) h hd 0.964 (by norm_num) (by norm_num) (by norm_num)
    linarith
  rcases le_or_gt d 1.6 with h' | h'
  · have := lam1_ge h.le
    have := dip (c := 0.56) h' hd 0.589 (by norm_num) (by norm_num) (by norm_num)
    linarith
  rcases le_or_gt d 1.85 with h | h
  · have := lam1_ge h'.le
    have := dip (c := 0.753) h hd 0.285 (by norm_num) (by norm_num) (by norm_num)
    linarith
  · have := lam1_ge h.le
    have q : 0 < 6.17937 / d ^ 5 := by positivity
    have : Real.exp (-(6.17937 / d ^ 5)) ≤ 1 := Real.exp_le_one_iff.2 (by linarith)
    linarith

theorem tc_ptrho_eq (h0 : 273.15 ≤ T) (h1 : p ≤ tcLimit T) (hr : 0 < rho) :
    TransportProperties.tc_ptrho .ideal (.fin p) (.fin T) (.fin rho) = pure (.fin (lam rho T)) := by
  have e1 : ((273.15 : ℚ) : ℝ) = 273.15 := by norm_num
  have := tc_rest_eq (T := T) (by linarith) hr
  simp only [TransportProperties.tc_ptrho, lit_ideal, ofInt_eq, add_ideal, gt_num, fin_lt, fin_le, e1]
  unfold tcLimit at h1
  push_cast
  norm_num at h0 h1 ⊢
  split_ifs <;> first
    | assumption
    | (exfalso; linarith)
    | (exfalso; split_ifs at h1; all_goals linarith)

/-! ## C64 -/

theorem of_fromSI_v {u : UnitSystem} {a : Num} {v : ℝ} (h : (UnitConverter.fromSIunit_v .ideal u a).out = .ok (.fin v)) :
    a = .fin (Quantity.v.si u v) := by
  cases a with
  | fin x =>
    simp only [si] at h
    rw [← show Quantity.v.user u x = v by simpa [pure_def] using h, Quantity.si_user]
  | nan =>
    obtain ⟨y, e, hn⟩ := (C02_total .ideal FP.ideal_sane .v u .nan).2
    simp only [Quantity.fromSI] at e
    rw [e, hn rfl] at h
    cases h
  | inf n =>
    exfalso
    revert h
    cases u <;> cases n <;> norm_num [UnitConverter.fromSIunit_v, pure_def, FP.div, FP.lit, FP.ideal] <;> nofun

/-- **C64**: where `v_pt` returns a specific volume, `my_pt` returns the viscosity of the IAPWS formulation at that density, a
positive number -/
theorem C64_my_pt (u : UnitSystem) (p t v : ℝ) (hv : (XSteam.v_pt .ideal u (.fin p) (.fin t)).out = .ok (.fin v)) (h0 : v ≠ 0)
    (hT : Quantity.T.si u t ≤ 1173.15) :
    ∃ y : ℝ, (XSteam.my_pt .ideal u (.fin p) (.fin t)).out = .ok (.fin y) ∧ 0 < y ∧
      Quantity.my.si u y = mu (1 / Quantity.v.si u v) (Quantity.T.si u t) := by
  simp only [XSteam.v_pt, XSteam.my_pt, si, pure_bind] at hv ⊢
  have h0' : Quantity.v.si u v ≠ 0 := fun h => h0 (by rw [← Quantity.user_si .v u v, h]; cases u <;> norm_num [Quantity.user, Quantity.offset])
  obtain ⟨l, k, e, hv⟩ := out_bind hv
  have hk : (RegionSelection.region_pT .ideal (.fin (Quantity.p.si u p)) (.fin (Quantity.T.si u t))).out = .ok k := by rw [e]
  have hbox := (region_pT_box (Quantity.p.si u p) (Quantity.T.si u t)).elim hk
  rw [out_eq hk]
  have hmem : k = 1 ∨ k = 2 ∨ k = 3 ∨ k = 5 := by
    by_contra hc
    simp only [not_or] at hc
    simp only [if_neg hc.1, if_neg hc.2.1, if_neg hc.2.2.1, if_neg hc.2.2.2] at hv
    split_ifs at hv <;> cases hv
  have hb : 273.15 < Quantity.T.si u t ∧ Quantity.p.si u p ≤ 100 := by
    rcases hbox with rfl | h
    · omega
    · exact h
  have rest := my_rest_eq (rho := 1 / Quantity.v.si u v) (by linarith [hb.1]) hT (p := Quantity.p.si u p) (by linarith [hb.2])
  have hmu := mu_pos (T := Quantity.T.si u t) (by linarith [hb.1]) (1 / Quantity.v.si u v)
  refine ⟨Quantity.my.user u (mu (1 / Quantity.v.si u v) (Quantity.T.si u t)), ?_, user_pos (fun u => by cases u <;> rfl) u hmu,
    Quantity.si_user ..⟩
  rw [if_neg (by omega), if_pos (by simpa using hmem)]
  have key : (TransportProperties.my_AllRegions_pT .ideal (.fin (Quantity.p.si u p)) (.fin (Quantity.T.si u t))).out =
      .ok (.fin (mu (1 / Quantity.v.si u v) (Quantity.T.si u t))) := by
    unfold TransportProperties.my_AllRegions_pT
    rcases hmem with rfl | rfl | rfl | rfl <;> norm_num only [if_true, if_false] at hv <;> rw [out_eq hk] <;>
      norm_num only [if_true, if_false]
    · obtain ⟨l', a, e', hv⟩ := out_bind hv
      rw [out_eq (show (Region1.v1_pT .ideal (.fin (Quantity.p.si u p)) (.fin (Quantity.T.si u t))).out = .ok a by rw [e']),
        of_fromSI_v hv, ofInt_eq, div_ideal h0', pure_bind]
      push_cast
      rw [rest]; rfl
    · obtain ⟨l', a, e', hv⟩ := out_bind hv
      rw [out_eq hk]; norm_num only [if_true, if_false]
      rw [out_eq (show (Region2.v2_pT .ideal (.fin (Quantity.p.si u p)) (.fin (Quantity.T.si u t))).out = .ok a by rw [e']),
        of_fromSI_v hv, ofInt_eq, div_ideal h0', pure_bind]
      push_cast
      rw [rest]; rfl
    · obtain ⟨l', a, e', hv⟩ := out_bind hv
      obtain ⟨l'', b, e'', hv⟩ := out_bind hv
      rw [out_eq hk]; norm_num only [if_true, if_false]
      rw [out_eq hk]; norm_num only [if_true, if_false]
      rw [out_eq (show (Region3.h3_pT .ideal (.fin (Quantity.p.si u p)) (.fin (Quantity.T.si u t))).out = .ok a by rw [e']),
        out_eq (show (Region3.v3_ph .ideal (.fin (Quantity.p.si u p)) a).out = .ok b by rw [e'']),
        of_fromSI_v hv, ofInt_eq, div_ideal h0', pure_bind]
      push_cast
      rw [rest]; rfl
    · obtain ⟨l', a, e', hv⟩ := out_bind hv
      rw [out_eq hk]; norm_num only [if_true, if_false]
      rw [out_eq hk]; norm_num only [if_true, if_false]
      rw [out_eq hk]; norm_num only [if_true, if_false]
      rw [out_eq hk]; norm_num only [if_true, if_false]
      rw [out_eq (show (Region5.v5_pT .ideal (.fin (Quantity.p.si u p)) (.fin (Quantity.T.si u t))).out = .ok a by rw [e']),
        of_fromSI_v hv, ofInt_eq, div_ideal h0', pure_bind]
      push_cast
      rw [rest]; rfl
  rw [out_eq key, fromSI_my_fin]; rfl

theorem of_fromSI_T {u : UnitSystem} {a : Num} {t : ℝ} (h : (UnitConverter.fromSIunit_T .ideal u a).out = .ok (.fin t)) :
    a = .fin (Quantity.T.si u t) := by
  cases a with
  | fin x =>
    simp only [si] at h
    rw [← show Quantity.T.user u x = t by simpa [pure_def] using h, Quantity.si_user]
  | nan =>
    obtain ⟨y, e, hn⟩ := (C02_total .ideal FP.ideal_sane .T u .nan).2
    simp only [Quantity.fromSI] at e
    rw [e, hn rfl] at h
    cases h
  | inf n =>
    exfalso
    revert h
    have e : FP.div .ideal (Num.ofInt 9) (Num.ofInt 5) = pure (.fin (9 / 5)) := by
      rw [ofInt_eq, ofInt_eq, div_ideal (by norm_num)]; norm_num
    rw [ofInt_eq, ofInt_eq] at e
    cases u <;> cases n <;> simp only [UnitConverter.fromSIunit_T, e, pure_bind, ofInt_eq, if_true, if_false, reduceCtorEq] <;>
      norm_num [pure_def, FP.mul, FP.add, FP.lit, FP.ideal] <;> nofun

/-- C64: the same at (p, h), in the single-phase regions -/
theorem C64_my_ph (u : UnitSystem) (p h t v : ℝ) (hv : (XSteam.v_ph .ideal u (.fin p) (.fin h)).out = .ok (.fin v))
    (ht : (XSteam.t_ph .ideal u (.fin p) (.fin h)).out = .ok (.fin t)) (h0 : v ≠ 0)
    (hr : (RegionSelection.region_ph .ideal (.fin (Quantity.p.si u p)) (.fin (Quantity.h.si u h))).out ≠ .ok 4)
    (hT0 : 272 ≤ Quantity.T.si u t) (hT : Quantity.T.si u t ≤ 1173.15) (hp : Quantity.p.si u p ≤ 100) :
    ∃ y : ℝ, (XSteam.my_ph .ideal u (.fin p) (.fin h)).out = .ok (.fin y) ∧ 0 < y ∧
      Quantity.my.si u y = mu (1 / Quantity.v.si u v) (Quantity.T.si u t) := by
  simp only [XSteam.v_ph, XSteam.t_ph, XSteam.my_ph, si, pure_bind] at hv ht ⊢
  have h0' : Quantity.v.si u v ≠ 0 := fun h => h0 (by rw [← Quantity.user_si .v u v, h]; cases u <;> norm_num [Quantity.user, Quantity.offset])
  obtain ⟨l, k, e, ht⟩ := out_bind ht
  have hk : (RegionSelection.region_ph .ideal (.fin (Quantity.p.si u p)) (.fin (Quantity.h.si u h))).out = .ok k := by rw [e]
  rw [out_eq hk] at hv ⊢
  have hmem : k = 1 ∨ k = 2 ∨ k = 3 ∨ k = 5 := by
    by_contra hc
    simp only [not_or] at hc
    simp only [if_neg hc.1, if_neg hc.2.1, if_neg hc.2.2.1, if_neg hc.2.2.2,
      if_neg (show k ≠ 4 by rintro rfl; exact hr hk)] at ht
    cases ht
  have rest := my_ph_rest_eq (rho := 1 / Quantity.v.si u v) hT0 hT (p := Quantity.p.si u p) (by linarith)
  have hmu := mu_pos hT0 (1 / Quantity.v.si u v)
  refine ⟨Quantity.my.user u (mu (1 / Quantity.v.si u v) (Quantity.T.si u t)), ?_, user_pos (fun u => by cases u <;> rfl) u hmu,
    Quantity.si_user ..⟩
  rw [if_pos (by simpa using hmem)]
  have key : (TransportProperties.my_AllRegions_ph .ideal (.fin (Quantity.p.si u p)) (.fin (Quantity.h.si u h))).out =
      .ok (.fin (mu (1 / Quantity.v.si u v) (Quantity.T.si u t))) := by
    unfold TransportProperties.my_AllRegions_ph
    rcases hmem with rfl | rfl | rfl | rfl <;> norm_num only [if_true, if_false] at hv ht <;> rw [out_eq hk] <;>
      norm_num only [if_true, if_false]
    · obtain ⟨l', a, e', hv⟩ := out_bind hv
      obtain ⟨l'', b, e'', hv⟩ := out_bind hv
      obtain ⟨m', c, f', ht⟩ := out_bind ht
      obtain rfl : a = c := by rw [e'] at f'; cases f'; rfl
      rw [out_eq (show (Region1.T1_ph .ideal (.fin (Quantity.p.si u p)) (.fin (Quantity.h.si u h))).out = .ok a by rw [e']),
        out_eq (show (Region1.v1_pT .ideal (.fin (Quantity.p.si u p)) a).out = .ok b by rw [e'']), of_fromSI_v hv, ofInt_eq,
        div_ideal h0', pure_bind, of_fromSI_T ht]
      push_cast
      rw [rest]; rfl
    · obtain ⟨l', a, e', hv⟩ := out_bind hv
      obtain ⟨l'', b, e'', hv⟩ := out_bind hv
      obtain ⟨m', c, f', ht⟩ := out_bind ht
      obtain rfl : a = c := by rw [e'] at f'; cases f'; rfl
      rw [out_eq hk]; norm_num only [if_true, if_false]
      rw [out_eq (show (Region2.T2_ph .ideal (.fin (Quantity.p.si u p)) (.fin (Quantity.h.si u h))).out = .ok a by rw [e']),
        out_eq (show (Region2.v2_pT .ideal (.fin (Quantity.p.si u p)) a).out = .ok b by rw [e'']), of_fromSI_v hv, ofInt_eq,
        div_ideal h0', pure_bind, of_fromSI_T ht]
      push_cast
      rw [rest]; rfl
    · obtain ⟨l', a, e', hv⟩ := out_bind hv
      obtain ⟨m', b, f', ht⟩ := out_bind ht
      rw [out_eq hk]; norm_num only [if_true, if_false]
      rw [out_eq hk]; norm_num only [if_true, if_false]
      rw [out_eq (show (Region3.v3_ph .ideal (.fin (Quantity.p.si u p)) (.fin (Quantity.h.si u h))).out = .ok a by rw [e']), of_fromSI_v hv, ofInt_eq,
        div_ideal h0', pure_bind, out_eq (show (Region3.T3_ph .ideal (.fin (Quantity.p.si u p)) (.fin (Quantity.h.si u h))).out = .ok b by rw [f']), of_fromSI_T ht]
      push_cast
      rw [rest]; rfl
    · obtain ⟨l', a, e', hv⟩ := out_bind hv
      obtain ⟨l'', b, e'', hv⟩ := out_bind hv
      obtain ⟨m', c, f', ht⟩ := out_bind ht
      obtain rfl : a = c := by rw [e'] at f'; cases f'; rfl
      rw [out_eq hk]; norm_num only [if_true, if_false]
      rw [out_eq hk]; norm_num only [if_true, if_false]
      rw [out_eq hk]; norm_num only [if_true, if_false]
      rw [out_eq hk]; norm_num only [if_true, if_false]
      rw [out_eq (show (Region5.T5_ph .ideal (.fin (Quantity.p.si u p)) (.fin (Quantity.h.si u h))).out = .ok a by rw [e']),
        out_eq (show (Region5.v5_pT .ideal (.fin (Quantity.p.si u p)) a).out = .ok b by rw [e'']), of_fromSI_v hv, ofInt_eq,
        div_ideal h0', pure_bind, of_fromSI_T ht]
      push_cast
      rw [rest]; rfl
  rw [out_eq key, fromSI_my_fin]; rfl

/-! ## C65 -/

theorem tc_tail (u : UnitSystem) {p t v : ℝ} (hv0 : 0 < v) (hT0 : 273.15 ≤ Quantity.T.si u t) (hT1 : Quantity.T.si u t ≤ 2273.15)
    (hp : Quantity.p.si u p ≤ tcLimit (Quantity.T.si u t)) :
    ∃ y : ℝ, (do
      let p ← UnitConverter.toSIunit_p .ideal u (.fin p)
      let T ← UnitConverter.toSIunit_T .ideal u (.fin t)
      let v ← UnitConverter.toSIunit_v .ideal u (.fin v)
      let rho ← FP.div .ideal (Num.ofInt 1) v
      UnitConverter.fromSIunit_tc .ideal u (← TransportProperties.tc_ptrho .ideal p T rho)).out = .ok (.fin y) ∧ 0 < y ∧
      Quantity.tc.si u y = lam (1 / Quantity.v.si u v) (Quantity.T.si u t) := by
  have hv : 0 < Quantity.v.si u v := by
    simp only [Quantity.si, show Quantity.v.offset u = 0 by cases u <;> rfl, add_zero]
    exact mul_pos (Quantity.scale_pos _ _) hv0
  have hr : 0 < 1 / Quantity.v.si u v := by positivity
  refine ⟨Quantity.tc.user u (lam (1 / Quantity.v.si u v) (Quantity.T.si u t)), ?_,
    user_pos (fun u => by cases u <;> rfl) u (lam_pos hT0 hT1 hr), Quantity.si_user ..⟩
  simp only [si, pure_bind, ofInt_eq]
  rw [div_ideal hv.ne', pure_bind]
  push_cast
  rw [tc_ptrho_eq hT0 hp hr, pure_bind, fromSI_tc_fin]; rfl

/-- C65: `tc_pt` is the conductivity of the correlation at the density 1/v -/
theorem C65_tc_pt (u : UnitSystem) (p t v : ℝ)
    (hv : (XSteam.v_pt .ideal u (.fin p) (.fin t)).out = .ok (.fin v))
    (hv0 : 0 < v) (hT0 : 273.15 ≤ Quantity.T.si u t) (hT1 : Quantity.T.si u t ≤ 2273.15)
    (hp : Quantity.p.si u p ≤ tcLimit (Quantity.T.si u t)) :
    ∃ y : ℝ, (XSteam.tc_pt .ideal u (.fin p) (.fin t)).out = .ok (.fin y) ∧ 0 < y ∧
      Quantity.tc.si u y = lam (1 / Quantity.v.si u v) (Quantity.T.si u t) := by
  unfold XSteam.tc_pt
  rw [out_eq hv]
  exact tc_tail u hv0 hT0 hT1 hp

/-- C65: `tc_ph`, likewise -/
theorem C65_tc_ph (u : UnitSystem) (p h t v : ℝ)
    (hv : (XSteam.v_ph .ideal u (.fin p) (.fin h)).out = .ok (.fin v))
    (ht : (XSteam.t_ph .ideal u (.fin p) (.fin h)).out = .ok (.fin t))
    (hv0 : 0 < v) (hT0 : 273.15 ≤ Quantity.T.si u t) (hT1 : Quantity.T.si u t ≤ 2273.15)
    (hp : Quantity.p.si u p ≤ tcLimit (Quantity.T.si u t)) :
    ∃ y : ℝ, (XSteam.tc_ph .ideal u (.fin p) (.fin h)).out = .ok (.fin y) ∧ 0 < y ∧
      Quantity.tc.si u y = lam (1 / Quantity.v.si u v) (Quantity.T.si u t) := by
  unfold XSteam.tc_ph
  rw [out_eq hv, out_eq ht]
  exact tc_tail u hv0 hT0 hT1 hp

/-- C65: `tc_hs`, likewise, through the pressure of (h, s) -/
theorem C65_tc_hs (u : UnitSystem) (h s t v p : ℝ)
    (hq : (XSteam.p_hs .ideal u (.fin h) (.fin s)).out = .ok (.fin p))
    (hv : (XSteam.v_ph .ideal u (.fin p) (.fin h)).out = .ok (.fin v))
    (ht : (XSteam.t_ph .ideal u (.fin p) (.fin h)).out = .ok (.fin t))
    (hv0 : 0 < v) (hT0 : 273.15 ≤ Quantity.T.si u t) (hT1 : Quantity.T.si u t ≤ 2273.15)
    (hp : Quantity.p.si u p ≤ tcLimit (Quantity.T.si u t)) :
    ∃ y : ℝ, (XSteam.tc_hs .ideal u (.fin h) (.fin s)).out = .ok (.fin y) ∧ 0 < y ∧
      Quantity.tc.si u y = lam (1 / Quantity.v.si u v) (Quantity.T.si u t) := by
  unfold XSteam.tc_hs
  rw [out_eq hq, out_eq hv, out_eq ht]
  exact tc_tail u hv0 hT0 hT1 hp

/-- C65: boiling liquid, by pressure -/
theorem C65_tcL_p (u : UnitSystem) (p t v : ℝ)
    (ht : (XSteam.tsat_p .ideal u (.fin p)).out = .ok (.fin t))
    (hv : (XSteam.vL_p .ideal u (.fin p)).out = .ok (.fin v))
    (hv0 : 0 < v) (hT0 : 273.15 ≤ Quantity.T.si u t) (hT1 : Quantity.T.si u t ≤ 2273.15)
    (hp : Quantity.p.si u p ≤ tcLimit (Quantity.T.si u t)) :
    ∃ y : ℝ, (XSteam.tcL_p .ideal u (.fin p)).out = .ok (.fin y) ∧ 0 < y ∧
      Quantity.tc.si u y = lam (1 / Quantity.v.si u v) (Quantity.T.si u t) := by
  unfold XSteam.tcL_p
  rw [out_eq ht, out_eq hv, show FP.lit .ideal 1.0 = Num.ofInt 1 by rw [lit_ideal, ofInt_eq]; norm_num]
  exact tc_tail u hv0 hT0 hT1 hp

/-- C65: dry saturated steam, by pressure -/
theorem C65_tcV_p (u : UnitSystem) (p t v : ℝ)
    (ht : (XSteam.tsat_p .ideal u (.fin p)).out = .ok (.fin t))
    (hv : (XSteam.vV_p .ideal u (.fin p)).out = .ok (.fin v))
    (hv0 : 0 < v) (hT0 : 273.15 ≤ Quantity.T.si u t) (hT1 : Quantity.T.si u t ≤ 2273.15)
    (hp : Quantity.p.si u p ≤ tcLimit (Quantity.T.si u t)) :
    ∃ y : ℝ, (XSteam.tcV_p .ideal u (.fin p)).out = .ok (.fin y) ∧ 0 < y ∧
      Quantity.tc.si u y = lam (1 / Quantity.v.si u v) (Quantity.T.si u t) := by
  unfold XSteam.tcV_p
  rw [out_eq ht, out_eq hv, show FP.lit .ideal 1.0 = Num.ofInt 1 by rw [lit_ideal, ofInt_eq]; norm_num]
  exact tc_tail u hv0 hT0 hT1 hp

/-- C65: boiling liquid, by temperature -/
theorem C65_tcL_t (u : UnitSystem) (t v p : ℝ)
    (hq : (XSteam.psat_t .ideal u (.fin t)).out = .ok (.fin p))
    (hv : (XSteam.vL_t .ideal u (.fin t)).out = .ok (.fin v))
    (hv0 : 0 < v) (hT0 : 273.15 ≤ Quantity.T.si u t) (hT1 : Quantity.T.si u t ≤ 2273.15)
    (hp : Quantity.p.si u p ≤ tcLimit (Quantity.T.si u t)) :
    ∃ y : ℝ, (XSteam.tcL_t .ideal u (.fin t)).out = .ok (.fin y) ∧ 0 < y ∧
      Quantity.tc.si u y = lam (1 / Quantity.v.si u v) (Quantity.T.si u t) := by
  unfold XSteam.tcL_t
  rw [out_eq hq, out_eq hv]
  exact tc_tail u hv0 hT0 hT1 hp

/-- C65: dry saturated steam, by temperature -/
theorem C65_tcV_t (u : UnitSystem) (t v p : ℝ)
    (hq : (XSteam.psat_t .ideal u (.fin t)).out = .ok (.fin p))
    (hv : (XSteam.vV_t .ideal u (.fin t)).out = .ok (.fin v))
    (hv0 : 0 < v) (hT0 : 273.15 ≤ Quantity.T.si u t) (hT1 : Quantity.T.si u t ≤ 2273.15)
    (hp : Quantity.p.si u p ≤ tcLimit (Quantity.T.si u t)) :
    ∃ y : ℝ, (XSteam.tcV_t .ideal u (.fin t)).out = .ok (.fin y) ∧ 0 < y ∧
      Quantity.tc.si u y = lam (1 / Quantity.v.si u v) (Quantity.T.si u t) := by
  unfold XSteam.tcV_t
  rw [out_eq hq, out_eq hv]
  exact tc_tail u hv0 hT0 hT1 hp

/-! ## C66 -/

open Spec.PT

/-- C66: in the regions 1, 2 and 5, up to 900 °C and up to the pressure limit of the conductivity, viscosity, thermal
conductivity and the Prandtl number are positive numbers -/
theorem C66_positive_transport (u : UnitSystem) (k : ℤ) (p t : ℝ) (hk : k = 1 ∨ k = 2 ∨ k = 5)
    (hr : InRegion k (Quantity.p.si u p) (Quantity.T.si u t)) (hT : Quantity.T.si u t ≤ 1173.15)
    (hp : Quantity.p.si u p ≤ tcLimit (Quantity.T.si u t)) :
    ∃ my tc pr : ℝ, (XSteam.my_pt .ideal u (.fin p) (.fin t)).out = .ok (.fin my) ∧ 0 < my ∧
      (XSteam.tc_pt .ideal u (.fin p) (.fin t)).out = .ok (.fin tc) ∧ 0 < tc ∧
      (XSteam.pr_pt .ideal u (.fin p) (.fin t)).out = .ok (.fin pr) ∧ 0 < pr := by
  obtain ⟨v, hv, hv0, -⟩ := C44_positive_volume u k p t hk hr
  obtain ⟨cp, cv, -, hcp, -, -, hcv, hle, -⟩ := C47_heat_capacities u k p t hk hr
  have hT0 : 273.15 ≤ Quantity.T.si u t := by
    rcases hr with ⟨rfl, -⟩ | ⟨-, h⟩ | ⟨-, h, -⟩ | ⟨-, h, -⟩ | ⟨-, h, -⟩ | ⟨-, h, -⟩ | ⟨-, h, -⟩ | ⟨-, h, -⟩
    · omega
    all_goals linarith [h.1]
  obtain ⟨my, hmy, hmy0, -⟩ := C64_my_pt u p t v (by rw [hv]; rfl) hv0.ne' hT
  obtain ⟨tc, htc, htc0, -⟩ := C65_tc_pt u p t v (by rw [hv]; rfl) hv0 hT0 (by linarith) hp
  have pos : ∀ {q : Quantity} (_ : ∀ u, q.offset u = 0) {x : ℝ} (_ : 0 < x), 0 < q.si u x := fun {q} h x hx => by
    simp only [Quantity.si, h, add_zero]; exact mul_pos (q.scale_pos u) hx
  have h1 := pos (q := .Cp) (fun u => by cases u <;> rfl) (hcv.trans_le hle)
  have h2 := pos (q := .my) (fun u => by cases u <;> rfl) hmy0
  have h3 := pos (q := .tc) (fun u => by cases u <;> rfl) htc0
  exact ⟨my, tc, _, hmy, hmy0, htc, htc0, C37_prandtl u p t cp my tc (by rw [hcp]; rfl) hmy htc h3.ne', by positivity⟩

/-- at 500 bar and 126.85 °C (liquid), and at 10 MPa and 900 K (steam) -/
example : ∃ y : ℝ, (XSteam.pr_pt .ideal .mks (.fin 500) (.fin 126.85)).out = .ok (.fin y) ∧ 0 < y := by
  have hp : Quantity.p.si .mks 500 = 50 := by norm_num [Quantity.si, Quantity.scale, Quantity.offset]
  have ht : Quantity.T.si .mks 126.85 = 400 := by norm_num [Quantity.si, Quantity.scale, Quantity.offset]
  obtain ⟨-, -, y, -, -, -, -, a, b⟩ := C66_positive_transport .mks 1 500 126.85 (.inl rfl) (by rw [hp, ht]; exact region1_point)
    (by rw [ht]; norm_num) (by rw [hp, ht]; norm_num [tcLimit])
  exact ⟨y, a, b⟩
example : ∃ y : ℝ, (XSteam.pr_pt .ideal .bare (.fin 10) (.fin 900)).out = .ok (.fin y) ∧ 0 < y := by
  obtain ⟨-, -, y, -, -, -, -, a, b⟩ := C66_positive_transport .bare 2 10 900 (.inr (.inl rfl)) (by simpa using region2_point)
    (by simp; norm_num) (by simp; norm_num [tcLimit])
  exact ⟨y, a, b⟩

end PyX
