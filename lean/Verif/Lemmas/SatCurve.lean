import Verif.Lemmas.Quadratic
import Verif.Spec.Saturation
import Mathlib.Tactic.NormNum

/-!
# The saturation line
-/

namespace PyX

open Classical Spec.Sat

/-! ## The two ways of solving the saturation equation, over the reals -/

noncomputable def satA (θ : ℝ) : ℝ := θ ^ 2 + n1 * θ + n2
noncomputable def satB (θ : ℝ) : ℝ := n3 * θ ^ 2 + n4 * θ + n5
noncomputable def satC (θ : ℝ) : ℝ := n6 * θ ^ 2 + n7 * θ + n8
noncomputable def satE (β : ℝ) : ℝ := β ^ 2 + n3 * β + n6
noncomputable def satF (β : ℝ) : ℝ := n1 * β ^ 2 + n4 * β + n7
noncomputable def satG (β : ℝ) : ℝ := n2 * β ^ 2 + n5 * β + n8

theorem eq29_β (β θ : ℝ) : eq29 β θ = satA θ * β ^ 2 + satB θ * β + satC θ := by
  simp only [eq29, satA, satB, satC]; ring
theorem eq29_θ (β θ : ℝ) : eq29 β θ = -(-satE β * θ ^ 2 + -satF β * θ + -satG β) := by
  simp only [eq29, satE, satF, satG]; ring

noncomputable def betaOf (θ : ℝ) : ℝ :=
  2 * satC θ / (-satB θ + Real.sqrt (satB θ ^ 2 - 4 * satA θ * satC θ))
noncomputable def thetaOf (β : ℝ) : ℝ :=
  2 * -satG β / (- -satF β + Real.sqrt ((-satF β) ^ 2 - 4 * -satE β * -satG β))

noncomputable def psat (T : ℝ) : ℝ := betaOf (theta T) ^ 4
noncomputable def tsat (p : ℝ) : ℝ :=
  (n10 + thetaOf (p ^ (0.25 : ℝ)) -
    Real.sqrt ((n10 + thetaOf (p ^ (0.25 : ℝ))) ^ 2 - 4 * (n9 + n10 * thetaOf (p ^ (0.25 : ℝ))))) / 2

theorem satC_pos (θ : ℝ) : 0 < satC θ := by
  simp only [satC, n6, n7, n8]
  nlinarith [sq_nonneg (θ - 161.7)]

theorem eq29_neg {θ : ℝ} (_h0 : 0 ≤ θ) (h1 : θ ≤ 647.3) : satA θ * 2.2 ^ 2 + satB θ * 2.2 + satC θ < 0 := by
  simp only [satA, satB, satC, n1, n2, n3, n4, n5, n6, n7, n8]
  nlinarith [mul_nonneg (sub_nonneg.2 h1) _h0]

theorem satG_neg {β : ℝ} (h : 0.157 < β) : 0 < -satG β := by
  simp only [satG, n2, n5, n8]
  nlinarith

theorem eq29_pos {β : ℝ} (_h0 : 0 < β) (h : β < 2.167309) :
    -satE β * 647.1734 ^ 2 + -satF β * 647.1734 + -satG β < 0 := by
  simp only [satE, satF, satG, n1, n2, n3, n4, n5, n6, n7, n8]
  nlinarith [mul_pos _h0 (sub_pos.2 h)]

theorem eq29_low {β : ℝ} (h : 0.157263 < β) (_h' : β < 2.167309) :
    0 < -satE β * 273.12 ^ 2 + -satF β * 273.12 + -satG β := by
  simp only [satE, satF, satG, n1, n2, n3, n4, n5, n6, n7, n8]
  nlinarith

/-- the equation increases with `ϑ` -/
theorem eq29_mono {β θ θ' : ℝ} (hβ : 0 < β) (h0 : 165 ≤ θ) (h : θ < θ') (h1 : θ' ≤ 647.3) :
    eq29 β θ < eq29 β θ' := by
  have q1 : 0 < satE β * 330 + satF β := by
    simp only [satE, satF, n1, n3, n4, n6, n7]; nlinarith
  have q2 : 0 < satE β * 1294.6 + satF β := by
    simp only [satE, satF, n1, n3, n4, n6, n7]; nlinarith [sq_nonneg (β - 2.048)]
  have key : 0 < satE β * (θ + θ') + satF β := by
    have e : (1294.6 - 330) * (satE β * (θ + θ') + satF β) = (θ + θ' - 330) * (satE β * 1294.6 + satF β) +
        (1294.6 - (θ + θ')) * (satE β * 330 + satF β) := by ring
    have a1 : 0 < (θ + θ' - 330) * (satE β * 1294.6 + satF β) := mul_pos (by linarith) q2
    have a2 : 0 < (1294.6 - (θ + θ')) * (satE β * 330 + satF β) := mul_pos (by linarith) q1
    nlinarith
  have e : eq29 β θ' - eq29 β θ = (θ' - θ) * (satE β * (θ + θ') + satF β) := by
    simp only [eq29_θ]; ring
  have := mul_pos (sub_pos.2 h) key
  linarith

section
variable {θ : ℝ} (h0 : 0 ≤ θ) (h1 : θ ≤ 647.3)
include h0 h1

theorem betaOf_pos : 0 < betaOf θ := root_pos (satC_pos θ) (by norm_num) (eq29_neg h0 h1)
theorem betaOf_lt : betaOf θ < 2.2 := root_lt (satC_pos θ) (by norm_num) (eq29_neg h0 h1)
theorem betaOf_eq : eq29 (betaOf θ) θ = 0 := by
  rw [eq29_β]; exact root_eq (satC_pos θ) (by norm_num) (eq29_neg h0 h1)
theorem betaOf_unique {β : ℝ} (hβ : 0 ≤ β) (hβ' : β ≤ 2.2) (h : eq29 β θ = 0) : betaOf θ = β := by
  have := betaOf_eq h0 h1
  rw [eq29_β] at h this
  exact root_unique (satC_pos θ) (eq29_neg h0 h1) (betaOf_pos h0 h1).le (betaOf_lt h0 h1).le hβ hβ' this h
end

theorem betaOf_mono {θ θ' : ℝ} (h0 : 165 ≤ θ) (h : θ < θ') (h1 : θ' ≤ 647.3) : betaOf θ < betaOf θ' := by
  have h00 : 0 ≤ θ := by linarith
  have h01 : 0 ≤ θ' := by linarith
  have hθ : θ ≤ 647.3 := by linarith
  have hb := betaOf_pos h00 hθ
  have e := betaOf_eq h00 hθ
  have := eq29_mono hb h0 h h1
  rw [e, eq29_β] at this
  refine lt_root (satC_pos θ') (eq29_neg h01 h1) hb (betaOf_lt h00 hθ) this (betaOf_pos h01 h1) ?_
  have := betaOf_eq h01 h1
  rwa [eq29_β] at this

section
variable {β : ℝ} (h0 : 0.157263 < β) (h1 : β < 2.167309)
include h0 h1

omit h1 in
theorem gneg : 0 < -satG β := satG_neg (by linarith)

theorem thetaOf_gt : 273.12 < thetaOf β := by
  have hp := eq29_pos (by linarith) h1
  refine lt_root (gneg h0) hp (by norm_num) (by norm_num) (eq29_low h0 h1)
    (root_pos (gneg h0) (by norm_num) hp) ?_
  exact root_eq (gneg h0) (by norm_num) hp
theorem thetaOf_lt : thetaOf β < 647.1734 :=
  root_lt (gneg h0) (by norm_num) (eq29_pos (by linarith) h1)
theorem thetaOf_eq : eq29 β (thetaOf β) = 0 := by
  rw [eq29_θ, neg_eq_zero]
  exact root_eq (gneg h0) (by norm_num) (eq29_pos (by linarith) h1)
theorem thetaOf_unique {θ : ℝ} (hθ : 0 ≤ θ) (hθ' : θ ≤ 647.1734) (h : eq29 β θ = 0) : thetaOf β = θ := by
  have := thetaOf_eq h0 h1
  rw [eq29_θ, neg_eq_zero] at h this
  exact root_unique (gneg h0) (eq29_pos (by linarith) h1) (by linarith [thetaOf_gt h0 h1])
    (thetaOf_lt h0 h1).le hθ hθ' this h
end

/-! ### From `T` to `ϑ` and back -/

theorem theta_gt {T : ℝ} (h : T < n10) : T < theta T := by
  have : 0 < n9 / (T - n10) := div_pos_of_neg_of_neg (by norm_num [n9]) (by linarith)
  simp only [theta]; linarith

theorem theta_mono {T T' : ℝ} (h : T < T') (h' : T' < n10) : theta T < theta T' := by
  have h9 : n9 < 0 := by norm_num [n9]
  have hT : T - n10 < 0 := by linarith
  have hT' : T' - n10 < 0 := by linarith
  have : n9 / (T - n10) < n9 / (T' - n10) := by
    rw [← neg_div_neg_eq n9 (T - n10), ← neg_div_neg_eq n9 (T' - n10)]
    exact div_lt_div_of_pos_left (by linarith) (by linarith) (by linarith)
  simp only [theta]; linarith

theorem theta_le {T : ℝ} (h : T ≤ 647.1) : theta T ≤ 647.3 := by
  have h1 : theta T ≤ theta 647.1 := by
    rcases h.eq_or_lt with rfl | h
    · exact le_rfl
    · exact (theta_mono h (by norm_num [n10])).le
  have : theta 647.1 ≤ 647.3 := by norm_num [theta, n9, n10]
  linarith

/-- the smaller solution `T` of `ϑ = T + n9/(T - n10)` -/
noncomputable def tempOf (θ : ℝ) : ℝ := (n10 + θ - Real.sqrt ((n10 + θ) ^ 2 - 4 * (n9 + n10 * θ))) / 2

theorem temp_disc (θ : ℝ) : (n10 + θ) ^ 2 - 4 * (n9 + n10 * θ) = (n10 - θ) ^ 2 - 4 * n9 := by ring
theorem temp_disc_pos (θ : ℝ) : 0 < (n10 + θ) ^ 2 - 4 * (n9 + n10 * θ) := by
  rw [temp_disc]
  have : n9 < 0 := by norm_num [n9]
  nlinarith [sq_nonneg (n10 - θ)]

theorem tempOf_lt (θ : ℝ) : tempOf θ < n10 := by
  have : |θ - n10| < Real.sqrt ((n10 + θ) ^ 2 - 4 * (n9 + n10 * θ)) := by
    rw [Real.lt_sqrt (abs_nonneg _), sq_abs, temp_disc]
    have : n9 < 0 := by norm_num [n9]
    nlinarith
  have := (abs_lt.1 this).2
  simp only [tempOf]
  linarith

theorem tempOf_mul (θ : ℝ) : (tempOf θ - n10) * (tempOf θ - θ) = -n9 := by
  have := Real.sq_sqrt (temp_disc_pos θ).le
  simp only [tempOf]
  linear_combination this / 4

theorem theta_tempOf (θ : ℝ) : theta (tempOf θ) = θ := by
  have h := tempOf_mul θ
  have hne : tempOf θ - n10 ≠ 0 := by have := tempOf_lt θ; linarith
  have : n9 / (tempOf θ - n10) = θ - tempOf θ := by
    rw [div_eq_iff hne]; linear_combination h
  rw [theta, this]; ring

theorem tempOf_theta {T : ℝ} (h : T < n10) : tempOf (theta T) = T := by
  by_contra hne
  rcases lt_or_gt_of_ne hne with h' | h'
  · have := theta_mono h' h
    rw [theta_tempOf] at this
    exact lt_irrefl _ this
  · have := theta_mono h' (tempOf_lt _)
    rw [theta_tempOf] at this
    exact lt_irrefl _ this

theorem quarter {β : ℝ} (h : 0 ≤ β) : (β ^ 4) ^ (0.25 : ℝ) = β := by
  rw [← Real.rpow_natCast, ← Real.rpow_mul h]
  norm_num

theorem quarter_pow {p : ℝ} (h : 0 ≤ p) : (p ^ (0.25 : ℝ)) ^ 4 = p := by
  rw [← Real.rpow_natCast, ← Real.rpow_mul h]
  norm_num

theorem tsat_eq (p : ℝ) : tsat p = tempOf (thetaOf (p ^ (0.25 : ℝ))) := rfl

/-- the range of pressures of `tsat_p` -/
theorem quarter_range {p : ℝ} (h0 : 0.000611657 < p) (h1 : p < 22.06395) :
    0.157263 < p ^ (0.25 : ℝ) ∧ p ^ (0.25 : ℝ) < 2.167309 := by
  have hp : 0 ≤ p := by linarith
  have hb : 0 ≤ p ^ (0.25 : ℝ) := Real.rpow_nonneg hp _
  have e := quarter_pow hp
  constructor
  · by_contra hn
    have : (p ^ (0.25 : ℝ)) ^ 4 ≤ 0.157263 ^ 4 := pow_le_pow_left₀ hb (not_lt.1 hn) 4
    rw [e] at this
    norm_num at this h0
    linarith
  · by_contra hn
    have : 2.167309 ^ 4 ≤ (p ^ (0.25 : ℝ)) ^ 4 := pow_le_pow_left₀ (by norm_num) (not_lt.1 hn) 4
    rw [e] at this
    norm_num at this h1
    linarith

theorem psat_tsat {p : ℝ} (h0 : 0.000611657 < p) (h1 : p < 22.06395) : psat (tsat p) = p := by
  obtain ⟨b0, b1⟩ := quarter_range h0 h1
  have hp : 0 ≤ p := by linarith
  rw [psat, tsat_eq, theta_tempOf, betaOf_unique (β := p ^ (0.25 : ℝ)) (by linarith [thetaOf_gt b0 b1])
    (by linarith [thetaOf_lt b0 b1]) (by linarith) (by linarith) (thetaOf_eq b0 b1), quarter_pow hp]

theorem tsat_range {p : ℝ} (h0 : 0.000611657 < p) (h1 : p < 22.06395) : 273.1 < tsat p ∧ tsat p < 647.096 := by
  obtain ⟨b0, b1⟩ := quarter_range h0 h1
  have g0 := thetaOf_gt b0 b1
  have g1 := thetaOf_lt b0 b1
  have e := theta_tempOf (thetaOf (p ^ (0.25 : ℝ)))
  rw [tsat_eq]
  generalize thetaOf (p ^ (0.25 : ℝ)) = θ at e g0 g1
  have hl := tempOf_lt θ
  constructor
  · by_contra hn
    have hn := not_lt.1 hn
    have : theta (tempOf θ) ≤ theta 273.1 := by
      rcases hn.eq_or_lt with h | h
      · rw [h]
      · exact (theta_mono h (by norm_num [n10])).le
    have h2 : theta 273.1 < 273.12 := by norm_num [theta, n9, n10]
    linarith
  · by_contra hn
    have hn := not_lt.1 hn
    have : theta 647.096 ≤ theta (tempOf θ) := by
      rcases hn.eq_or_lt with h | h
      · rw [h]
      · exact (theta_mono h hl).le
    have h2 : 647.1734 < theta 647.096 := by norm_num [theta, n9, n10]
    linarith

theorem psat_mono {T T' : ℝ} (h0 : 165 ≤ T) (h : T < T') (h1 : T' ≤ 647.1) : psat T < psat T' := by
  have hn : T' < n10 := by norm_num [n10]; norm_num at h1; linarith
  have hn0 : T < n10 := by linarith
  have g0 := theta_gt hn0
  have := betaOf_mono (by linarith) (theta_mono h hn) (theta_le h1)
  have hb := betaOf_pos (θ := theta T) (by linarith) (theta_le (by linarith))
  exact pow_lt_pow_left₀ this hb.le (by norm_num)

theorem tsat_psat {T : ℝ} (h0 : 273.1 < T) (h1 : T < 647.096) (hp0 : 0.000611657 < psat T)
    (hp1 : psat T < 22.06395) : tsat (psat T) = T := by
  have hr := tsat_range hp0 hp1
  have e := psat_tsat hp0 hp1
  by_contra hne
  rcases lt_or_gt_of_ne hne with h' | h'
  · have := psat_mono (by linarith [hr.1]) h' (by linarith)
    rw [e] at this; exact lt_irrefl _ this
  · have := psat_mono (by linarith) h' (by linarith)
    rw [e] at this; exact lt_irrefl _ this

theorem tsat_mono {p p' : ℝ} (h0 : 0.000611657 < p) (h : p < p') (h1 : p' < 22.06395) : tsat p < tsat p' := by
  have hr := tsat_range h0 (h.trans h1)
  have hr' := tsat_range (h0.trans h) h1
  by_contra hn
  rcases (not_lt.1 hn).eq_or_lt with h' | h'
  · have := congrArg psat h'
    rw [psat_tsat h0 (h.trans h1), psat_tsat (h0.trans h) h1] at this
    linarith
  · have := psat_mono (by linarith [hr'.1]) h' (by linarith [hr.2])
    rw [psat_tsat h0 (h.trans h1), psat_tsat (h0.trans h) h1] at this
    linarith

end PyX
