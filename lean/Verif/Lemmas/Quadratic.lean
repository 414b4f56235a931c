import Mathlib.Analysis.SpecialFunctions.Pow.Real
import Mathlib.Tactic.Linarith
import Mathlib.Tactic.FieldSimp
import Mathlib.Tactic.Ring

/-!
# The smallest positive root of a quadratic, in the form `2c / (-b + √(b² - 4ac))`
-/

namespace PyX

variable {a b c M : ℝ}

/-- the discriminant is positive if the quadratic changes sign -/
theorem disc_pos (hc : 0 < c) (h : a * M ^ 2 + b * M + c < 0) : 0 < b ^ 2 - 4 * a * c := by
  rcases le_or_gt a 0 with ha | ha
  · rcases eq_or_ne b 0 with rfl | hb
    · rcases ha.eq_or_lt with rfl | ha
      · exfalso; linarith
      · nlinarith [mul_pos_of_neg_of_neg ha (neg_neg_of_pos hc)]
    · have : 0 < b ^ 2 := by positivity
      nlinarith [mul_nonneg (neg_nonneg.2 ha) hc.le]
  · -- complete the square
    have : 4 * a * (a * M ^ 2 + b * M + c) = (2 * a * M + b) ^ 2 - (b ^ 2 - 4 * a * c) := by ring
    nlinarith [mul_pos ha (neg_pos.2 h), sq_nonneg (2 * a * M + b)]

theorem denom_pos (hc : 0 < c) (hM : 0 < M) (h : a * M ^ 2 + b * M + c < 0) :
    0 < -b + Real.sqrt (b ^ 2 - 4 * a * c) := by
  rcases lt_or_ge b 0 with hb | hb
  · have := Real.sqrt_nonneg (b ^ 2 - 4 * a * c)
    linarith
  · have ha : a < 0 := by
      by_contra ha
      have : 0 ≤ a * M ^ 2 := mul_nonneg (not_lt.1 ha) (by positivity)
      have : 0 ≤ b * M := by positivity
      linarith
    have : b < Real.sqrt (b ^ 2 - 4 * a * c) := by
      rw [Real.lt_sqrt hb]
      nlinarith [mul_pos_of_neg_of_neg ha (neg_neg_of_pos hc)]
    linarith

theorem root_eq (hc : 0 < c) (hM : 0 < M) (h : a * M ^ 2 + b * M + c < 0) :
    a * (2 * c / (-b + Real.sqrt (b ^ 2 - 4 * a * c))) ^ 2 + b * (2 * c / (-b + Real.sqrt (b ^ 2 - 4 * a * c)))
      + c = 0 := by
  have hd := denom_pos hc hM h
  have hs := Real.sq_sqrt (disc_pos hc h).le
  generalize Real.sqrt (b ^ 2 - 4 * a * c) = s at hd hs
  have hd' := hd.ne'
  field_simp
  linear_combination c * hs

/-- there is only one root between 0 and a point where the quadratic is negative -/
theorem root_unique (hc : 0 < c) (h : a * M ^ 2 + b * M + c < 0) {x y : ℝ} (hx0 : 0 ≤ x)
    (hxM : x ≤ M) (hy0 : 0 ≤ y) (hyM : y ≤ M) (hx : a * x ^ 2 + b * x + c = 0)
    (hy : a * y ^ 2 + b * y + c = 0) : x = y := by
  by_contra hne
  have h1 : a * (x + y) + b = 0 := by
    have : (x - y) * (a * (x + y) + b) = 0 := by linear_combination hx - hy
    exact (mul_eq_zero.1 this).resolve_left (sub_ne_zero.2 hne)
  have hb : b = -a * (x + y) := by linear_combination h1
  have hcx : c = a * x * y := by rw [hb] at hx; linear_combination hx
  have hxy : 0 ≤ x * y := mul_nonneg hx0 hy0
  have ha : 0 < a := by
    by_contra ha
    nlinarith [mul_nonneg (neg_nonneg.2 (not_lt.1 ha)) hxy]
  rw [hb, hcx] at h
  nlinarith [mul_nonneg ha.le (mul_nonneg (sub_nonneg.2 hxM) (sub_nonneg.2 hyM))]

theorem root_pos (hc : 0 < c) (hM : 0 < M) (h : a * M ^ 2 + b * M + c < 0) :
    0 < 2 * c / (-b + Real.sqrt (b ^ 2 - 4 * a * c)) := div_pos (by linarith) (denom_pos hc hM h)

theorem root_lt (hc : 0 < c) (hM : 0 < M) (h : a * M ^ 2 + b * M + c < 0) :
    2 * c / (-b + Real.sqrt (b ^ 2 - 4 * a * c)) < M := by
  have hd := denom_pos hc hM h
  have hD := (disc_pos hc h).le
  rw [div_lt_iff₀ hd]
  have hs := Real.sq_sqrt hD
  have hs0 := Real.sqrt_nonneg (b ^ 2 - 4 * a * c)
  generalize Real.sqrt (b ^ 2 - 4 * a * c) = s at hd hs hs0
  -- M s > 2c + bM
  rcases lt_or_ge (2 * c + b * M) 0 with hn | hn
  · nlinarith
  · have : (2 * c + b * M) ^ 2 < (M * s) ^ 2 := by
      rw [mul_pow, hs]
      nlinarith [mul_pos hc (neg_pos.2 h)]
    have := abs_lt_of_sq_lt_sq this (by positivity)
    linarith [(abs_lt.1 (abs_lt_of_sq_lt_sq ‹(2 * c + b * M) ^ 2 < (M * s) ^ 2› (by positivity))).2]

/-- the root lies above every point before `M` where the quadratic is positive -/
theorem lt_root (hc : 0 < c) (h : a * M ^ 2 + b * M + c < 0) {x m : ℝ} (hm0 : 0 < m) (hmM : m < M)
    (hm : 0 < a * m ^ 2 + b * m + c) (hx0 : 0 < x) (hx : a * x ^ 2 + b * x + c = 0) : m < x := by
  by_contra hle
  have hle := not_lt.1 hle
  have e : ∀ t, a * t ^ 2 + b * t + c = (t - x) * (a * t + (a * x + b)) := fun t => by linear_combination hx
  rw [e] at hm h
  have h0 : a * x + b < 0 := by
    have : x * (a * x + b) = -c := by linear_combination hx
    by_contra hn
    nlinarith [mul_nonneg hx0.le (not_lt.1 hn)]
  have h1 : 0 < a * m + (a * x + b) := by
    by_contra hn
    nlinarith [mul_nonneg (sub_nonneg.2 hle) (neg_nonneg.2 (not_lt.1 hn))]
  have h2 : a * M + (a * x + b) < 0 := by
    by_contra hn
    nlinarith [mul_nonneg (sub_nonneg.2 (hle.trans hmM.le)) (not_lt.1 hn)]
  have ha : 0 < a := by
    by_contra hn
    nlinarith [mul_nonneg hm0.le (neg_nonneg.2 (not_lt.1 hn))]
  nlinarith [mul_pos ha (sub_pos.2 hmM)]

end PyX
