import Verif.Spec.Binary

/-!
# Arithmetic with a small relative error
-/

namespace PyX

open Classical

/-- rounding and integer powers have a relative error of at most 10⁻⁶, or an absolute one of at most 10⁻²⁰⁰; `pow` gives
floats, and with a number its negative is a float. binary64 has a relative error of 2⁻⁵³ -/
structure FP.Rough (F : FP) : Prop where
  rel : ∀ x y, F.rnd x = .fin y → |y - x| ≤ 1e-6 * |x| + 1e-200
  pow_rel : ∀ (a : ℝ) (n : ℤ) (y : ℝ), F.powr a n = .fin y → |y - a ^ n| ≤ 1e-6 * |a ^ n| + 1e-200
  pow_float : ∀ a b y, F.powr a b = .fin y → F.rnd y = .fin y
  pow_not_nan : ∀ a b, F.powr a b ≠ .nan
  neg_float : ∀ y, F.rnd y = .fin y → F.rnd (-y) = .fin (-y)

namespace Binary64

/-- the nearest float to a number between the floats is close to it -/
theorem nearest_rough {x : ℝ} (hM : |x| ≤ maxFloat) : |nearest x - x| ≤ 1e-6 * |x| + 1e-200 := by
  have tiny : (2 : ℝ) ^ (-1074 : ℤ) ≤ 1e-200 := by
    calc (2 : ℝ) ^ (-1074 : ℤ) ≤ (2 : ℝ) ^ (-1000 : ℤ) := zpow_le_zpow_right₀ (by norm_num) (by norm_num)
      _ ≤ 1e-200 := by
        set_option exponentiation.threshold 1100 in norm_num
  -- a float at the bottom of a grid cell around x
  have cell : ∀ e : ℤ, -1074 ≤ e → e ≤ 971 → |x| < 2 ^ 53 * (2 : ℝ) ^ e → |nearest x - x| ≤ (2 : ℝ) ^ e := by
    intro e h1 h2 h3
    have hpos := two_pos e
    set m : ℤ := ⌊|x| / (2 : ℝ) ^ e⌋ with hm
    have m0 : 0 ≤ m := Int.floor_nonneg.2 (div_nonneg (abs_nonneg _) hpos.le)
    have m1 : (m : ℝ) ≤ |x| / (2 : ℝ) ^ e := Int.floor_le _
    have m2 : |x| / (2 : ℝ) ^ e < m + 1 := Int.lt_floor_add_one _
    have m3 : |m| < 2 ^ 53 := by
      rw [abs_of_nonneg m0]
      have : (m : ℝ) < 2 ^ 53 := m1.trans_lt ((div_lt_iff₀ hpos).2 h3)
      exact_mod_cast this
    have hmem : (m : ℝ) * (2 : ℝ) ^ e ∈ floats := ⟨m, e, m3, h1, h2, rfl⟩
    rw [le_div_iff₀ hpos] at m1
    rw [div_lt_iff₀ hpos] at m2
    rcases le_total 0 x with h | h
    · rw [abs_of_nonneg h] at m1 m2
      refine (nearest_dist hM hmem).trans ?_
      rw [abs_le]
      constructor <;> linarith
    · rw [abs_of_nonpos h] at m1 m2
      refine (nearest_dist hM (neg_mem hmem)).trans ?_
      rw [abs_le]
      constructor <;> linarith
  rcases lt_or_ge |x| ((2 : ℝ) ^ (-1022 : ℤ)) with h1 | h1
  · refine (cell (-1074) le_rfl (by norm_num) (h1.trans_le ?_)).trans (by linarith [abs_nonneg x])
    calc (2 : ℝ) ^ (-1022 : ℤ) ≤ (2 : ℝ) ^ (-1021 : ℤ) := zpow_le_zpow_right₀ (by norm_num) (by norm_num)
      _ = 2 ^ 53 * (2 : ℝ) ^ (-1074 : ℤ) := by
        rw [show (2 : ℝ) ^ 53 = (2 : ℝ) ^ (53 : ℤ) by norm_cast, ← zpow_add₀ (by norm_num)]
        norm_num
  · have hx0 : 0 < |x| := (two_pos _).trans_le h1
    set k := Int.log 2 |x| with hk
    have k1 : (2 : ℝ) ^ k ≤ |x| := by
      have := Int.zpow_log_le_self (b := 2) (by norm_num) hx0
      exact_mod_cast this
    have k2 : |x| < (2 : ℝ) ^ (k + 1) := by
      have := Int.lt_zpow_succ_log_self (b := 2) (by norm_num) |x|
      exact_mod_cast this
    have k3 : -1022 < k + 1 := (zpow_lt_zpow_iff_right₀ (by norm_num)).1 (h1.trans_lt k2)
    have k4 : k < 1024 := by
      have : (2 : ℝ) ^ k < (2 : ℝ) ^ (1024 : ℤ) := by
        refine (k1.trans hM).trans_lt ?_
        rw [show (1024 : ℤ) = 53 + 971 by norm_num, zpow_add₀ (by norm_num), maxFloat]
        refine mul_lt_mul_of_pos_right ?_ (two_pos _)
        norm_cast
      exact (zpow_lt_zpow_iff_right₀ (by norm_num)).1 this
    have c := cell (k - 52) (by omega) (by omega) (by
      rw [show (2 : ℝ) ^ 53 = (2 : ℝ) ^ (53 : ℤ) by norm_cast, ← zpow_add₀ (by norm_num), show 53 + (k - 52) = k + 1 by ring]
      exact k2)
    have : (2 : ℝ) ^ (k - 52) ≤ 1e-6 * |x| := by
      rw [show k - 52 = k + (-52) by ring, zpow_add₀ (by norm_num)]
      have : (2 : ℝ) ^ (-52 : ℤ) ≤ 1e-6 := by norm_num
      have := mul_le_mul k1 this (two_pos _).le hx0.le
      linarith
    have : (0 : ℝ) ≤ 1e-200 := by norm_num
    linarith

theorem rnd_rough {x y : ℝ} (h : rnd x = .fin y) : |y - x| ≤ 1e-6 * |x| + 1e-200 := by
  unfold rnd at h
  split_ifs at h with hl
  cases h
  rcases le_or_gt |x| maxFloat with h | h
  · rw [clamp_self h]
    exact nearest_rough h
  · have M0 := max_pos
    have t0 := two_pos 970
    have e1 : (2 : ℝ) ^ (971 : ℤ) = 2 * (2 : ℝ) ^ (970 : ℤ) := by
      rw [show (971 : ℤ) = 1 + 970 by norm_num, zpow_add₀ (by norm_num), zpow_one]
    have d : limit - maxFloat ≤ 1e-6 * maxFloat := by
      rw [limit, maxFloat, e1]
      generalize (2 : ℝ) ^ (970 : ℤ) = t at t0
      norm_num
      linarith
    have z : (0 : ℝ) ≤ 1e-200 := by norm_num
    rcases le_total 0 x with h0 | h0
    · rw [abs_of_nonneg h0] at h hl ⊢
      have : clamp x = maxFloat := by rw [clamp, min_eq_left h.le, max_eq_right (by linarith)]
      rw [this, nearest_self max_mem, abs_of_neg (by linarith)]
      linarith
    · rw [abs_of_nonpos h0] at h hl ⊢
      have : clamp x = -maxFloat := by rw [clamp, min_eq_right (by linarith), max_eq_left (by linarith)]
      rw [this, nearest_self (neg_mem max_mem), abs_of_pos (by linarith)]
      linarith

/-- binary64 is such an arithmetic -/
theorem rough : FP.binary64.Rough where
  rel _ _ h := rnd_rough h
  pow_rel a n y h := by
    have : rnd (a ^ (n : ℝ)) = .fin y := h
    rw [Real.rpow_intCast] at this
    exact rnd_rough this
  pow_float _ _ _ h := rnd_float (rnd_mem h)
  pow_not_nan _ _ := not_nan _
  neg_float _ h := rnd_float (neg_mem (rnd_mem h))

end Binary64

end PyX
