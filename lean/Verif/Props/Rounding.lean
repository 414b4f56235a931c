import Verif.Spec.Binary
import Verif.Spec.Units

/-!
# Rounding error of unit conversions (C43)

`FP.Round ε` is the usual model of floating point rounding: a relative error of at most `ε` for numbers of
ordinary size.  Converting to SI and back (or the other way round) then changes a multiplicative quantity by a
relative error of at most `2ε + ε²`, whether the conversion factor is a float or not, because the same rounded
factor is used in both directions.  Temperatures have an absolute error.
-/

namespace PyX

/-- rounding with relative error `ε` in the normal range, and absolute error at most `1e-250` below it -/
structure FP.Round (F : FP) (ε : ℝ) : Prop where
  pos : 0 ≤ ε
  small : ε ≤ 1 / 2
  int_exact : ∀ n : ℤ, |n| ≤ 2 ^ 53 → F.rnd n = .fin n
  rel : ∀ x : ℝ, 1e-250 ≤ |x| → |x| ≤ 1e250 → ∃ y, F.rnd x = .fin y ∧ |y - x| ≤ ε * |x|
  tiny : ∀ x : ℝ, |x| ≤ 1e-250 → ∃ y, F.rnd x = .fin y ∧ |y - x| ≤ 1e-250

theorem FP.Round.ideal {ε : ℝ} (h0 : 0 ≤ ε) (h1 : ε ≤ 1 / 2) : FP.ideal.Round ε where
  pos := h0
  small := h1
  int_exact _ _ := rfl
  rel x _ _ := ⟨x, rfl, by simpa using mul_nonneg h0 (abs_nonneg x)⟩
  tiny x _ := ⟨x, rfl, by simp; norm_num⟩

set_option exponentiation.threshold 1100 in
/-- binary64 rounds with relative error 2⁻⁵³ -/
theorem Binary64.round : FP.binary64.Round (2 ^ (-53 : ℤ)) where
  pos := by positivity
  small := by norm_num
  int_exact := Binary64.grid.int_exact
  rel x h1 h2 := by
    have l1 : (2 : ℝ) ^ (-1022 : ℤ) ≤ |x| := by
      refine le_trans ?_ h1
      norm_num
    have l2 : |x| ≤ (2 : ℝ) ^ (1000 : ℤ) := by
      refine h2.trans ?_
      norm_num
    refine ⟨Binary64.nearest x, Binary64.rnd_fin (l2.trans ?_), Binary64.nearest_rel l1 l2⟩
    norm_num [Binary64.maxFloat]
  tiny x h := by
    have hM : |x| ≤ Binary64.maxFloat := h.trans (by norm_num [Binary64.maxFloat])
    refine ⟨Binary64.nearest x, Binary64.rnd_fin hM, ?_⟩
    refine (Binary64.nearest_dist hM (y := 0) ?_).trans (by simpa using h)
    exact ⟨0, 0, by norm_num, by norm_num, by norm_num, by simp⟩

variable {F : FP} {ε : ℝ}

/-- the absolute form of the rounding error -/
theorem FP.Round.abs (hF : F.Round ε) {x M : ℝ} (hx : |x| ≤ M) (hM : M ≤ 1e250) :
    ∃ y, F.rnd x = .fin y ∧ |y - x| ≤ ε * M + 1e-250 := by
  have := mul_le_mul_of_nonneg_left hx hF.pos
  have h0 := mul_nonneg hF.pos (abs_nonneg x)
  rcases le_total (1e-250) |x| with h | h
  · obtain ⟨y, e, d⟩ := hF.rel x h (hx.trans hM)
    exact ⟨y, e, by norm_num at d ⊢; linarith⟩
  · obtain ⟨y, e, d⟩ := hF.tiny x h
    exact ⟨y, e, by norm_num at d ⊢; linarith⟩

/-- a number of moderate size, or zero -/
def Moderate (x : ℝ) : Prop := x = 0 ∨ 1e-100 ≤ |x| ∧ |x| ≤ 1e100

/-- a rounded literal of moderate size -/
theorem FP.Round.lit (hF : F.Round ε) {q : ℚ} (h1 : 1e-20 ≤ |(q : ℝ)|) (h2 : |(q : ℝ)| ≤ 1e20) :
    ∃ L : ℝ, F.lit q = .fin L ∧ 1e-30 ≤ |L| ∧ |L| ≤ 1e30 := by
  obtain ⟨y, e, d⟩ := hF.rel q (le_trans (by norm_num) h1) (h2.trans (by norm_num))
  have := mul_le_mul_of_nonneg_right hF.small (abs_nonneg (q : ℝ))
  have a1 := abs_sub_abs_le_abs_sub (q : ℝ) y
  have a2 := abs_sub_abs_le_abs_sub y (q : ℝ)
  rw [abs_sub_comm] at a1
  refine ⟨y, e, ?_, ?_⟩
  · norm_num at h1 ⊢; linarith
  · norm_num at h2 ⊢; linarith

/-- multiplying and dividing by the same number -/
theorem FP.Round.mul_div (hF : F.Round ε) {x L : ℝ} (hx : Moderate x) (h1 : 1e-30 ≤ |L|) (h2 : |L| ≤ 1e30) :
    ∃ y, F.rnd (x * L) = .fin y ∧ ∃ z, F.rnd (y / L) = .fin z ∧ |z - x| ≤ (2 * ε + ε ^ 2) * |x| := by
  have z0 : F.rnd 0 = .fin 0 := by have := hF.int_exact 0 (by norm_num); simpa using this
  rcases hx with rfl | ⟨x1, x2⟩
  · exact ⟨0, by simpa using z0, 0, by simpa using z0, by simp⟩
  have hL : 0 < |L| := lt_of_lt_of_le (by norm_num) h1
  have hL0 : L ≠ 0 := abs_pos.1 hL
  have b1 : (1e-130 : ℝ) ≤ |x * L| := by
    rw [abs_mul]
    calc (1e-130 : ℝ) = 1e-100 * 1e-30 := by norm_num
      _ ≤ _ := mul_le_mul x1 h1 (by norm_num) (abs_nonneg _)
  have b2 : |x * L| ≤ 1e130 := by
    rw [abs_mul]
    calc _ ≤ (1e100 : ℝ) * 1e30 := mul_le_mul x2 h2 (abs_nonneg _) (by norm_num)
      _ = 1e130 := by norm_num
  obtain ⟨y, ey, dy⟩ := hF.rel (x * L) (le_trans (by norm_num) b1) (b2.trans (by norm_num))
  have hd : |y / L - x| ≤ ε * |x| := by
    have : y / L - x = (y - x * L) / L := by field_simp
    rw [this, abs_div, div_le_iff₀ hL]
    rw [abs_mul] at dy; linarith
  have hs := mul_le_mul_of_nonneg_right hF.small (abs_nonneg x)
  have c1 := abs_sub_abs_le_abs_sub x (y / L)
  have c2 := abs_sub_abs_le_abs_sub (y / L) x
  rw [abs_sub_comm] at c1
  obtain ⟨z, ez, dz⟩ := hF.rel (y / L) (by norm_num at x1 ⊢; linarith) (by norm_num at x2 ⊢; linarith)
  refine ⟨y, ey, z, ez, ?_⟩
  have hz : ε * |y / L| ≤ ε * ((1 + ε) * |x|) := mul_le_mul_of_nonneg_left (by linarith) hF.pos
  calc |z - x| = |(z - y / L) + (y / L - x)| := by ring_nf
    _ ≤ |z - y / L| + |y / L - x| := abs_add_le _ _
    _ ≤ ε * ((1 + ε) * |x|) + ε * |x| := by linarith
    _ = _ := by ring

/-- dividing and multiplying by the same number -/
theorem FP.Round.div_mul (hF : F.Round ε) {x L : ℝ} (hx : Moderate x) (h1 : 1e-30 ≤ |L|) (h2 : |L| ≤ 1e30) :
    ∃ y, F.rnd (x / L) = .fin y ∧ ∃ z, F.rnd (y * L) = .fin z ∧ |z - x| ≤ (2 * ε + ε ^ 2) * |x| := by
  have hL : 0 < |L| := lt_of_lt_of_le (by norm_num) h1
  obtain ⟨y, ey, z, ez, d⟩ := hF.mul_div (L := L⁻¹) hx
    (by rw [abs_inv, le_inv_comm₀ (by norm_num) hL]; norm_num at h2 ⊢; linarith)
    (by rw [abs_inv, inv_le_comm₀ hL (by norm_num)]; norm_num at h1 ⊢; linarith)
  exact ⟨y, ey, z, by rw [div_inv_eq_mul] at ez; exact ez, d⟩


/-- a product and the quotient that undoes it -/
theorem FP.Round.mul_then (hF : F.Round ε) {x : ℝ} (hx : Moderate x) {L : ℝ} (hL : 1e-30 ≤ |L| ∧ |L| ≤ 1e30) :
    ∃ y z : ℝ, F.mul (.fin x) (.fin L) = .fin y ∧ F.div (.fin y) (.fin L) = pure (.fin z) ∧
      |z - x| ≤ (2 * ε + ε ^ 2) * |x| := by
  obtain ⟨y, ey, z, ez, d⟩ := hF.mul_div hx hL.1 hL.2
  have hL0 : L ≠ 0 := abs_pos.1 (lt_of_lt_of_le (by norm_num) hL.1)
  exact ⟨y, z, ey, by simp [FP.div, hL0, ez], d⟩

/-- a quotient and the product that undoes it -/
theorem FP.Round.div_then (hF : F.Round ε) {x : ℝ} (hx : Moderate x) {L : ℝ} (hL : 1e-30 ≤ |L| ∧ |L| ≤ 1e30) :
    ∃ y z : ℝ, F.div (.fin x) (.fin L) = pure (.fin y) ∧ F.mul (.fin y) (.fin L) = .fin z ∧
      |z - x| ≤ (2 * ε + ε ^ 2) * |x| := by
  obtain ⟨y, ey, z, ez, d⟩ := hF.div_mul hx hL.1 hL.2
  have hL0 : L ≠ 0 := abs_pos.1 (lt_of_lt_of_le (by norm_num) hL.1)
  exact ⟨y, z, by simp [FP.div, hL0, ey], ez, d⟩

theorem FP.mul_comm_fin (a b : ℝ) : F.mul (.fin a) (.fin b) = F.mul (.fin b) (.fin a) := by
  simp only [FP.mul, mul_comm]

/-- C43: to SI and back -/
theorem C43_to_from (hF : F.Round ε) (u : UnitSystem) (q : Quantity) (hq : q ≠ .T) (x : ℝ) (hx : Moderate x) :
    ∃ y z : ℝ, q.toSI F u (.fin x) = pure (.fin y) ∧ q.fromSI F u (.fin y) = pure (.fin z) ∧
      |z - x| ≤ (2 * ε + ε ^ 2) * |x| := by
  have hid : |x - x| ≤ (2 * ε + ε ^ 2) * |x| := by
    have := hF.pos
    simp; positivity
  cases u
  · cases q
    · exact ⟨x, x, by simp [Quantity.toSI, UnitConverter.toSIunit_p], by simp [Quantity.fromSI, UnitConverter.fromSIunit_p], hid⟩
    · exact absurd rfl hq
    · exact ⟨x, x, by simp [Quantity.toSI, UnitConverter.toSIunit_h], by simp [Quantity.fromSI, UnitConverter.fromSIunit_h], hid⟩
    · exact ⟨x, x, by simp [Quantity.toSI, UnitConverter.toSIunit_v], by simp [Quantity.fromSI, UnitConverter.fromSIunit_v], hid⟩
    · exact ⟨x, x, by simp [Quantity.toSI, UnitConverter.toSIunit_s], by simp [Quantity.fromSI, UnitConverter.fromSIunit_s], hid⟩
    · exact ⟨x, x, by simp [Quantity.toSI, UnitConverter.toSIunit_u], by simp [Quantity.fromSI, UnitConverter.fromSIunit_u], hid⟩
    · exact ⟨x, x, by simp [Quantity.toSI, UnitConverter.toSIunit_Cp], by simp [Quantity.fromSI, UnitConverter.fromSIunit_Cp], hid⟩
    · exact ⟨x, x, by simp [Quantity.toSI, UnitConverter.toSIunit_Cv], by simp [Quantity.fromSI, UnitConverter.fromSIunit_Cv], hid⟩
    · exact ⟨x, x, by simp [Quantity.toSI, UnitConverter.toSIunit_w], by simp [Quantity.fromSI, UnitConverter.fromSIunit_w], hid⟩
    · exact ⟨x, x, by simp [Quantity.toSI, UnitConverter.toSIunit_tc], by simp [Quantity.fromSI, UnitConverter.fromSIunit_tc], hid⟩
    · exact ⟨x, x, by simp [Quantity.toSI, UnitConverter.toSIunit_st], by simp [Quantity.fromSI, UnitConverter.fromSIunit_st], hid⟩
    · exact ⟨x, x, by simp [Quantity.toSI, UnitConverter.toSIunit_my], by simp [Quantity.fromSI, UnitConverter.fromSIunit_my], hid⟩
  · cases q
    · obtain ⟨y, z, e1, e2, d⟩ := hF.div_then hx (L := 10) (by norm_num)
      exact ⟨y, z, by simp [Quantity.toSI, UnitConverter.toSIunit_p, Num.ofInt, e1], by simp [Quantity.fromSI, UnitConverter.fromSIunit_p, Num.ofInt, e2], d⟩
    · exact absurd rfl hq
    · exact ⟨x, x, by simp [Quantity.toSI, UnitConverter.toSIunit_h], by simp [Quantity.fromSI, UnitConverter.fromSIunit_h], hid⟩
    · exact ⟨x, x, by simp [Quantity.toSI, UnitConverter.toSIunit_v], by simp [Quantity.fromSI, UnitConverter.fromSIunit_v], hid⟩
    · exact ⟨x, x, by simp [Quantity.toSI, UnitConverter.toSIunit_s], by simp [Quantity.fromSI, UnitConverter.fromSIunit_s], hid⟩
    · exact ⟨x, x, by simp [Quantity.toSI, UnitConverter.toSIunit_u], by simp [Quantity.fromSI, UnitConverter.fromSIunit_u], hid⟩
    · exact ⟨x, x, by simp [Quantity.toSI, UnitConverter.toSIunit_Cp], by simp [Quantity.fromSI, UnitConverter.fromSIunit_Cp], hid⟩
    · exact ⟨x, x, by simp [Quantity.toSI, UnitConverter.toSIunit_Cv], by simp [Quantity.fromSI, UnitConverter.fromSIunit_Cv], hid⟩
    · exact ⟨x, x, by simp [Quantity.toSI, UnitConverter.toSIunit_w], by simp [Quantity.fromSI, UnitConverter.fromSIunit_w], hid⟩
    · exact ⟨x, x, by simp [Quantity.toSI, UnitConverter.toSIunit_tc], by simp [Quantity.fromSI, UnitConverter.fromSIunit_tc], hid⟩
    · exact ⟨x, x, by simp [Quantity.toSI, UnitConverter.toSIunit_st], by simp [Quantity.fromSI, UnitConverter.fromSIunit_st], hid⟩
    · exact ⟨x, x, by simp [Quantity.toSI, UnitConverter.toSIunit_my], by simp [Quantity.fromSI, UnitConverter.fromSIunit_my], hid⟩
  · cases q
    · obtain ⟨L, eL, b⟩ := hF.lit (q := 0.00689475729) (by norm_num) (by norm_num)
      obtain ⟨y, z, e1, e2, d⟩ := hF.mul_then hx b
      exact ⟨y, z, by simp [Quantity.toSI, UnitConverter.toSIunit_p, eL, e1], by simp [Quantity.fromSI, UnitConverter.fromSIunit_p, eL, e2], d⟩
    · exact absurd rfl hq
    · obtain ⟨L, eL, b⟩ := hF.lit (q := 2.32600) (by norm_num) (by norm_num)
      obtain ⟨y, z, e1, e2, d⟩ := hF.mul_then hx b
      exact ⟨y, z, by simp [Quantity.toSI, UnitConverter.toSIunit_h, eL, e1, FP.mul_comm_fin L], by simp [Quantity.fromSI, UnitConverter.fromSIunit_h, eL, e2], d⟩
    · obtain ⟨L, eL, b⟩ := hF.lit (q := 0.0624279606) (by norm_num) (by norm_num)
      obtain ⟨y, z, e1, e2, d⟩ := hF.mul_then hx b
      exact ⟨y, z, by simp [Quantity.toSI, UnitConverter.toSIunit_v, eL, e1], by simp [Quantity.fromSI, UnitConverter.fromSIunit_v, eL, e2], d⟩
    · obtain ⟨L, eL, b⟩ := hF.lit (q := 0.238845896627) (by norm_num) (by norm_num)
      obtain ⟨y, z, e1, e2, d⟩ := hF.div_then hx b
      exact ⟨y, z, by simp [Quantity.toSI, UnitConverter.toSIunit_s, eL, e1], by simp [Quantity.fromSI, UnitConverter.fromSIunit_s, eL, e2], d⟩
    · obtain ⟨L, eL, b⟩ := hF.lit (q := 2.32600) (by norm_num) (by norm_num)
      obtain ⟨y, z, e1, e2, d⟩ := hF.mul_then hx b
      exact ⟨y, z, by simp [Quantity.toSI, UnitConverter.toSIunit_u, eL, e1], by simp [Quantity.fromSI, UnitConverter.fromSIunit_u, eL, e2], d⟩
    · obtain ⟨L, eL, b⟩ := hF.lit (q := 0.238846) (by norm_num) (by norm_num)
      obtain ⟨y, z, e1, e2, d⟩ := hF.div_then hx b
      exact ⟨y, z, by simp [Quantity.toSI, UnitConverter.toSIunit_Cp, eL, e1], by simp [Quantity.fromSI, UnitConverter.fromSIunit_Cp, eL, e2], d⟩
    · obtain ⟨L, eL, b⟩ := hF.lit (q := 0.238846) (by norm_num) (by norm_num)
      obtain ⟨y, z, e1, e2, d⟩ := hF.div_then hx b
      exact ⟨y, z, by simp [Quantity.toSI, UnitConverter.toSIunit_Cv, eL, e1], by simp [Quantity.fromSI, UnitConverter.fromSIunit_Cv, eL, e2], d⟩
    · obtain ⟨L, eL, b⟩ := hF.lit (q := 0.3048) (by norm_num) (by norm_num)
      obtain ⟨y, z, e1, e2, d⟩ := hF.mul_then hx b
      exact ⟨y, z, by simp [Quantity.toSI, UnitConverter.toSIunit_w, eL, e1], by simp [Quantity.fromSI, UnitConverter.fromSIunit_w, eL, e2], d⟩
    · obtain ⟨L, eL, b⟩ := hF.lit (q := 0.577789) (by norm_num) (by norm_num)
      obtain ⟨y, z, e1, e2, d⟩ := hF.div_then hx b
      exact ⟨y, z, by simp [Quantity.toSI, UnitConverter.toSIunit_tc, eL, e1], by simp [Quantity.fromSI, UnitConverter.fromSIunit_tc, eL, e2], d⟩
    · obtain ⟨L, eL, b⟩ := hF.lit (q := 0.068521766) (by norm_num) (by norm_num)
      obtain ⟨y, z, e1, e2, d⟩ := hF.div_then hx b
      exact ⟨y, z, by simp [Quantity.toSI, UnitConverter.toSIunit_st, eL, e1], by simp [Quantity.fromSI, UnitConverter.fromSIunit_st, eL, e2], d⟩
    · obtain ⟨L, eL, b⟩ := hF.lit (q := 2419.088311) (by norm_num) (by norm_num)
      obtain ⟨y, z, e1, e2, d⟩ := hF.div_then hx b
      exact ⟨y, z, by simp [Quantity.toSI, UnitConverter.toSIunit_my, eL, e1], by simp [Quantity.fromSI, UnitConverter.fromSIunit_my, eL, e2], d⟩

/-- C43: from SI and back -/
theorem C43_from_to (hF : F.Round ε) (u : UnitSystem) (q : Quantity) (hq : q ≠ .T) (x : ℝ) (hx : Moderate x) :
    ∃ y z : ℝ, q.fromSI F u (.fin x) = pure (.fin y) ∧ q.toSI F u (.fin y) = pure (.fin z) ∧
      |z - x| ≤ (2 * ε + ε ^ 2) * |x| := by
  have hid : |x - x| ≤ (2 * ε + ε ^ 2) * |x| := by
    have := hF.pos
    simp; positivity
  cases u
  · cases q
    · exact ⟨x, x, by simp [Quantity.fromSI, UnitConverter.fromSIunit_p], by simp [Quantity.toSI, UnitConverter.toSIunit_p], hid⟩
    · exact absurd rfl hq
    · exact ⟨x, x, by simp [Quantity.fromSI, UnitConverter.fromSIunit_h], by simp [Quantity.toSI, UnitConverter.toSIunit_h], hid⟩
    · exact ⟨x, x, by simp [Quantity.fromSI, UnitConverter.fromSIunit_v], by simp [Quantity.toSI, UnitConverter.toSIunit_v], hid⟩
    · exact ⟨x, x, by simp [Quantity.fromSI, UnitConverter.fromSIunit_s], by simp [Quantity.toSI, UnitConverter.toSIunit_s], hid⟩
    · exact ⟨x, x, by simp [Quantity.fromSI, UnitConverter.fromSIunit_u], by simp [Quantity.toSI, UnitConverter.toSIunit_u], hid⟩
    · exact ⟨x, x, by simp [Quantity.fromSI, UnitConverter.fromSIunit_Cp], by simp [Quantity.toSI, UnitConverter.toSIunit_Cp], hid⟩
    · exact ⟨x, x, by simp [Quantity.fromSI, UnitConverter.fromSIunit_Cv], by simp [Quantity.toSI, UnitConverter.toSIunit_Cv], hid⟩
    · exact ⟨x, x, by simp [Quantity.fromSI, UnitConverter.fromSIunit_w], by simp [Quantity.toSI, UnitConverter.toSIunit_w], hid⟩
    · exact ⟨x, x, by simp [Quantity.fromSI, UnitConverter.fromSIunit_tc], by simp [Quantity.toSI, UnitConverter.toSIunit_tc], hid⟩
    · exact ⟨x, x, by simp [Quantity.fromSI, UnitConverter.fromSIunit_st], by simp [Quantity.toSI, UnitConverter.toSIunit_st], hid⟩
    · exact ⟨x, x, by simp [Quantity.fromSI, UnitConverter.fromSIunit_my], by simp [Quantity.toSI, UnitConverter.toSIunit_my], hid⟩
  · cases q
    · obtain ⟨y, z, e1, e2, d⟩ := hF.mul_then hx (L := 10) (by norm_num)
      exact ⟨y, z, by simp [Quantity.fromSI, UnitConverter.fromSIunit_p, Num.ofInt, e1], by simp [Quantity.toSI, UnitConverter.toSIunit_p, Num.ofInt, e2], d⟩
    · exact absurd rfl hq
    · exact ⟨x, x, by simp [Quantity.fromSI, UnitConverter.fromSIunit_h], by simp [Quantity.toSI, UnitConverter.toSIunit_h], hid⟩
    · exact ⟨x, x, by simp [Quantity.fromSI, UnitConverter.fromSIunit_v], by simp [Quantity.toSI, UnitConverter.toSIunit_v], hid⟩
    · exact ⟨x, x, by simp [Quantity.fromSI, UnitConverter.fromSIunit_s], by simp [Quantity.toSI, UnitConverter.toSIunit_s], hid⟩
    · exact ⟨x, x, by simp [Quantity.fromSI, UnitConverter.fromSIunit_u], by simp [Quantity.toSI, UnitConverter.toSIunit_u], hid⟩
    · exact ⟨x, x, by simp [Quantity.fromSI, UnitConverter.fromSIunit_Cp], by simp [Quantity.toSI, UnitConverter.toSIunit_Cp], hid⟩
    · exact ⟨x, x, by simp [Quantity.fromSI, UnitConverter.fromSIunit_Cv], by simp [Quantity.toSI, UnitConverter.toSIunit_Cv], hid⟩
    · exact ⟨x, x, by simp [Quantity.fromSI, UnitConverter.fromSIunit_w], by simp [Quantity.toSI, UnitConverter.toSIunit_w], hid⟩
    · exact ⟨x, x, by simp [Quantity.fromSI, UnitConverter.fromSIunit_tc], by simp [Quantity.toSI, UnitConverter.toSIunit_tc], hid⟩
    · exact ⟨x, x, by simp [Quantity.fromSI, UnitConverter.fromSIunit_st], by simp [Quantity.toSI, UnitConverter.toSIunit_st], hid⟩
    · exact ⟨x, x, by simp [Quantity.fromSI, UnitConverter.fromSIunit_my], by simp [Quantity.toSI, UnitConverter.toSIunit_my], hid⟩
  · cases q
    · obtain ⟨L, eL, b⟩ := hF.lit (q := 0.00689475729) (by norm_num) (by norm_num)
      obtain ⟨y, z, e1, e2, d⟩ := hF.div_then hx b
      exact ⟨y, z, by simp [Quantity.fromSI, UnitConverter.fromSIunit_p, eL, e1], by simp [Quantity.toSI, UnitConverter.toSIunit_p, eL, e2], d⟩
    · exact absurd rfl hq
    · obtain ⟨L, eL, b⟩ := hF.lit (q := 2.32600) (by norm_num) (by norm_num)
      obtain ⟨y, z, e1, e2, d⟩ := hF.div_then hx b
      exact ⟨y, z, by simp [Quantity.fromSI, UnitConverter.fromSIunit_h, eL, e1], by simp [Quantity.toSI, UnitConverter.toSIunit_h, eL, e2, FP.mul_comm_fin L], d⟩
    · obtain ⟨L, eL, b⟩ := hF.lit (q := 0.0624279606) (by norm_num) (by norm_num)
      obtain ⟨y, z, e1, e2, d⟩ := hF.div_then hx b
      exact ⟨y, z, by simp [Quantity.fromSI, UnitConverter.fromSIunit_v, eL, e1], by simp [Quantity.toSI, UnitConverter.toSIunit_v, eL, e2], d⟩
    · obtain ⟨L, eL, b⟩ := hF.lit (q := 0.238845896627) (by norm_num) (by norm_num)
      obtain ⟨y, z, e1, e2, d⟩ := hF.mul_then hx b
      exact ⟨y, z, by simp [Quantity.fromSI, UnitConverter.fromSIunit_s, eL, e1], by simp [Quantity.toSI, UnitConverter.toSIunit_s, eL, e2], d⟩
    · obtain ⟨L, eL, b⟩ := hF.lit (q := 2.32600) (by norm_num) (by norm_num)
      obtain ⟨y, z, e1, e2, d⟩ := hF.div_then hx b
      exact ⟨y, z, by simp [Quantity.fromSI, UnitConverter.fromSIunit_u, eL, e1], by simp [Quantity.toSI, UnitConverter.toSIunit_u, eL, e2], d⟩
    · obtain ⟨L, eL, b⟩ := hF.lit (q := 0.238846) (by norm_num) (by norm_num)
      obtain ⟨y, z, e1, e2, d⟩ := hF.mul_then hx b
      exact ⟨y, z, by simp [Quantity.fromSI, UnitConverter.fromSIunit_Cp, eL, e1], by simp [Quantity.toSI, UnitConverter.toSIunit_Cp, eL, e2], d⟩
    · obtain ⟨L, eL, b⟩ := hF.lit (q := 0.238846) (by norm_num) (by norm_num)
      obtain ⟨y, z, e1, e2, d⟩ := hF.mul_then hx b
      exact ⟨y, z, by simp [Quantity.fromSI, UnitConverter.fromSIunit_Cv, eL, e1], by simp [Quantity.toSI, UnitConverter.toSIunit_Cv, eL, e2], d⟩
    · obtain ⟨L, eL, b⟩ := hF.lit (q := 0.3048) (by norm_num) (by norm_num)
      obtain ⟨y, z, e1, e2, d⟩ := hF.div_then hx b
      exact ⟨y, z, by simp [Quantity.fromSI, UnitConverter.fromSIunit_w, eL, e1], by simp [Quantity.toSI, UnitConverter.toSIunit_w, eL, e2], d⟩
    · obtain ⟨L, eL, b⟩ := hF.lit (q := 0.577789) (by norm_num) (by norm_num)
      obtain ⟨y, z, e1, e2, d⟩ := hF.mul_then hx b
      exact ⟨y, z, by simp [Quantity.fromSI, UnitConverter.fromSIunit_tc, eL, e1], by simp [Quantity.toSI, UnitConverter.toSIunit_tc, eL, e2], d⟩
    · obtain ⟨L, eL, b⟩ := hF.lit (q := 0.068521766) (by norm_num) (by norm_num)
      obtain ⟨y, z, e1, e2, d⟩ := hF.mul_then hx b
      exact ⟨y, z, by simp [Quantity.fromSI, UnitConverter.fromSIunit_st, eL, e1], by simp [Quantity.toSI, UnitConverter.toSIunit_st, eL, e2], d⟩
    · obtain ⟨L, eL, b⟩ := hF.lit (q := 2419.088311) (by norm_num) (by norm_num)
      obtain ⟨y, z, e1, e2, d⟩ := hF.mul_then hx b
      exact ⟨y, z, by simp [Quantity.fromSI, UnitConverter.fromSIunit_my, eL, e1], by simp [Quantity.toSI, UnitConverter.toSIunit_my, eL, e2], d⟩

/-- one rounding in terms of a common error unit `ε N + 1e-140` -/
theorem FP.Round.unit (hF : F.Round ε) {N k v : ℝ} (hN : 0 ≤ N) (hN' : N ≤ 1e90) (hk : 1 ≤ k) (hk' : k ≤ 100)
    (hv : |v| ≤ k * N) : ∃ y, F.rnd v = .fin y ∧ |y - v| ≤ k * (ε * N + 1e-140) := by
  have hb : k * N ≤ 1e250 := by
    calc k * N ≤ 100 * 1e90 := mul_le_mul hk' hN' hN (by norm_num)
      _ ≤ 1e250 := by norm_num
  obtain ⟨y, e, d⟩ := hF.abs hv hb
  refine ⟨y, e, d.trans ?_⟩
  have : (1e-250 : ℝ) ≤ 1e-140 := by norm_num
  nlinarith

/-- the rounded absolute zero -/
theorem FP.Round.zero_celsius (hF : F.Round ε) : ∃ L, F.lit Constants.ABSOLUTE_ZERO_CELSIUS = .fin L ∧ |L| ≤ 500 := by
  obtain ⟨y, e, d⟩ := hF.rel (Constants.ABSOLUTE_ZERO_CELSIUS : ℝ) (by norm_num [Constants.ABSOLUTE_ZERO_CELSIUS])
    (by norm_num [Constants.ABSOLUTE_ZERO_CELSIUS])
  refine ⟨y, e, ?_⟩
  have h1 : |((Constants.ABSOLUTE_ZERO_CELSIUS : ℚ) : ℝ)| = 273.15 := by
    rw [show ((Constants.ABSOLUTE_ZERO_CELSIUS : ℚ) : ℝ) = -273.15 by norm_num [Constants.ABSOLUTE_ZERO_CELSIUS], abs_neg]
    norm_num
  rw [h1] at d
  have h2 := mul_le_mul_of_nonneg_right hF.small (by norm_num : (0 : ℝ) ≤ 273.15)
  have a2 := abs_sub_abs_le_abs_sub y ((Constants.ABSOLUTE_ZERO_CELSIUS : ℚ) : ℝ)
  norm_num at h1 h2 d a2 ⊢; linarith

/-- C43: a temperature survives the round trip up to an absolute error proportional to its size -/
theorem C43_temperature (hF : F.Round ε) (hε : ε ≤ 1 / 1000) (u : UnitSystem) (x : ℝ) (hx : |x| ≤ 1e80) :
    ∃ y z : ℝ, Quantity.T.toSI F u (.fin x) = pure (.fin y) ∧ Quantity.T.fromSI F u (.fin y) = pure (.fin z) ∧
      |z - x| ≤ 30 * (ε * (|x| + 1000) + 1e-140) := by
  obtain ⟨L, eL, bL⟩ := hF.zero_celsius
  set N := |x| + 1000 with hN
  have hx0 := abs_nonneg x
  have N0 : 1000 ≤ N := by linarith
  have N1 : N ≤ 1e90 := by norm_num at hx ⊢; linarith
  set B := ε * N + 1e-140 with hB
  have B0 : 0 ≤ B := by have := hF.pos; positivity
  have B1 : B ≤ N / 100 := by
    have := mul_le_mul_of_nonneg_right hε (by linarith : 0 ≤ N)
    have h3 : (1e-140 : ℝ) ≤ 1 := by norm_num
    rw [hB]; linarith
  have hu := fun k v h1 h2 h3 => hF.unit (N := N) (k := k) (v := v) (by linarith) N1 h1 h2 h3
  rw [abs_le] at bL
  have hxN := abs_le.1 (show |x| ≤ N - 1000 by linarith)
  cases u
  · exact ⟨x, x, by simp [Quantity.toSI, UnitConverter.toSIunit_T], by simp [Quantity.fromSI, UnitConverter.fromSIunit_T],
      by simpa using B0⟩
  · obtain ⟨y, ey, dy⟩ := hu 1 (x - L) (by norm_num) (by norm_num) (by rw [abs_le]; constructor <;> linarith)
    rw [abs_le] at dy
    obtain ⟨z, ez, dz⟩ := hu 2 (y + L) (by norm_num) (by norm_num) (by rw [abs_le]; constructor <;> linarith)
    rw [abs_le] at dz
    refine ⟨y, z, by simp [Quantity.toSI, UnitConverter.toSIunit_T, eL, FP.sub, ey],
      by simp [Quantity.fromSI, UnitConverter.fromSIunit_T, eL, FP.add, ez], ?_⟩
    rw [abs_le]; constructor <;> linarith
  · have h59 : ∃ c, F.rnd (5 / 9) = .fin c ∧ |c - 5 / 9| ≤ ε := by
      obtain ⟨c, e, d⟩ := hF.rel (5 / 9) (by norm_num) (by norm_num)
      refine ⟨c, e, d.trans ?_⟩
      have := hF.pos
      norm_num; linarith
    have h95 : ∃ c, F.rnd (9 / 5) = .fin c ∧ |c - 9 / 5| ≤ 2 * ε := by
      obtain ⟨c, e, d⟩ := hF.rel (9 / 5) (by norm_num) (by norm_num)
      refine ⟨c, e, d.trans ?_⟩
      have := hF.pos
      norm_num; linarith
    obtain ⟨c1, ec1, d1⟩ := h59
    obtain ⟨c2, ec2, d2⟩ := h95
    have hεB : ε * N ≤ B := by rw [hB]; norm_num
    obtain ⟨a, ea, da⟩ := hu 1 (x - 32) (by norm_num) (by norm_num) (by rw [abs_le]; constructor <;> linarith)
    have p1 : |c1 * a - 5 / 9 * (x - 32)| ≤ 2 * B := by
      have e : c1 * a - 5 / 9 * (x - 32) = c1 * (a - (x - 32)) + (c1 - 5 / 9) * (x - 32) := by ring
      have q1 : |c1| ≤ 1 := by
        rw [abs_le] at d1 ⊢; constructor <;> linarith
      have q2 : |c1 * (a - (x - 32))| ≤ B := by
        rw [abs_mul]
        calc _ ≤ 1 * (1 * B) := mul_le_mul q1 da (abs_nonneg _) (by norm_num)
          _ = B := by ring
      have q3 : |(c1 - 5 / 9) * (x - 32)| ≤ B := by
        rw [abs_mul]
        refine (mul_le_mul d1 (?_ : |x - 32| ≤ N) (abs_nonneg _) hF.pos).trans hεB
        rw [abs_le]; constructor <;> linarith
      rw [e]; exact (abs_add_le _ _).trans (by linarith)
    rw [abs_le] at p1
    obtain ⟨b, eb, db⟩ := hu 1 (c1 * a) (by norm_num) (by norm_num) (by rw [abs_le]; constructor <;> linarith)
    rw [abs_le] at db
    obtain ⟨y, ey, dy⟩ := hu 1 (b - L) (by norm_num) (by norm_num) (by rw [abs_le]; constructor <;> linarith)
    rw [abs_le] at dy
    obtain ⟨e, ee, de⟩ := hu 1 (y + L) (by norm_num) (by norm_num) (by rw [abs_le]; constructor <;> linarith)
    rw [abs_le] at de
    have p2 : |e - 5 / 9 * (x - 32)| ≤ 5 * B := by rw [abs_le]; constructor <;> linarith
    have p3 : |e * c2 - (x - 32)| ≤ 12 * B := by
      have e' : e * c2 - (x - 32) = c2 * (e - 5 / 9 * (x - 32)) + (c2 - 9 / 5) * (5 / 9 * (x - 32)) := by ring
      have q1 : |c2| ≤ 2 := by
        rw [abs_le] at d2 ⊢; constructor <;> linarith
      have q2 : |c2 * (e - 5 / 9 * (x - 32))| ≤ 10 * B := by
        rw [abs_mul]
        calc _ ≤ 2 * (5 * B) := mul_le_mul q1 p2 (abs_nonneg _) (by norm_num)
          _ = 10 * B := by ring
      have q3 : |(c2 - 9 / 5) * (5 / 9 * (x - 32))| ≤ 2 * B := by
        rw [abs_mul]
        refine (mul_le_mul d2 (?_ : |5 / 9 * (x - 32)| ≤ N) (abs_nonneg _) (by linarith [hF.pos])).trans (by linarith)
        rw [abs_le]; constructor <;> linarith
      rw [e']; exact (abs_add_le _ _).trans (by linarith)
    rw [abs_le] at p3
    obtain ⟨f, ef, df⟩ := hu 2 (e * c2) (by norm_num) (by norm_num) (by rw [abs_le]; constructor <;> linarith)
    rw [abs_le] at df
    obtain ⟨z, ez, dz⟩ := hu 2 (f + 32) (by norm_num) (by norm_num) (by rw [abs_le]; constructor <;> linarith)
    rw [abs_le] at dz
    refine ⟨y, z, ?_, ?_, ?_⟩
    · simp [Quantity.toSI, UnitConverter.toSIunit_T, eL, FP.sub, FP.mul, FP.div, Num.ofInt, ec1, ea, eb, ey]
    · simp [Quantity.fromSI, UnitConverter.fromSIunit_T, eL, FP.add, FP.mul, FP.div, Num.ofInt, ec2, ee, ef, ez]
    · rw [abs_le]; constructor <;> linarith

/-- C43 for IEEE binary64: two units in the last place, whatever the quantity and the unit system -/
theorem C43_binary64 (u : UnitSystem) (q : Quantity) (hq : q ≠ .T) (x : ℝ) (hx : Moderate x) :
    ∃ y z : ℝ, q.toSI .binary64 u (.fin x) = pure (.fin y) ∧ q.fromSI .binary64 u (.fin y) = pure (.fin z) ∧
      |z - x| ≤ 2.3e-16 * |x| := by
  obtain ⟨y, z, h1, h2, h3⟩ := C43_to_from Binary64.round u q hq x hx
  exact ⟨y, z, h1, h2, h3.trans (mul_le_mul_of_nonneg_right (by norm_num) (abs_nonneg x))⟩

/-- C43 for IEEE binary64 and temperatures up to 4000 degrees -/
theorem C43_binary64_temperature (u : UnitSystem) (x : ℝ) (hx : |x| ≤ 4000) :
    ∃ y z : ℝ, Quantity.T.toSI .binary64 u (.fin x) = pure (.fin y) ∧
      Quantity.T.fromSI .binary64 u (.fin y) = pure (.fin z) ∧ |z - x| ≤ 2e-11 := by
  obtain ⟨y, z, h1, h2, h3⟩ := C43_temperature Binary64.round (by norm_num) u x (hx.trans (by norm_num))
  refine ⟨y, z, h1, h2, h3.trans ?_⟩
  norm_num; linarith

/-- 3000 psi, in binary64 -/
example : ∃ y z : ℝ, Quantity.p.toSI .binary64 .fls (.fin 3000) = pure (.fin y) ∧
    Quantity.p.fromSI .binary64 .fls (.fin y) = pure (.fin z) ∧ |z - 3000| ≤ 2.3e-16 * |3000| :=
  C43_binary64 .fls .p (by decide) 3000 (.inr (by norm_num))

/-- 212 °F, in binary64 -/
example : ∃ y z : ℝ, Quantity.T.toSI .binary64 .fls (.fin 212) = pure (.fin y) ∧
    Quantity.T.fromSI .binary64 .fls (.fin y) = pure (.fin z) ∧ |z - 212| ≤ 2e-11 :=
  C43_binary64_temperature .fls 212 (by norm_num)

end PyX
