import Verif.Spec.Units

/-!
# C01-C03: unit conversions
-/

namespace PyX

open Classical Py Num

theorem Quantity.scale_pos (q : Quantity) (u : UnitSystem) : 0 < q.scale u := by
  cases q <;> cases u <;> norm_num [Quantity.scale]

/-- C01: conversion to SI is the affine map of the specification; in particular it is total -/
theorem C01_toSI_value (q : Quantity) (u : UnitSystem) (x : ℝ) :
    q.toSI .ideal u (.fin x) = pure (.fin (q.scale u * x + q.offset u)) := by
  cases q <;> cases u <;>
    simp [Quantity.toSI, Quantity.scale, Quantity.offset, UnitConverter.toSIunit_p,
      UnitConverter.toSIunit_T, UnitConverter.toSIunit_h, UnitConverter.toSIunit_v,
      UnitConverter.toSIunit_s, UnitConverter.toSIunit_u, UnitConverter.toSIunit_Cp,
      UnitConverter.toSIunit_Cv, UnitConverter.toSIunit_w, UnitConverter.toSIunit_tc,
      UnitConverter.toSIunit_st, UnitConverter.toSIunit_my, ideal, Constants.ABSOLUTE_ZERO_CELSIUS] <;>
    (try norm_num) <;> (try ring_nf)

/-- C01: conversion from SI is the inverse affine map -/
theorem C01_fromSI_value (q : Quantity) (u : UnitSystem) (x : ℝ) :
    q.fromSI .ideal u (.fin x) = pure (.fin ((x - q.offset u) / q.scale u)) := by
  cases q <;> cases u <;>
    simp [Quantity.fromSI, Quantity.scale, Quantity.offset, UnitConverter.fromSIunit_p,
      UnitConverter.fromSIunit_T, UnitConverter.fromSIunit_h, UnitConverter.fromSIunit_v,
      UnitConverter.fromSIunit_s, UnitConverter.fromSIunit_u, UnitConverter.fromSIunit_Cp,
      UnitConverter.fromSIunit_Cv, UnitConverter.fromSIunit_w, UnitConverter.fromSIunit_tc,
      UnitConverter.fromSIunit_st, UnitConverter.fromSIunit_my, ideal,
      Constants.ABSOLUTE_ZERO_CELSIUS] <;>
    (try norm_num) <;> (try ring_nf)

/-- C01: user value → SI → user value is the identity, in every unit system, for every quantity -/
theorem C01_user_roundtrip (q : Quantity) (u : UnitSystem) (x : ℝ) :
    (q.toSI .ideal u (.fin x) >>= q.fromSI .ideal u) = pure (.fin x) := by
  have := (q.scale_pos u).ne'
  rw [C01_toSI_value, pure_bind, C01_fromSI_value]
  congr 2
  field_simp
  ring

/-- C01: SI value → user value → SI value is the identity -/
theorem C01_si_roundtrip (q : Quantity) (u : UnitSystem) (x : ℝ) :
    (q.fromSI .ideal u (.fin x) >>= q.toSI .ideal u) = pure (.fin x) := by
  have := (q.scale_pos u).ne'
  rw [C01_fromSI_value, pure_bind, C01_toSI_value]
  congr 2
  field_simp
  ring

/-- a concrete case: 212 °F is 373.15 K and back -/
example : Quantity.T.toSI .ideal .fls (.fin 212) = pure (.fin 373.15) ∧
    Quantity.T.fromSI .ideal .fls (.fin 373.15) = pure (.fin 212) := by
  rw [C01_toSI_value, C01_fromSI_value]
  constructor <;> (congr 2; norm_num [Quantity.scale, Quantity.offset])

/-! ## C02 -/

/-- in a sane arithmetic a decimal literal in the normal range is a non-zero float -/
theorem FP.Sane.lit {F : FP} (hF : F.Sane) (q : ℚ) (h₁ : (1e-100 : ℝ) ≤ |(q : ℝ)|)
    (h₂ : |(q : ℝ)| ≤ 1e100) : ∃ y, y ≠ 0 ∧ F.lit q = .fin y := by
  obtain ⟨y, hy, hp, hn⟩ := hF.normal q h₁ h₂
  refine ⟨y, ?_, hy⟩
  have : (q : ℝ) ≠ 0 := by
    intro h; rw [h] at h₁; norm_num at h₁
  rcases lt_or_gt_of_ne this with h | h
  · exact (hn h).ne
  · exact (hp h).ne'

theorem div_lit_ok {F : FP} {y : ℝ} (hy : y ≠ 0) (a : Num) :
    ∃ b, F.div a (.fin y) = pure b ∧ (a = .nan → b = .nan) := by
  cases a with
  | nan => exact ⟨.nan, by simp [FP.div, hy], fun _ => rfl⟩
  | inf n => exact ⟨.inf (n != decide (y < 0)), by simp [FP.div, hy], by simp⟩
  | fin a => exact ⟨F.rnd (a / y), by simp [FP.div, hy], by simp⟩

theorem div_int_ok {F : FP} (a b : ℤ) (hb : b ≠ 0) :
    F.div (.ofInt a) (.ofInt b) = pure (F.rnd (a / b)) := by
  have : (b : ℝ) ≠ 0 := by exact_mod_cast hb
  simp [FP.div, Num.ofInt, this]

/-- C02: in every sane floating point arithmetic every conversion returns a value, writes no log
record, and returns NaN for NaN -/
theorem C02_total (F : FP) (hF : F.Sane) (q : Quantity) (u : UnitSystem) (x : Num) :
    (∃ y, q.toSI F u x = pure y ∧ (x = .nan → y = .nan)) ∧
    (∃ y, q.fromSI F u x = pure y ∧ (x = .nan → y = .nan)) := by
  have d10 : ∀ a : Num, ∃ b, F.div a (.ofInt 10) = pure b ∧ (a = .nan → b = .nan) :=
    fun a => div_lit_ok (by norm_num) a
  have dl : ∀ (q : ℚ), (1e-100 : ℝ) ≤ |(q : ℝ)| → |(q : ℝ)| ≤ 1e100 →
      ∀ a : Num, ∃ b, F.div a (F.lit q) = pure b ∧ (a = .nan → b = .nan) := by
    intro q h1 h2 a
    obtain ⟨y, hy, e⟩ := hF.lit q h1 h2
    rw [e]; exact div_lit_ok hy a
  constructor
  · cases q <;> cases u <;>
    simp only [Quantity.toSI, UnitConverter.toSIunit_p,
      UnitConverter.toSIunit_T, UnitConverter.toSIunit_h, UnitConverter.toSIunit_v,
      UnitConverter.toSIunit_s, UnitConverter.toSIunit_u, UnitConverter.toSIunit_Cp,
      UnitConverter.toSIunit_Cv, UnitConverter.toSIunit_w, UnitConverter.toSIunit_tc,
      UnitConverter.toSIunit_st, UnitConverter.toSIunit_my, reduceCtorEq, if_true, if_false,
      div_int_ok 5 9 (by norm_num), pure_bind] <;>
    first
      | exact ⟨_, rfl, fun h => by subst h; simp⟩
      | exact d10 x
      | exact dl _ (by norm_num [abs_of_pos]) (by norm_num [abs_of_pos]) x
  · cases q <;> cases u <;>
    simp only [Quantity.fromSI, UnitConverter.fromSIunit_p,
      UnitConverter.fromSIunit_T, UnitConverter.fromSIunit_h, UnitConverter.fromSIunit_v,
      UnitConverter.fromSIunit_s, UnitConverter.fromSIunit_u, UnitConverter.fromSIunit_Cp,
      UnitConverter.fromSIunit_Cv, UnitConverter.fromSIunit_w, UnitConverter.fromSIunit_tc,
      UnitConverter.fromSIunit_st, UnitConverter.fromSIunit_my, reduceCtorEq, if_true, if_false,
      div_int_ok 9 5 (by norm_num), pure_bind] <;>
    first
      | exact ⟨_, rfl, fun h => by subst h; simp⟩
      | exact d10 x
      | exact dl _ (by norm_num [abs_of_pos]) (by norm_num [abs_of_pos]) x

/-- the hypothesis of `C02_total` is met by exact arithmetic, and a NaN temperature stays NaN -/
example : Quantity.T.toSI .ideal .fls .nan = pure .nan := by
  obtain ⟨y, h, hn⟩ := (C02_total .ideal FP.ideal_sane .T .fls .nan).1
  rw [h, hn rfl]

/-! ## C03 -/

/-- the four vapour fraction conversions -/
noncomputable def fractionConverters : List (FP → UnitSystem → Num → Py Num) :=
  [UnitConverter.toSIunit_x, UnitConverter.fromSIunit_x, UnitConverter.toSIunit_vx,
   UnitConverter.fromSIunit_vx]

/-- C03: a number in [0, 1] is returned unchanged; anything else, NaN included, logs exactly one
error and raises `ValueError` -/
theorem C03_fraction (F : FP) (hF : F.Sane) (u : UnitSystem) (x : Num)
    (c : FP → UnitSystem → Num → Py Num) (hc : c ∈ fractionConverters) :
    ((∃ r : ℝ, x = .fin r ∧ 0 ≤ r ∧ r ≤ 1) → c F u x = pure x) ∧
    ((¬ ∃ r : ℝ, x = .fin r ∧ 0 ≤ r ∧ r ≤ 1) →
      (c F u x).out = .raise .value ∧ (c F u x).logs.map (·.level) = [.error]) := by
  have h0 : F.lit 0.0 = .fin 0 := by
    have := hF.int_exact 0 (by norm_num)
    have e : ((0.0 : ℚ) : ℝ) = ((0 : ℤ) : ℝ) := by norm_num
    rw [FP.lit, e, this]; simp
  have h1 : F.lit 1.0 = .fin 1 := by
    have := hF.int_exact 1 (by norm_num)
    have e : ((1.0 : ℚ) : ℝ) = ((1 : ℤ) : ℝ) := by norm_num
    rw [FP.lit, e, this]; simp
  have key : ((F.lit 0.0 ≤ x) ∧ (x ≤ F.lit 1.0)) ↔ ∃ r : ℝ, x = .fin r ∧ 0 ≤ r ∧ r ≤ 1 := by
    rw [h0, h1]
    cases x with
    | nan => simp [not_le_nan]
    | inf n => cases n <;> simp [LE.le, Num.le, Num.lt, Num.feq]
    | fin r => simp [fin_le]
  simp only [fractionConverters, List.mem_cons, List.mem_nil_iff, or_false] at hc
  constructor
  · intro h
    have h' := key.2 h
    rcases hc with rfl | rfl | rfl | rfl <;>
      simp only [UnitConverter.toSIunit_x, UnitConverter.fromSIunit_x, UnitConverter.toSIunit_vx,
        UnitConverter.fromSIunit_vx, if_pos h']
  · intro h
    have h' := fun hh => h (key.1 hh)
    rcases hc with rfl | rfl | rfl | rfl <;>
      simp only [UnitConverter.toSIunit_x, UnitConverter.fromSIunit_x, UnitConverter.toSIunit_vx,
        UnitConverter.fromSIunit_vx, if_neg h'] <;>
      exact ⟨rfl, rfl⟩

/-- both cases occur -/
example : UnitConverter.toSIunit_x .ideal .mks (.fin 0.5) = pure (.fin 0.5) ∧
    (UnitConverter.toSIunit_x .ideal .mks .nan).out = .raise .value :=
  ⟨(C03_fraction .ideal FP.ideal_sane .mks (.fin 0.5) _ (by simp [fractionConverters])).1
      ⟨0.5, rfl, by norm_num, by norm_num⟩,
   ((C03_fraction .ideal FP.ideal_sane .mks .nan _ (by simp [fractionConverters])).2
      (by simp)).1⟩

end PyX
