import Verif.Model.Units
import Verif.Lemmas.Ideal

/-!
# Specification: unit systems

An independent statement of what the three unit systems are: each quantity is an affine function of
its SI value.
-/

namespace PyX

/-- what a sane floating point arithmetic guarantees; IEEE binary64 does, in every rounding mode -/
structure FP.Sane (F : FP) : Prop where
  /-- small integers are floats -/
  int_exact : ∀ n : ℤ, |n| ≤ 2 ^ 53 → F.rnd n = .fin n
  /-- results in the normal range are finite and keep their sign -/
  normal : ∀ x : ℝ, 1e-100 ≤ |x| → |x| ≤ 1e100 →
    ∃ y, F.rnd x = .fin y ∧ (0 < x → 0 < y) ∧ (x < 0 → y < 0)
  /-- rounding a real never gives NaN -/
  not_nan : ∀ x, F.rnd x ≠ .nan
  /-- rounding is monotone -/
  mono : ∀ x y a b, x ≤ y → F.rnd x = .fin a → F.rnd y = .fin b → a ≤ b

/-- exact arithmetic is sane -/
theorem FP.ideal_sane : FP.Sane FP.ideal where
  int_exact := fun _ _ => rfl
  normal := fun x _ _ => ⟨x, rfl, id, id⟩
  not_nan := fun x => by simp [FP.ideal]
  mono := fun x y a b h ha hb => by
    simp only [FP.ideal, Num.fin.injEq] at ha hb; subst ha hb; exact h

/-- the quantities that carry a unit -/
inductive Quantity where
  | p | T | h | v | s | u | Cp | Cv | w | tc | st | my
  deriving DecidableEq

namespace Quantity

/-- the conversion to SI the library offers for a quantity -/
noncomputable def toSI : Quantity → FP → UnitSystem → Num → Py Num
  | p => UnitConverter.toSIunit_p
  | T => UnitConverter.toSIunit_T
  | h => UnitConverter.toSIunit_h
  | v => UnitConverter.toSIunit_v
  | s => UnitConverter.toSIunit_s
  | u => UnitConverter.toSIunit_u
  | Cp => UnitConverter.toSIunit_Cp
  | Cv => UnitConverter.toSIunit_Cv
  | w => UnitConverter.toSIunit_w
  | tc => UnitConverter.toSIunit_tc
  | st => UnitConverter.toSIunit_st
  | my => UnitConverter.toSIunit_my

/-- the conversion from SI the library offers for a quantity -/
noncomputable def fromSI : Quantity → FP → UnitSystem → Num → Py Num
  | p => UnitConverter.fromSIunit_p
  | T => UnitConverter.fromSIunit_T
  | h => UnitConverter.fromSIunit_h
  | v => UnitConverter.fromSIunit_v
  | s => UnitConverter.fromSIunit_s
  | u => UnitConverter.fromSIunit_u
  | Cp => UnitConverter.fromSIunit_Cp
  | Cv => UnitConverter.fromSIunit_Cv
  | w => UnitConverter.fromSIunit_w
  | tc => UnitConverter.fromSIunit_tc
  | st => UnitConverter.fromSIunit_st
  | my => UnitConverter.fromSIunit_my

/-- one user unit in SI units -/
noncomputable def scale : Quantity → UnitSystem → ℝ
  | _, .bare => 1
  | p, .mks => 1 / 10                       -- 1 bar = 0.1 MPa
  | _, .mks => 1
  | p, .fls => 0.00689475729                -- psi
  | T, .fls => 5 / 9                        -- degree Fahrenheit
  | h, .fls => 2.326                        -- btu/lb
  | u, .fls => 2.326
  | v, .fls => 0.0624279606                 -- ft³/lb
  | s, .fls => 1 / 0.238845896627           -- btu/(lb °F)
  | Cp, .fls => 1 / 0.238846
  | Cv, .fls => 1 / 0.238846
  | w, .fls => 0.3048                       -- ft/s
  | tc, .fls => 1 / 0.577789                -- btu/(h ft °F)
  | st, .fls => 1 / 0.068521766             -- lb/ft
  | my, .fls => 1 / 2419.088311             -- lb/(ft h)

/-- SI value of the user's zero -/
noncomputable def offset : Quantity → UnitSystem → ℝ
  | T, .mks => 273.15                       -- 0 °C
  | T, .fls => 273.15 - 5 / 9 * 32          -- 0 °F
  | _, _ => 0

end Quantity

end PyX
