-- Transcribed from the Python source by tools/py2lean.py; see the citation at each definition.
import Verif.Model.UnitSystem

set_option linter.unusedVariables false

namespace PyX

open Classical

namespace UnitConverter

/-- pyXSteam/UnitConverter.py:36-42 -/
noncomputable def toSIunit_p (F : FP) (u : UnitSystem) (ins : Num) : Py Num := do
  if u = .mks then do
    F.div ins (Num.ofInt 10)
  else do
    if u = .fls then do
      pure (F.mul ins (F.lit 0.00689475729))
    else do
      pure ins

/-- pyXSteam/UnitConverter.py:44-50 -/
noncomputable def fromSIunit_p (F : FP) (u : UnitSystem) (ins : Num) : Py Num := do
  if u = .mks then do
    pure (F.mul ins (Num.ofInt 10))
  else do
    if u = .fls then do
      F.div ins (F.lit 0.00689475729)
    else do
      pure ins

/-- pyXSteam/UnitConverter.py:52-60 -/
noncomputable def toSIunit_T (F : FP) (u : UnitSystem) (ins : Num) : Py Num := do
  if u = .mks then do
    pure (F.sub ins (F.lit Constants.ABSOLUTE_ZERO_CELSIUS))
  else do
    if u = .fls then do
      pure (F.sub (F.mul (← F.div (Num.ofInt 5) (Num.ofInt 9)) (F.sub ins (Num.ofInt 32))) (F.lit Constants.ABSOLUTE_ZERO_CELSIUS))
    else do
      pure ins

/-- pyXSteam/UnitConverter.py:62-70 -/
noncomputable def fromSIunit_T (F : FP) (u : UnitSystem) (ins : Num) : Py Num := do
  if u = .mks then do
    pure (F.add ins (F.lit Constants.ABSOLUTE_ZERO_CELSIUS))
  else do
    if u = .fls then do
      pure (F.add (F.mul (F.add ins (F.lit Constants.ABSOLUTE_ZERO_CELSIUS)) (← F.div (Num.ofInt 9) (Num.ofInt 5))) (Num.ofInt 32))
    else do
      pure ins

/-- pyXSteam/UnitConverter.py:72-76 -/
noncomputable def toSIunit_h (F : FP) (u : UnitSystem) (ins : Num) : Py Num := do
  if u = .fls then do
    pure (F.mul (F.lit 2.32600) ins)
  else do
    pure ins

/-- pyXSteam/UnitConverter.py:78-82 -/
noncomputable def fromSIunit_h (F : FP) (u : UnitSystem) (ins : Num) : Py Num := do
  if u = .fls then do
    F.div ins (F.lit 2.32600)
  else do
    pure ins

/-- pyXSteam/UnitConverter.py:84-88 -/
noncomputable def toSIunit_v (F : FP) (u : UnitSystem) (ins : Num) : Py Num := do
  if u = .fls then do
    pure (F.mul ins (F.lit 0.0624279606))
  else do
    pure ins

/-- pyXSteam/UnitConverter.py:90-94 -/
noncomputable def fromSIunit_v (F : FP) (u : UnitSystem) (ins : Num) : Py Num := do
  if u = .fls then do
    F.div ins (F.lit 0.0624279606)
  else do
    pure ins

/-- pyXSteam/UnitConverter.py:96-100 -/
noncomputable def toSIunit_s (F : FP) (u : UnitSystem) (ins : Num) : Py Num := do
  if u = .fls then do
    F.div ins (F.lit 0.238845896627)
  else do
    pure ins

/-- pyXSteam/UnitConverter.py:102-106 -/
noncomputable def fromSIunit_s (F : FP) (u : UnitSystem) (ins : Num) : Py Num := do
  if u = .fls then do
    pure (F.mul ins (F.lit 0.238845896627))
  else do
    pure ins

/-- pyXSteam/UnitConverter.py:108-112 -/
noncomputable def toSIunit_u (F : FP) (u : UnitSystem) (ins : Num) : Py Num := do
  if u = .fls then do
    pure (F.mul ins (F.lit 2.32600))
  else do
    pure ins

/-- pyXSteam/UnitConverter.py:114-118 -/
noncomputable def fromSIunit_u (F : FP) (u : UnitSystem) (ins : Num) : Py Num := do
  if u = .fls then do
    F.div ins (F.lit 2.32600)
  else do
    pure ins

/-- pyXSteam/UnitConverter.py:120-124 -/
noncomputable def toSIunit_Cp (F : FP) (u : UnitSystem) (ins : Num) : Py Num := do
  if u = .fls then do
    F.div ins (F.lit 0.238846)
  else do
    pure ins

/-- pyXSteam/UnitConverter.py:126-130 -/
noncomputable def fromSIunit_Cp (F : FP) (u : UnitSystem) (ins : Num) : Py Num := do
  if u = .fls then do
    pure (F.mul ins (F.lit 0.238846))
  else do
    pure ins

/-- pyXSteam/UnitConverter.py:132-136 -/
noncomputable def toSIunit_Cv (F : FP) (u : UnitSystem) (ins : Num) : Py Num := do
  if u = .fls then do
    F.div ins (F.lit 0.238846)
  else do
    pure ins

/-- pyXSteam/UnitConverter.py:138-142 -/
noncomputable def fromSIunit_Cv (F : FP) (u : UnitSystem) (ins : Num) : Py Num := do
  if u = .fls then do
    pure (F.mul ins (F.lit 0.238846))
  else do
    pure ins

/-- pyXSteam/UnitConverter.py:144-148 -/
noncomputable def toSIunit_w (F : FP) (u : UnitSystem) (ins : Num) : Py Num := do
  if u = .fls then do
    pure (F.mul ins (F.lit 0.3048))
  else do
    pure ins

/-- pyXSteam/UnitConverter.py:150-154 -/
noncomputable def fromSIunit_w (F : FP) (u : UnitSystem) (ins : Num) : Py Num := do
  if u = .fls then do
    F.div ins (F.lit 0.3048)
  else do
    pure ins

/-- pyXSteam/UnitConverter.py:156-160 -/
noncomputable def toSIunit_tc (F : FP) (u : UnitSystem) (ins : Num) : Py Num := do
  if u = .fls then do
    F.div ins (F.lit 0.577789)
  else do
    pure ins

/-- pyXSteam/UnitConverter.py:162-166 -/
noncomputable def fromSIunit_tc (F : FP) (u : UnitSystem) (ins : Num) : Py Num := do
  if u = .fls then do
    pure (F.mul ins (F.lit 0.577789))
  else do
    pure ins

/-- pyXSteam/UnitConverter.py:168-172 -/
noncomputable def toSIunit_st (F : FP) (u : UnitSystem) (ins : Num) : Py Num := do
  if u = .fls then do
    F.div ins (F.lit 0.068521766)
  else do
    pure ins

/-- pyXSteam/UnitConverter.py:174-178 -/
noncomputable def fromSIunit_st (F : FP) (u : UnitSystem) (ins : Num) : Py Num := do
  if u = .fls then do
    pure (F.mul ins (F.lit 0.068521766))
  else do
    pure ins

/-- pyXSteam/UnitConverter.py:180-185 -/
noncomputable def toSIunit_x (F : FP) (u : UnitSystem) (ins : Num) : Py Num := do
  if ((F.lit 0.0) ≤ ins) ∧ (ins ≤ (F.lit 1.0)) then do
    pure ins
  else do
    logError "value of vapour fraction out of range: 0 < x < 1"
    Py.raise .value

/-- pyXSteam/UnitConverter.py:187-192 -/
noncomputable def fromSIunit_x (F : FP) (u : UnitSystem) (ins : Num) : Py Num := do
  if ((F.lit 0.0) ≤ ins) ∧ (ins ≤ (F.lit 1.0)) then do
    pure ins
  else do
    logError "value of vapour fraction out of range: 0 < x < 1"
    Py.raise .value

/-- pyXSteam/UnitConverter.py:194-199 -/
noncomputable def toSIunit_vx (F : FP) (u : UnitSystem) (ins : Num) : Py Num := do
  if ((F.lit 0.0) ≤ ins) ∧ (ins ≤ (F.lit 1.0)) then do
    pure ins
  else do
    logError "value of vapour volume fraction out of range: 0 < x < 1"
    Py.raise .value

/-- pyXSteam/UnitConverter.py:201-206 -/
noncomputable def fromSIunit_vx (F : FP) (u : UnitSystem) (ins : Num) : Py Num := do
  if ((F.lit 0.0) ≤ ins) ∧ (ins ≤ (F.lit 1.0)) then do
    pure ins
  else do
    logError "value of vapour volume fraction out of range: 0 < x < 1"
    Py.raise .value

/-- pyXSteam/UnitConverter.py:208-212 -/
noncomputable def toSIunit_my (F : FP) (u : UnitSystem) (ins : Num) : Py Num := do
  if u = .fls then do
    F.div ins (F.lit 2419.088311)
  else do
    pure ins

/-- pyXSteam/UnitConverter.py:214-218 -/
noncomputable def fromSIunit_my (F : FP) (u : UnitSystem) (ins : Num) : Py Num := do
  if u = .fls then do
    pure (F.mul ins (F.lit 2419.088311))
  else do
    pure ins

end UnitConverter

end PyX
