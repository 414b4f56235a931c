import Verif.Model.Constants

/-!
# The unit system held by a `UnitConverter`

pyXSteam/UnitConverter.py:14-34 and 220-229.  The conversions themselves are in `Units.lean`.
-/

namespace PyX

open Classical

/-- The value of `_unit_system`; pyXSteam/UnitConverter.py:14-16. -/
inductive UnitSystem where
  | bare   -- 0: m/kg/sec/K/MPa/W
  | mks    -- 1: m/kg/sec/°C/bar/W
  | fls    -- 2: ft/lb/sec/°F/psi/btu
  deriving DecidableEq

/-- `UnitConverter.set_unitSystem(unitSystem)`: the new value of `_unit_system`.
When it raises, the assignment on line 31 is not reached, so the old value stays.
pyXSteam/UnitConverter.py:24-34 -/
noncomputable def UnitConverter.set_unitSystem (v : PyVal) : Py UnitSystem := do
  if v.isInt 0 then pure .bare
  else if v.isInt 1 then pure .mks
  else if v.isInt 2 then pure .fls
  else do
    logError "Unknown Unit System selected"
    Py.raise .value

/-- `UnitConverter(unitSystem)`; pyXSteam/UnitConverter.py:18-22 -/
noncomputable def UnitConverter.init (v : PyVal) : Py UnitSystem := do
  let u ← UnitConverter.set_unitSystem v
  logDebug "set unit converter to %s"
  pure u

/-- `UnitConverter.__str__`; pyXSteam/UnitConverter.py:220-229 -/
def UnitConverter.str : UnitSystem → String
  | .fls => "FLS (ft/lb/sec/°F/psi/btu)"
  | .mks => "MKS (m/kg/sec/°C/bar/W)"
  | .bare => "BARE (m/kg/sec/K/MPa/W)"

end PyX
