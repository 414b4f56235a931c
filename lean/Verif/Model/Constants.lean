-- Transcribed from the Python source by tools/py2lean.py; see the citation at each definition.
import Verif.Model.Base

/-! pyXSteam/Constants.py, and the ice type constants of IAPWS_R14.py -/

namespace PyX

namespace Constants

/-- pyXSteam/Constants.py:14 -/
def SPECIFIC_GAS_CONSTANT : ℚ := 0.461526

/-- pyXSteam/Constants.py:15 -/
def CRITICAL_TEMPERATURE : ℚ := 647.096

/-- pyXSteam/Constants.py:16 -/
def CRITICAL_PRESSURE : ℚ := 22.06395

/-- pyXSteam/Constants.py:17 -/
def CRITICAL_DENSITY : ℤ := 322

/-- pyXSteam/Constants.py:18 -/
def TRIPLE_POINT_TEMPERATURE : ℚ := 273.16

/-- pyXSteam/Constants.py:19 -/
def TRIPLE_POINT_PRESSURE : ℚ := 0.000611657

/-- pyXSteam/Constants.py:20 -/
def TRIPLE_POINT_SPECIFIC_ENTHALPY : ℚ := 0.611783e-3

/-- pyXSteam/Constants.py:26 -/
def CRITICAL_TEMPERATURE_H20_1992 : ℚ := 647.096

/-- pyXSteam/Constants.py:27 -/
def CRITICAL_PRESSURE_H20_1992 : ℚ := 22.067

/-- pyXSteam/Constants.py:28 -/
def CRITICAL_DENSITY_H20_1992 : ℤ := 322

/-- pyXSteam/Constants.py:30 -/
def CRITICAL_TEMPERATURE_D20_1992 : ℚ := 643.847

/-- pyXSteam/Constants.py:31 -/
def CRITICAL_PRESSURE_D20_1992 : ℚ := 21.671

/-- pyXSteam/Constants.py:32 -/
def CRITICAL_DENSITY_D20_1992 : ℤ := 356

/-- pyXSteam/Constants.py:36 -/
def ABSOLUTE_ZERO_CELSIUS : ℚ := -273.15

/-- pyXSteam/Constants.py:37 -/
def ABSOLUTE_ZERO_FAHRENHEIT : ℚ := -459.67

/-- pyXSteam/Constants.py:41 -/
def SPECIFIC_GAS_CONSTANT_IAPWS_R15_11 : ℚ := 0.46151805

/-- pyXSteam/Constants.py:42 -/
def CRITICAL_TEMPERATURE_IAPWS_R15_11 : ℚ := 647.096

/-- pyXSteam/Constants.py:43 -/
def CRITICAL_DENSITY_IAPWS_R15_11 : ℚ := 322.0

end Constants

namespace IAPWS_R14

/-- pyXSteam/IAPWS_R14.py:13, exported by pyXSteam/XSteam.py:28-32 -/
def TYPE_ICE_Ih : ℤ := 1

/-- pyXSteam/IAPWS_R14.py:14, exported by pyXSteam/XSteam.py:28-32 -/
def TYPE_ICE_III : ℤ := 3

/-- pyXSteam/IAPWS_R14.py:15, exported by pyXSteam/XSteam.py:28-32 -/
def TYPE_ICE_V : ℤ := 5

/-- pyXSteam/IAPWS_R14.py:16, exported by pyXSteam/XSteam.py:28-32 -/
def TYPE_ICE_VI : ℤ := 6

/-- pyXSteam/IAPWS_R14.py:17, exported by pyXSteam/XSteam.py:28-32 -/
def TYPE_ICE_VII : ℤ := 7

end IAPWS_R14

end PyX
