import Verif.Model.Kernels
import Verif.Model.Constants

/-!
# Specification: the melting curves of IAPWS R14-08

| ice | temperatures (K) |
|---|---|
| Ih  | 251.165 ≤ T < 273.16 |
| III | 251.165 ≤ T < 256.164 |
| V   | 256.164 ≤ T < 273.31 |
| VI  | 273.31 ≤ T < 355 |
| VII | 355 ≤ T < 751 |
-/

namespace PyX

inductive Ice where
  | Ih | III | V | VI | VII
  deriving DecidableEq

namespace Ice

/-- the number of the ice type handed over as `hint` -/
def code : Ice → ℤ
  | Ih => 1
  | III => 3
  | V => 5
  | VI => 6
  | VII => 7

def lo : Ice → ℚ
  | Ih => 251.165
  | III => 251.165
  | V => 256.164
  | VI => 273.31
  | VII => 355

def hi : Ice → ℚ
  | Ih => 273.16
  | III => 256.164
  | V => 273.31
  | VI => 355
  | VII => 751

/-- the temperature `T` is one at which the ice type melts -/
def Covers (i : Ice) (F : FP) (T : Num) : Prop := F.lit i.lo ≤ T ∧ T < F.lit i.hi

/-- the melting pressure of an ice type -/
noncomputable def curve (i : Ice) (F : FP) (T : Num) : Py Num :=
  match i with
  | Ih => IAPWS_R14.pmelt_T_iceIh F T
  | III => IAPWS_R14.pmelt_T_iceIII F T
  | V => IAPWS_R14.pmelt_T_iceV F T
  | VI => IAPWS_R14.pmelt_T_iceVI F T
  | VII => IAPWS_R14.pmelt_T_iceVII F T

/-- the types that the temperature alone can identify -/
def identified : List Ice := [V, VI, VII]

end Ice

end PyX
