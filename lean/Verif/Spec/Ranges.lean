import Verif.Model.Calls
import Verif.Spec.Units

/-!
# Specification: arguments and saturation ranges of the public methods
-/

namespace PyX

/-- the numbers handed to a call -/
def Call.args : Call → List Num
  | .specificGasConstant => []
  | .criticalTemperatur => []
  | .criticalPressure => []
  | .criticalDensity => []
  | .triplePointTemperatur => []
  | .triplePointPressure => []
  | .zeroPointTemperature => []
  | .tsat_p p => [p]
  | .tsat_s s => [s]
  | .t_ph p h => [p, h]
  | .t_ps p s => [p, s]
  | .t_hs h s => [h, s]
  | .psat_s s => [s]
  | .psat_t t => [t]
  | .p_hs h s => [h, s]
  | .p_hrho h rho => [h, rho]
  | .hV_p p => [p]
  | .hL_p p => [p]
  | .hV_t t => [t]
  | .hL_t t => [t]
  | .h_pt p t => [p, t]
  | .h_ps p s => [p, s]
  | .h_px p x => [p, x]
  | .h_prho p rho => [p, rho]
  | .h_tx t x => [t, x]
  | .vV_p p => [p]
  | .vL_p p => [p]
  | .vV_t t => [t]
  | .vL_t t => [t]
  | .v_pt p t => [p, t]
  | .v_ph p h => [p, h]
  | .v_ps p s => [p, s]
  | .rhoV_p p => [p]
  | .rhoL_p p => [p]
  | .rhoV_t t => [t]
  | .rhoL_t t => [t]
  | .rho_pt p t => [p, t]
  | .rho_ph p h => [p, h]
  | .rho_ps p s => [p, s]
  | .sV_p p => [p]
  | .sL_p p => [p]
  | .sV_t t => [t]
  | .sL_t t => [t]
  | .s_pt p t => [p, t]
  | .s_ph p h => [p, h]
  | .uV_p p => [p]
  | .uL_p p => [p]
  | .uV_t t => [t]
  | .uL_t t => [t]
  | .u_pt p t => [p, t]
  | .u_ph p h => [p, h]
  | .u_ps p s => [p, s]
  | .CpV_p p => [p]
  | .CpL_p p => [p]
  | .CpV_t t => [t]
  | .CpL_t t => [t]
  | .Cp_pt p t => [p, t]
  | .Cp_ph p h => [p, h]
  | .Cp_ps p s => [p, s]
  | .CvV_p p => [p]
  | .CvL_p p => [p]
  | .CvV_t t => [t]
  | .CvL_t t => [t]
  | .Cv_pt p t => [p, t]
  | .Cv_ph p h => [p, h]
  | .Cv_ps p s => [p, s]
  | .wV_p p => [p]
  | .wL_p p => [p]
  | .wV_t t => [t]
  | .wL_t t => [t]
  | .w_pt p t => [p, t]
  | .w_ph p h => [p, h]
  | .w_ps p s => [p, s]
  | .my_pt p t => [p, t]
  | .my_ph p h => [p, h]
  | .my_ps p s => [p, s]
  | .pr_pt p t => [p, t]
  | .pr_ph p h => [p, h]
  | .st_t t => [t]
  | .st_p p => [p]
  | .tcL_p p => [p]
  | .tcV_p p => [p]
  | .tcL_t t => [t]
  | .tcV_t t => [t]
  | .tc_pt p t => [p, t]
  | .tc_ph p h => [p, h]
  | .tc_hs h s => [h, s]
  | .x_ph p h => [p, h]
  | .x_ps p s => [p, s]
  | .vx_ph p h => [p, h]
  | .vx_ps p s => [p, s]
  | .pmelt_t t _ => [t]
  | .psubl_t t => [t]
  | .hw_criticalTemperatur => []
  | .hw_criticalPressure => []
  | .hw_criticalDensity => []
  | .hw_my_rhoT rho T => [rho, T]
  | .hw_tc_rhoT rho T => [rho, T]

/-- the argument `x`, a quantity `q`, must lie strictly between `lo` and `hi` (SI units) -/
structure Range where
  q : Quantity
  x : Num
  lo : FP → Num
  hi : FP → Num

/-- between the triple point and the critical point, as a pressure in MPa -/
noncomputable def Range.pressure (p : Num) : Range :=
  ⟨.p, p, fun F => F.lit 0.000611657, fun F => F.lit 22.06395⟩

/-- between 0 °C and the critical point, as a temperature in K -/
noncomputable def Range.temperature (t : Num) : Range :=
  ⟨.T, t, fun F => F.lit 273.15, fun F => F.lit 647.096⟩

/-- the entropies of the saturation line in kJ/(kg K) -/
noncomputable def Range.entropy (s : Num) : Range :=
  ⟨.s, s, fun F => (F.lit 0.0001545495919).neg, fun F => F.lit 9.155759395⟩

/-- the range in which a saturation function is defined -/
noncomputable def Call.satRange : Call → Option Range
  | .tsat_p p | .hV_p p | .hL_p p | .vV_p p | .vL_p p | .rhoV_p p | .rhoL_p p | .sV_p p
  | .sL_p p | .uV_p p | .uL_p p | .CpV_p p | .CpL_p p | .CvV_p p | .CvL_p p | .wV_p p
  | .wL_p p | .x_ph p _ | .x_ps p _ | .vx_ph p _ | .vx_ps p _ => some (.pressure p)
  | .hV_t t | .hL_t t | .vV_t t | .vL_t t | .rhoV_t t | .rhoL_t t | .sV_t t | .sL_t t
  | .uV_t t | .uL_t t | .CpV_t t | .CpL_t t | .CvV_t t | .CvL_t t | .wV_t t | .wL_t t => some (.temperature t)
  -- the lower limit of this one is 273.1 K
  | .psat_t t => some ⟨.T, t, fun F => F.lit 273.1, fun F => F.lit 647.096⟩
  | .tsat_s s | .psat_s s => some (.entropy s)
  | _ => none

end PyX
