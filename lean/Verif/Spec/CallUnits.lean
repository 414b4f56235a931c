import Verif.Model.Calls
import Verif.Spec.Units

/-!
# Specification: the units of arguments and results

Which quantity each argument and the result of each public method is, read off the documentation of the
methods.  Densities are converted as reciprocals of specific volumes.
-/

namespace PyX

/-- a density in SI units -/
noncomputable def Density.toSI (F : FP) (u : UnitSystem) (x : Num) : Py Num :=
  match u with
  | .fls => F.div x (F.lit 0.0624279606)
  | _ => pure x

/-- a density in user units -/
noncomputable def Density.fromSI (F : FP) (u : UnitSystem) (x : Num) : Py Num :=
  match u with
  | .fls => pure (F.mul x (F.lit 0.0624279606))
  | _ => pure x

/-- the call with its arguments converted to SI units -/
noncomputable def Call.toSI (F : FP) (u : UnitSystem) : Call → Py Call
  | .specificGasConstant => pure .specificGasConstant
  | .criticalTemperatur => pure .criticalTemperatur
  | .criticalPressure => pure .criticalPressure
  | .criticalDensity => pure .criticalDensity
  | .triplePointTemperatur => pure .triplePointTemperatur
  | .triplePointPressure => pure .triplePointPressure
  | .zeroPointTemperature => pure .zeroPointTemperature
  | .tsat_p p => do
    let p' ← Quantity.p.toSI F u p
    pure (.tsat_p p')
  | .tsat_s s => do
    let s' ← Quantity.s.toSI F u s
    pure (.tsat_s s')
  | .t_ph p h => do
    let p' ← Quantity.p.toSI F u p
    let h' ← Quantity.h.toSI F u h
    pure (.t_ph p' h')
  | .t_ps p s => do
    let p' ← Quantity.p.toSI F u p
    let s' ← Quantity.s.toSI F u s
    pure (.t_ps p' s')
  | .t_hs h s => do
    let h' ← Quantity.h.toSI F u h
    let s' ← Quantity.s.toSI F u s
    pure (.t_hs h' s')
  | .psat_s s => do
    let s' ← Quantity.s.toSI F u s
    pure (.psat_s s')
  | .psat_t t => do
    let t' ← Quantity.T.toSI F u t
    pure (.psat_t t')
  | .p_hs h s => do
    let h' ← Quantity.h.toSI F u h
    let s' ← Quantity.s.toSI F u s
    pure (.p_hs h' s')
  | .p_hrho h rho => do
    let h' ← Quantity.h.toSI F u h
    let rho' ← Density.toSI F u rho
    pure (.p_hrho h' rho')
  | .hV_p p => do
    let p' ← Quantity.p.toSI F u p
    pure (.hV_p p')
  | .hL_p p => do
    let p' ← Quantity.p.toSI F u p
    pure (.hL_p p')
  | .hV_t t => do
    let t' ← Quantity.T.toSI F u t
    pure (.hV_t t')
  | .hL_t t => do
    let t' ← Quantity.T.toSI F u t
    pure (.hL_t t')
  | .h_pt p t => do
    let p' ← Quantity.p.toSI F u p
    let t' ← Quantity.T.toSI F u t
    pure (.h_pt p' t')
  | .h_ps p s => do
    let p' ← Quantity.p.toSI F u p
    let s' ← Quantity.s.toSI F u s
    pure (.h_ps p' s')
  | .h_px p x => do
    let p' ← Quantity.p.toSI F u p
    pure (.h_px p' x)
  | .h_prho p rho => do
    let p' ← Quantity.p.toSI F u p
    let rho' ← Density.toSI F u rho
    pure (.h_prho p' rho')
  | .h_tx t x => do
    let t' ← Quantity.T.toSI F u t
    pure (.h_tx t' x)
  | .vV_p p => do
    let p' ← Quantity.p.toSI F u p
    pure (.vV_p p')
  | .vL_p p => do
    let p' ← Quantity.p.toSI F u p
    pure (.vL_p p')
  | .vV_t t => do
    let t' ← Quantity.T.toSI F u t
    pure (.vV_t t')
  | .vL_t t => do
    let t' ← Quantity.T.toSI F u t
    pure (.vL_t t')
  | .v_pt p t => do
    let p' ← Quantity.p.toSI F u p
    let t' ← Quantity.T.toSI F u t
    pure (.v_pt p' t')
  | .v_ph p h => do
    let p' ← Quantity.p.toSI F u p
    let h' ← Quantity.h.toSI F u h
    pure (.v_ph p' h')
  | .v_ps p s => do
    let p' ← Quantity.p.toSI F u p
    let s' ← Quantity.s.toSI F u s
    pure (.v_ps p' s')
  | .rhoV_p p => do
    let p' ← Quantity.p.toSI F u p
    pure (.rhoV_p p')
  | .rhoL_p p => do
    let p' ← Quantity.p.toSI F u p
    pure (.rhoL_p p')
  | .rhoV_t t => do
    let t' ← Quantity.T.toSI F u t
    pure (.rhoV_t t')
  | .rhoL_t t => do
    let t' ← Quantity.T.toSI F u t
    pure (.rhoL_t t')
  | .rho_pt p t => do
    let p' ← Quantity.p.toSI F u p
    let t' ← Quantity.T.toSI F u t
    pure (.rho_pt p' t')
  | .rho_ph p h => do
    let p' ← Quantity.p.toSI F u p
    let h' ← Quantity.h.toSI F u h
    pure (.rho_ph p' h')
  | .rho_ps p s => do
    let p' ← Quantity.p.toSI F u p
    let s' ← Quantity.s.toSI F u s
    pure (.rho_ps p' s')
  | .sV_p p => do
    let p' ← Quantity.p.toSI F u p
    pure (.sV_p p')
  | .sL_p p => do
    let p' ← Quantity.p.toSI F u p
    pure (.sL_p p')
  | .sV_t t => do
    let t' ← Quantity.T.toSI F u t
    pure (.sV_t t')
  | .sL_t t => do
    let t' ← Quantity.T.toSI F u t
    pure (.sL_t t')
  | .s_pt p t => do
    let p' ← Quantity.p.toSI F u p
    let t' ← Quantity.T.toSI F u t
    pure (.s_pt p' t')
  | .s_ph p h => do
    let p' ← Quantity.p.toSI F u p
    let h' ← Quantity.h.toSI F u h
    pure (.s_ph p' h')
  | .uV_p p => do
    let p' ← Quantity.p.toSI F u p
    pure (.uV_p p')
  | .uL_p p => do
    let p' ← Quantity.p.toSI F u p
    pure (.uL_p p')
  | .uV_t t => do
    let t' ← Quantity.T.toSI F u t
    pure (.uV_t t')
  | .uL_t t => do
    let t' ← Quantity.T.toSI F u t
    pure (.uL_t t')
  | .u_pt p t => do
    let p' ← Quantity.p.toSI F u p
    let t' ← Quantity.T.toSI F u t
    pure (.u_pt p' t')
  | .u_ph p h => do
    let p' ← Quantity.p.toSI F u p
    let h' ← Quantity.h.toSI F u h
    pure (.u_ph p' h')
  | .u_ps p s => do
    let p' ← Quantity.p.toSI F u p
    let s' ← Quantity.s.toSI F u s
    pure (.u_ps p' s')
  | .CpV_p p => do
    let p' ← Quantity.p.toSI F u p
    pure (.CpV_p p')
  | .CpL_p p => do
    let p' ← Quantity.p.toSI F u p
    pure (.CpL_p p')
  | .CpV_t t => do
    let t' ← Quantity.T.toSI F u t
    pure (.CpV_t t')
  | .CpL_t t => do
    let t' ← Quantity.T.toSI F u t
    pure (.CpL_t t')
  | .Cp_pt p t => do
    let p' ← Quantity.p.toSI F u p
    let t' ← Quantity.T.toSI F u t
    pure (.Cp_pt p' t')
  | .Cp_ph p h => do
    let p' ← Quantity.p.toSI F u p
    let h' ← Quantity.h.toSI F u h
    pure (.Cp_ph p' h')
  | .Cp_ps p s => do
    let p' ← Quantity.p.toSI F u p
    let s' ← Quantity.s.toSI F u s
    pure (.Cp_ps p' s')
  | .CvV_p p => do
    let p' ← Quantity.p.toSI F u p
    pure (.CvV_p p')
  | .CvL_p p => do
    let p' ← Quantity.p.toSI F u p
    pure (.CvL_p p')
  | .CvV_t t => do
    let t' ← Quantity.T.toSI F u t
    pure (.CvV_t t')
  | .CvL_t t => do
    let t' ← Quantity.T.toSI F u t
    pure (.CvL_t t')
  | .Cv_pt p t => do
    let p' ← Quantity.p.toSI F u p
    let t' ← Quantity.T.toSI F u t
    pure (.Cv_pt p' t')
  | .Cv_ph p h => do
    let p' ← Quantity.p.toSI F u p
    let h' ← Quantity.h.toSI F u h
    pure (.Cv_ph p' h')
  | .Cv_ps p s => do
    let p' ← Quantity.p.toSI F u p
    let s' ← Quantity.s.toSI F u s
    pure (.Cv_ps p' s')
  | .wV_p p => do
    let p' ← Quantity.p.toSI F u p
    pure (.wV_p p')
  | .wL_p p => do
    let p' ← Quantity.p.toSI F u p
    pure (.wL_p p')
  | .wV_t t => do
    let t' ← Quantity.T.toSI F u t
    pure (.wV_t t')
  | .wL_t t => do
    let t' ← Quantity.T.toSI F u t
    pure (.wL_t t')
  | .w_pt p t => do
    let p' ← Quantity.p.toSI F u p
    let t' ← Quantity.T.toSI F u t
    pure (.w_pt p' t')
  | .w_ph p h => do
    let p' ← Quantity.p.toSI F u p
    let h' ← Quantity.h.toSI F u h
    pure (.w_ph p' h')
  | .w_ps p s => do
    let p' ← Quantity.p.toSI F u p
    let s' ← Quantity.s.toSI F u s
    pure (.w_ps p' s')
  | .my_pt p t => do
    let p' ← Quantity.p.toSI F u p
    let t' ← Quantity.T.toSI F u t
    pure (.my_pt p' t')
  | .my_ph p h => do
    let p' ← Quantity.p.toSI F u p
    let h' ← Quantity.h.toSI F u h
    pure (.my_ph p' h')
  | .my_ps p s => do
    let p' ← Quantity.p.toSI F u p
    let s' ← Quantity.s.toSI F u s
    pure (.my_ps p' s')
  | .pr_pt p t => do
    let p' ← Quantity.p.toSI F u p
    let t' ← Quantity.T.toSI F u t
    pure (.pr_pt p' t')
  | .pr_ph p h => do
    let p' ← Quantity.p.toSI F u p
    let h' ← Quantity.h.toSI F u h
    pure (.pr_ph p' h')
  | .st_t t => do
    let t' ← Quantity.T.toSI F u t
    pure (.st_t t')
  | .st_p p => do
    let p' ← Quantity.p.toSI F u p
    pure (.st_p p')
  | .tcL_p p => do
    let p' ← Quantity.p.toSI F u p
    pure (.tcL_p p')
  | .tcV_p p => do
    let p' ← Quantity.p.toSI F u p
    pure (.tcV_p p')
  | .tcL_t t => do
    let t' ← Quantity.T.toSI F u t
    pure (.tcL_t t')
  | .tcV_t t => do
    let t' ← Quantity.T.toSI F u t
    pure (.tcV_t t')
  | .tc_pt p t => do
    let p' ← Quantity.p.toSI F u p
    let t' ← Quantity.T.toSI F u t
    pure (.tc_pt p' t')
  | .tc_ph p h => do
    let p' ← Quantity.p.toSI F u p
    let h' ← Quantity.h.toSI F u h
    pure (.tc_ph p' h')
  | .tc_hs h s => do
    let h' ← Quantity.h.toSI F u h
    let s' ← Quantity.s.toSI F u s
    pure (.tc_hs h' s')
  | .x_ph p h => do
    let p' ← Quantity.p.toSI F u p
    let h' ← Quantity.h.toSI F u h
    pure (.x_ph p' h')
  | .x_ps p s => do
    let p' ← Quantity.p.toSI F u p
    let s' ← Quantity.s.toSI F u s
    pure (.x_ps p' s')
  | .vx_ph p h => do
    let p' ← Quantity.p.toSI F u p
    let h' ← Quantity.h.toSI F u h
    pure (.vx_ph p' h')
  | .vx_ps p s => do
    let p' ← Quantity.p.toSI F u p
    let s' ← Quantity.s.toSI F u s
    pure (.vx_ps p' s')
  | .pmelt_t t hint => do
    let t' ← Quantity.T.toSI F u t
    pure (.pmelt_t t' hint)
  | .psubl_t t => do
    let t' ← Quantity.T.toSI F u t
    pure (.psubl_t t')
  | .hw_criticalTemperatur => pure .hw_criticalTemperatur
  | .hw_criticalPressure => pure .hw_criticalPressure
  | .hw_criticalDensity => pure .hw_criticalDensity
  | .hw_my_rhoT rho T => do
    let rho' ← Density.toSI F u rho
    let T' ← Quantity.T.toSI F u T
    pure (.hw_my_rhoT rho' T')
  | .hw_tc_rhoT rho T => do
    let rho' ← Density.toSI F u rho
    let T' ← Quantity.T.toSI F u T
    pure (.hw_tc_rhoT rho' T')

/-- the result of a call converted to user units -/
noncomputable def Call.fromSI (F : FP) (u : UnitSystem) : Call → Num → Py Num
  | .specificGasConstant | .pr_pt _ _ | .pr_ph _ _ | .x_ph _ _ | .x_ps _ _ | .vx_ph _ _
  | .vx_ps _ _ => pure
  | .criticalTemperatur | .triplePointTemperatur | .zeroPointTemperature | .tsat_p _
  | .tsat_s _ | .t_ph _ _ | .t_ps _ _ | .t_hs _ _ | .hw_criticalTemperatur => Quantity.T.fromSI F u
  | .criticalPressure | .triplePointPressure | .psat_s _ | .psat_t _ | .p_hs _ _ | .p_hrho _ _
  | .pmelt_t _ _ | .psubl_t _ | .hw_criticalPressure => Quantity.p.fromSI F u
  | .criticalDensity | .rhoV_p _ | .rhoL_p _ | .rhoV_t _ | .rhoL_t _ | .rho_pt _ _
  | .rho_ph _ _ | .rho_ps _ _ | .hw_criticalDensity => Density.fromSI F u
  | .hV_p _ | .hL_p _ | .hV_t _ | .hL_t _ | .h_pt _ _ | .h_ps _ _ | .h_px _ _ | .h_prho _ _
  | .h_tx _ _ => Quantity.h.fromSI F u
  | .vV_p _ | .vL_p _ | .vV_t _ | .vL_t _ | .v_pt _ _ | .v_ph _ _ | .v_ps _ _ => Quantity.v.fromSI F u
  | .sV_p _ | .sL_p _ | .sV_t _ | .sL_t _ | .s_pt _ _ | .s_ph _ _ => Quantity.s.fromSI F u
  | .uV_p _ | .uL_p _ | .uV_t _ | .uL_t _ | .u_pt _ _ | .u_ph _ _ | .u_ps _ _ => Quantity.u.fromSI F u
  | .CpV_p _ | .CpL_p _ | .CpV_t _ | .CpL_t _ | .Cp_pt _ _ | .Cp_ph _ _ | .Cp_ps _ _ => Quantity.Cp.fromSI F u
  | .CvV_p _ | .CvL_p _ | .CvV_t _ | .CvL_t _ | .Cv_pt _ _ | .Cv_ph _ _ | .Cv_ps _ _ => Quantity.Cv.fromSI F u
  | .wV_p _ | .wL_p _ | .wV_t _ | .wL_t _ | .w_pt _ _ | .w_ph _ _ | .w_ps _ _ => Quantity.w.fromSI F u
  | .my_pt _ _ | .my_ph _ _ | .my_ps _ _ | .hw_my_rhoT _ _ => Quantity.my.fromSI F u
  | .st_t _ | .st_p _ => Quantity.st.fromSI F u
  | .tcL_p _ | .tcV_p _ | .tcL_t _ | .tcV_t _ | .tc_pt _ _ | .tc_ph _ _ | .tc_hs _ _
  | .hw_tc_rhoT _ _ => Quantity.tc.fromSI F u

/-- methods that convert their arguments, compute in SI units and convert the result -/
def Call.Simple : Call → Prop
  | .criticalDensity | .p_hrho _ _ | .h_prho _ _ | .rhoV_p _ | .rhoL_p _ | .rhoV_t _
  | .rhoL_t _ | .rho_pt _ _ | .rho_ph _ _ | .rho_ps _ _ | .my_ps _ _ | .pr_pt _ _ | .pr_ph _ _
  | .st_p _ | .tcL_p _ | .tcV_p _ | .tcL_t _ | .tcV_t _ | .tc_pt _ _ | .tc_ph _ _ | .tc_hs _ _
  | .hw_criticalDensity | .hw_my_rhoT _ _ | .hw_tc_rhoT _ _ => False
  | _ => True

/-- methods that do not handle the units of a density, or of a heavy water viscosity, as documented -/
def Call.Defective : Call → Prop
  | .criticalDensity | .p_hrho _ _ | .hw_criticalDensity | .hw_my_rhoT _ _ | .hw_tc_rhoT _ _ => True
  | _ => False

end PyX
