-- Transcribed from the Python source by tools/py2lean.py; see the citation at each definition.
import Verif.Model.Api

/-! Every public method of `XSteam` and `XSteam_HW` (prefix `hw_`) with its arguments. -/

namespace PyX

/-- one call of a public method; pyXSteam/XSteam.py:41-2522, pyXSteam/XSteam_HW.py:32-100 -/
inductive Call where
  | specificGasConstant
  | criticalTemperatur
  | criticalPressure
  | criticalDensity
  | triplePointTemperatur
  | triplePointPressure
  | zeroPointTemperature
  | tsat_p (p : Num)
  | tsat_s (s : Num)
  | t_ph (p : Num) (h : Num)
  | t_ps (p : Num) (s : Num)
  | t_hs (h : Num) (s : Num)
  | psat_s (s : Num)
  | psat_t (t : Num)
  | p_hs (h : Num) (s : Num)
  | p_hrho (h : Num) (rho : Num)
  | hV_p (p : Num)
  | hL_p (p : Num)
  | hV_t (t : Num)
  | hL_t (t : Num)
  | h_pt (p : Num) (t : Num)
  | h_ps (p : Num) (s : Num)
  | h_px (p : Num) (x : Num)
  | h_prho (p : Num) (rho : Num)
  | h_tx (t : Num) (x : Num)
  | vV_p (p : Num)
  | vL_p (p : Num)
  | vV_t (t : Num)
  | vL_t (t : Num)
  | v_pt (p : Num) (t : Num)
  | v_ph (p : Num) (h : Num)
  | v_ps (p : Num) (s : Num)
  | rhoV_p (p : Num)
  | rhoL_p (p : Num)
  | rhoV_t (t : Num)
  | rhoL_t (t : Num)
  | rho_pt (p : Num) (t : Num)
  | rho_ph (p : Num) (h : Num)
  | rho_ps (p : Num) (s : Num)
  | sV_p (p : Num)
  | sL_p (p : Num)
  | sV_t (t : Num)
  | sL_t (t : Num)
  | s_pt (p : Num) (t : Num)
  | s_ph (p : Num) (h : Num)
  | uV_p (p : Num)
  | uL_p (p : Num)
  | uV_t (t : Num)
  | uL_t (t : Num)
  | u_pt (p : Num) (t : Num)
  | u_ph (p : Num) (h : Num)
  | u_ps (p : Num) (s : Num)
  | CpV_p (p : Num)
  | CpL_p (p : Num)
  | CpV_t (t : Num)
  | CpL_t (t : Num)
  | Cp_pt (p : Num) (t : Num)
  | Cp_ph (p : Num) (h : Num)
  | Cp_ps (p : Num) (s : Num)
  | CvV_p (p : Num)
  | CvL_p (p : Num)
  | CvV_t (t : Num)
  | CvL_t (t : Num)
  | Cv_pt (p : Num) (t : Num)
  | Cv_ph (p : Num) (h : Num)
  | Cv_ps (p : Num) (s : Num)
  | wV_p (p : Num)
  | wL_p (p : Num)
  | wV_t (t : Num)
  | wL_t (t : Num)
  | w_pt (p : Num) (t : Num)
  | w_ph (p : Num) (h : Num)
  | w_ps (p : Num) (s : Num)
  | my_pt (p : Num) (t : Num)
  | my_ph (p : Num) (h : Num)
  | my_ps (p : Num) (s : Num)
  | pr_pt (p : Num) (t : Num)
  | pr_ph (p : Num) (h : Num)
  | st_t (t : Num)
  | st_p (p : Num)
  | tcL_p (p : Num)
  | tcV_p (p : Num)
  | tcL_t (t : Num)
  | tcV_t (t : Num)
  | tc_pt (p : Num) (t : Num)
  | tc_ph (p : Num) (h : Num)
  | tc_hs (h : Num) (s : Num)
  | x_ph (p : Num) (h : Num)
  | x_ps (p : Num) (s : Num)
  | vx_ph (p : Num) (h : Num)
  | vx_ps (p : Num) (s : Num)
  | pmelt_t (t : Num) (hint : PyVal)
  | psubl_t (t : Num)
  | hw_criticalTemperatur
  | hw_criticalPressure
  | hw_criticalDensity
  | hw_my_rhoT (rho : Num) (T : Num)
  | hw_tc_rhoT (rho : Num) (T : Num)

/-- run a call on an instance with unit system `u` -/
noncomputable def Call.run (F : FP) (u : UnitSystem) : Call → Py Num
  | .specificGasConstant => XSteam.specificGasConstant F u
  | .criticalTemperatur => XSteam.criticalTemperatur F u
  | .criticalPressure => XSteam.criticalPressure F u
  | .criticalDensity => XSteam.criticalDensity F u
  | .triplePointTemperatur => XSteam.triplePointTemperatur F u
  | .triplePointPressure => XSteam.triplePointPressure F u
  | .zeroPointTemperature => XSteam.zeroPointTemperature F u
  | .tsat_p p => XSteam.tsat_p F u p
  | .tsat_s s => XSteam.tsat_s F u s
  | .t_ph p h => XSteam.t_ph F u p h
  | .t_ps p s => XSteam.t_ps F u p s
  | .t_hs h s => XSteam.t_hs F u h s
  | .psat_s s => XSteam.psat_s F u s
  | .psat_t t => XSteam.psat_t F u t
  | .p_hs h s => XSteam.p_hs F u h s
  | .p_hrho h rho => XSteam.p_hrho F u h rho
  | .hV_p p => XSteam.hV_p F u p
  | .hL_p p => XSteam.hL_p F u p
  | .hV_t t => XSteam.hV_t F u t
  | .hL_t t => XSteam.hL_t F u t
  | .h_pt p t => XSteam.h_pt F u p t
  | .h_ps p s => XSteam.h_ps F u p s
  | .h_px p x => XSteam.h_px F u p x
  | .h_prho p rho => XSteam.h_prho F u p rho
  | .h_tx t x => XSteam.h_tx F u t x
  | .vV_p p => XSteam.vV_p F u p
  | .vL_p p => XSteam.vL_p F u p
  | .vV_t t => XSteam.vV_t F u t
  | .vL_t t => XSteam.vL_t F u t
  | .v_pt p t => XSteam.v_pt F u p t
  | .v_ph p h => XSteam.v_ph F u p h
  | .v_ps p s => XSteam.v_ps F u p s
  | .rhoV_p p => XSteam.rhoV_p F u p
  | .rhoL_p p => XSteam.rhoL_p F u p
  | .rhoV_t t => XSteam.rhoV_t F u t
  | .rhoL_t t => XSteam.rhoL_t F u t
  | .rho_pt p t => XSteam.rho_pt F u p t
  | .rho_ph p h => XSteam.rho_ph F u p h
  | .rho_ps p s => XSteam.rho_ps F u p s
  | .sV_p p => XSteam.sV_p F u p
  | .sL_p p => XSteam.sL_p F u p
  | .sV_t t => XSteam.sV_t F u t
  | .sL_t t => XSteam.sL_t F u t
  | .s_pt p t => XSteam.s_pt F u p t
  | .s_ph p h => XSteam.s_ph F u p h
  | .uV_p p => XSteam.uV_p F u p
  | .uL_p p => XSteam.uL_p F u p
  | .uV_t t => XSteam.uV_t F u t
  | .uL_t t => XSteam.uL_t F u t
  | .u_pt p t => XSteam.u_pt F u p t
  | .u_ph p h => XSteam.u_ph F u p h
  | .u_ps p s => XSteam.u_ps F u p s
  | .CpV_p p => XSteam.CpV_p F u p
  | .CpL_p p => XSteam.CpL_p F u p
  | .CpV_t t => XSteam.CpV_t F u t
  | .CpL_t t => XSteam.CpL_t F u t
  | .Cp_pt p t => XSteam.Cp_pt F u p t
  | .Cp_ph p h => XSteam.Cp_ph F u p h
  | .Cp_ps p s => XSteam.Cp_ps F u p s
  | .CvV_p p => XSteam.CvV_p F u p
  | .CvL_p p => XSteam.CvL_p F u p
  | .CvV_t t => XSteam.CvV_t F u t
  | .CvL_t t => XSteam.CvL_t F u t
  | .Cv_pt p t => XSteam.Cv_pt F u p t
  | .Cv_ph p h => XSteam.Cv_ph F u p h
  | .Cv_ps p s => XSteam.Cv_ps F u p s
  | .wV_p p => XSteam.wV_p F u p
  | .wL_p p => XSteam.wL_p F u p
  | .wV_t t => XSteam.wV_t F u t
  | .wL_t t => XSteam.wL_t F u t
  | .w_pt p t => XSteam.w_pt F u p t
  | .w_ph p h => XSteam.w_ph F u p h
  | .w_ps p s => XSteam.w_ps F u p s
  | .my_pt p t => XSteam.my_pt F u p t
  | .my_ph p h => XSteam.my_ph F u p h
  | .my_ps p s => XSteam.my_ps F u p s
  | .pr_pt p t => XSteam.pr_pt F u p t
  | .pr_ph p h => XSteam.pr_ph F u p h
  | .st_t t => XSteam.st_t F u t
  | .st_p p => XSteam.st_p F u p
  | .tcL_p p => XSteam.tcL_p F u p
  | .tcV_p p => XSteam.tcV_p F u p
  | .tcL_t t => XSteam.tcL_t F u t
  | .tcV_t t => XSteam.tcV_t F u t
  | .tc_pt p t => XSteam.tc_pt F u p t
  | .tc_ph p h => XSteam.tc_ph F u p h
  | .tc_hs h s => XSteam.tc_hs F u h s
  | .x_ph p h => XSteam.x_ph F u p h
  | .x_ps p s => XSteam.x_ps F u p s
  | .vx_ph p h => XSteam.vx_ph F u p h
  | .vx_ps p s => XSteam.vx_ps F u p s
  | .pmelt_t t hint => XSteam.pmelt_t F u t hint
  | .psubl_t t => XSteam.psubl_t F u t
  | .hw_criticalTemperatur => XSteam_HW.criticalTemperatur F u
  | .hw_criticalPressure => XSteam_HW.criticalPressure F u
  | .hw_criticalDensity => XSteam_HW.criticalDensity F u
  | .hw_my_rhoT rho T => XSteam_HW.my_rhoT F u rho T
  | .hw_tc_rhoT rho T => XSteam_HW.tc_rhoT F u rho T

end PyX
