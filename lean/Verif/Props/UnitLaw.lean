import Verif.Spec.CallUnits
import Verif.Props.Units

/-!
# C05: the unit system only changes the units
-/

namespace PyX

open Classical Py Num

set_option linter.unusedSimpArgs false

theorem ite_bind {α β : Type} {c : Prop} {_ : Decidable c} (x y : Py α) (f : α → Py β) :
    (if c then x else y) >>= f = if c then x >>= f else y >>= f := by
  split <;> rfl

theorem raise_bind {α β : Type} (e : Err) (f : α → Py β) :
    (Py.raise e >>= f) = Py.raise e := rfl

theorem toSI_bare (F : FP) (q : Quantity) (x : Num) : q.toSI F .bare x = pure x := by
  cases q <;> rfl

theorem fromSI_bare (F : FP) (q : Quantity) (x : Num) : q.fromSI F .bare x = pure x := by
  cases q <;> rfl

section
variable (F : FP) (u : UnitSystem)

/-! the model's converters as quantities -/
theorem to_p (x) : UnitConverter.toSIunit_p F u x = Quantity.p.toSI F u x := rfl
theorem to_T (x) : UnitConverter.toSIunit_T F u x = Quantity.T.toSI F u x := rfl
theorem to_h (x) : UnitConverter.toSIunit_h F u x = Quantity.h.toSI F u x := rfl
theorem to_v (x) : UnitConverter.toSIunit_v F u x = Quantity.v.toSI F u x := rfl
theorem to_s (x) : UnitConverter.toSIunit_s F u x = Quantity.s.toSI F u x := rfl
theorem to_Cp (x) : UnitConverter.toSIunit_Cp F u x = Quantity.Cp.toSI F u x := rfl
theorem to_tc (x) : UnitConverter.toSIunit_tc F u x = Quantity.tc.toSI F u x := rfl
theorem to_my (x) : UnitConverter.toSIunit_my F u x = Quantity.my.toSI F u x := rfl
theorem from_p (x) : UnitConverter.fromSIunit_p F u x = Quantity.p.fromSI F u x := rfl
theorem from_T (x) : UnitConverter.fromSIunit_T F u x = Quantity.T.fromSI F u x := rfl
theorem from_h (x) : UnitConverter.fromSIunit_h F u x = Quantity.h.fromSI F u x := rfl
theorem from_v (x) : UnitConverter.fromSIunit_v F u x = Quantity.v.fromSI F u x := rfl
theorem from_s (x) : UnitConverter.fromSIunit_s F u x = Quantity.s.fromSI F u x := rfl
theorem from_u (x) : UnitConverter.fromSIunit_u F u x = Quantity.u.fromSI F u x := rfl
theorem from_Cp (x) : UnitConverter.fromSIunit_Cp F u x = Quantity.Cp.fromSI F u x := rfl
theorem from_Cv (x) : UnitConverter.fromSIunit_Cv F u x = Quantity.Cv.fromSI F u x := rfl
theorem from_w (x) : UnitConverter.fromSIunit_w F u x = Quantity.w.fromSI F u x := rfl
theorem from_tc (x) : UnitConverter.fromSIunit_tc F u x = Quantity.tc.fromSI F u x := rfl
theorem from_st (x) : UnitConverter.fromSIunit_st F u x = Quantity.st.fromSI F u x := rfl
theorem from_my (x) : UnitConverter.fromSIunit_my F u x = Quantity.my.fromSI F u x := rfl

/-! vapour fractions have no unit -/
theorem to_x (x) : UnitConverter.toSIunit_x F u x = UnitConverter.toSIunit_x F .bare x := rfl
theorem from_x (x) : UnitConverter.fromSIunit_x F u x = UnitConverter.fromSIunit_x F .bare x := rfl
theorem from_vx (x) : UnitConverter.fromSIunit_vx F u x = UnitConverter.fromSIunit_vx F .bare x := rfl

/-- run in SI units, then convert the result -/
noncomputable def Call.lawful (c : Call) : Py Num := do
  let c' ← c.toSI F u
  let r ← c'.run F .bare
  c.fromSI F u r

/-- unfold a method and push the conversion of the result to the ends of all paths -/
macro "unit_law" m:ident F:ident u:ident hn:ident : tactic => `(tactic|
  simp only [Call.lawful, Call.run, Call.toSI, Call.fromSI, bind_assoc, pure_bind, bind_pure,
      $m:ident, to_p, to_T, to_h, to_v, to_s, from_p, from_T, from_h, from_v, from_s, from_u, from_Cp,
      from_Cv, from_w, from_tc, from_st, from_my, toSI_bare, fromSI_bare, ite_bind, raise_bind,
      to_x $F:ident $u:ident, from_x $F:ident $u:ident, from_vx $F:ident $u:ident, $hn:ident])

theorem fromSI_nan (hF : F.Sane) (q : Quantity) : q.fromSI F u .nan = pure .nan := by
  obtain ⟨y, hy, h⟩ := (C02_total F hF q u .nan).2
  rw [hy, h rfl]

theorem toSI_nan (hF : F.Sane) (q : Quantity) : q.toSI F u .nan = pure .nan := by
  obtain ⟨y, hy, h⟩ := (C02_total F hF q u .nan).1
  rw [hy, h rfl]

theorem XSteam.specificGasConstant.law {F u} (hF : F.Sane)  :
    (Call.specificGasConstant ).run F u = (Call.specificGasConstant ).lawful F u := by
  have hn := fromSI_nan F u hF
  unit_law XSteam.specificGasConstant F u hn
theorem XSteam.criticalTemperatur.law {F u} (hF : F.Sane)  :
    (Call.criticalTemperatur ).run F u = (Call.criticalTemperatur ).lawful F u := by
  have hn := fromSI_nan F u hF
  unit_law XSteam.criticalTemperatur F u hn
theorem XSteam.criticalPressure.law {F u} (hF : F.Sane)  :
    (Call.criticalPressure ).run F u = (Call.criticalPressure ).lawful F u := by
  have hn := fromSI_nan F u hF
  unit_law XSteam.criticalPressure F u hn
theorem XSteam.triplePointTemperatur.law {F u} (hF : F.Sane)  :
    (Call.triplePointTemperatur ).run F u = (Call.triplePointTemperatur ).lawful F u := by
  have hn := fromSI_nan F u hF
  unit_law XSteam.triplePointTemperatur F u hn
theorem XSteam.triplePointPressure.law {F u} (hF : F.Sane)  :
    (Call.triplePointPressure ).run F u = (Call.triplePointPressure ).lawful F u := by
  have hn := fromSI_nan F u hF
  unit_law XSteam.triplePointPressure F u hn
theorem XSteam.zeroPointTemperature.law {F u} (hF : F.Sane)  :
    (Call.zeroPointTemperature ).run F u = (Call.zeroPointTemperature ).lawful F u := by
  have hn := fromSI_nan F u hF
  unit_law XSteam.zeroPointTemperature F u hn
theorem XSteam.tsat_p.law {F u} (hF : F.Sane) (p : Num) :
    (Call.tsat_p p).run F u = (Call.tsat_p p).lawful F u := by
  have hn := fromSI_nan F u hF
  unit_law XSteam.tsat_p F u hn
theorem XSteam.tsat_s.law {F u} (hF : F.Sane) (s : Num) :
    (Call.tsat_s s).run F u = (Call.tsat_s s).lawful F u := by
  have hn := fromSI_nan F u hF
  unit_law XSteam.tsat_s F u hn
theorem XSteam.t_ph.law {F u} (hF : F.Sane) (p : Num) (h : Num) :
    (Call.t_ph p h).run F u = (Call.t_ph p h).lawful F u := by
  have hn := fromSI_nan F u hF
  unit_law XSteam.t_ph F u hn
theorem XSteam.t_ps.law {F u} (hF : F.Sane) (p : Num) (s : Num) :
    (Call.t_ps p s).run F u = (Call.t_ps p s).lawful F u := by
  have hn := fromSI_nan F u hF
  unit_law XSteam.t_ps F u hn
theorem XSteam.t_hs.law {F u} (hF : F.Sane) (h : Num) (s : Num) :
    (Call.t_hs h s).run F u = (Call.t_hs h s).lawful F u := by
  have hn := fromSI_nan F u hF
  unit_law XSteam.t_hs F u hn
theorem XSteam.psat_s.law {F u} (hF : F.Sane) (s : Num) :
    (Call.psat_s s).run F u = (Call.psat_s s).lawful F u := by
  have hn := fromSI_nan F u hF
  unit_law XSteam.psat_s F u hn
theorem XSteam.psat_t.law {F u} (hF : F.Sane) (t : Num) :
    (Call.psat_t t).run F u = (Call.psat_t t).lawful F u := by
  have hn := fromSI_nan F u hF
  unit_law XSteam.psat_t F u hn
theorem XSteam.p_hs.law {F u} (hF : F.Sane) (h : Num) (s : Num) :
    (Call.p_hs h s).run F u = (Call.p_hs h s).lawful F u := by
  have hn := fromSI_nan F u hF
  unit_law XSteam.p_hs F u hn
theorem XSteam.hV_p.law {F u} (hF : F.Sane) (p : Num) :
    (Call.hV_p p).run F u = (Call.hV_p p).lawful F u := by
  have hn := fromSI_nan F u hF
  unit_law XSteam.hV_p F u hn
theorem XSteam.hL_p.law {F u} (hF : F.Sane) (p : Num) :
    (Call.hL_p p).run F u = (Call.hL_p p).lawful F u := by
  have hn := fromSI_nan F u hF
  unit_law XSteam.hL_p F u hn
theorem XSteam.hV_t.law {F u} (hF : F.Sane) (t : Num) :
    (Call.hV_t t).run F u = (Call.hV_t t).lawful F u := by
  have hn := fromSI_nan F u hF
  unit_law XSteam.hV_t F u hn
theorem XSteam.hL_t.law {F u} (hF : F.Sane) (t : Num) :
    (Call.hL_t t).run F u = (Call.hL_t t).lawful F u := by
  have hn := fromSI_nan F u hF
  unit_law XSteam.hL_t F u hn
theorem XSteam.h_pt.law {F u} (hF : F.Sane) (p : Num) (t : Num) :
    (Call.h_pt p t).run F u = (Call.h_pt p t).lawful F u := by
  have hn := fromSI_nan F u hF
  unit_law XSteam.h_pt F u hn
theorem XSteam.h_ps.law {F u} (hF : F.Sane) (p : Num) (s : Num) :
    (Call.h_ps p s).run F u = (Call.h_ps p s).lawful F u := by
  have hn := fromSI_nan F u hF
  unit_law XSteam.h_ps F u hn
theorem XSteam.h_px.law {F u} (hF : F.Sane) (p : Num) (x : Num) :
    (Call.h_px p x).run F u = (Call.h_px p x).lawful F u := by
  have hn := fromSI_nan F u hF
  unit_law XSteam.h_px F u hn
theorem XSteam.h_tx.law {F u} (hF : F.Sane) (t : Num) (x : Num) :
    (Call.h_tx t x).run F u = (Call.h_tx t x).lawful F u := by
  have hn := fromSI_nan F u hF
  unit_law XSteam.h_tx F u hn
theorem XSteam.vV_p.law {F u} (hF : F.Sane) (p : Num) :
    (Call.vV_p p).run F u = (Call.vV_p p).lawful F u := by
  have hn := fromSI_nan F u hF
  unit_law XSteam.vV_p F u hn
theorem XSteam.vL_p.law {F u} (hF : F.Sane) (p : Num) :
    (Call.vL_p p).run F u = (Call.vL_p p).lawful F u := by
  have hn := fromSI_nan F u hF
  unit_law XSteam.vL_p F u hn
theorem XSteam.vV_t.law {F u} (hF : F.Sane) (t : Num) :
    (Call.vV_t t).run F u = (Call.vV_t t).lawful F u := by
  have hn := fromSI_nan F u hF
  unit_law XSteam.vV_t F u hn
theorem XSteam.vL_t.law {F u} (hF : F.Sane) (t : Num) :
    (Call.vL_t t).run F u = (Call.vL_t t).lawful F u := by
  have hn := fromSI_nan F u hF
  unit_law XSteam.vL_t F u hn
theorem XSteam.v_pt.law {F u} (hF : F.Sane) (p : Num) (t : Num) :
    (Call.v_pt p t).run F u = (Call.v_pt p t).lawful F u := by
  have hn := fromSI_nan F u hF
  unit_law XSteam.v_pt F u hn
theorem XSteam.v_ph.law {F u} (hF : F.Sane) (p : Num) (h : Num) :
    (Call.v_ph p h).run F u = (Call.v_ph p h).lawful F u := by
  have hn := fromSI_nan F u hF
  unit_law XSteam.v_ph F u hn
theorem XSteam.v_ps.law {F u} (hF : F.Sane) (p : Num) (s : Num) :
    (Call.v_ps p s).run F u = (Call.v_ps p s).lawful F u := by
  have hn := fromSI_nan F u hF
  unit_law XSteam.v_ps F u hn
theorem XSteam.sV_p.law {F u} (hF : F.Sane) (p : Num) :
    (Call.sV_p p).run F u = (Call.sV_p p).lawful F u := by
  have hn := fromSI_nan F u hF
  unit_law XSteam.sV_p F u hn
theorem XSteam.sL_p.law {F u} (hF : F.Sane) (p : Num) :
    (Call.sL_p p).run F u = (Call.sL_p p).lawful F u := by
  have hn := fromSI_nan F u hF
  unit_law XSteam.sL_p F u hn
theorem XSteam.sV_t.law {F u} (hF : F.Sane) (t : Num) :
    (Call.sV_t t).run F u = (Call.sV_t t).lawful F u := by
  have hn := fromSI_nan F u hF
  unit_law XSteam.sV_t F u hn
theorem XSteam.sL_t.law {F u} (hF : F.Sane) (t : Num) :
    (Call.sL_t t).run F u = (Call.sL_t t).lawful F u := by
  have hn := fromSI_nan F u hF
  unit_law XSteam.sL_t F u hn
theorem XSteam.s_pt.law {F u} (hF : F.Sane) (p : Num) (t : Num) :
    (Call.s_pt p t).run F u = (Call.s_pt p t).lawful F u := by
  have hn := fromSI_nan F u hF
  unit_law XSteam.s_pt F u hn
theorem XSteam.s_ph.law {F u} (hF : F.Sane) (p : Num) (h : Num) :
    (Call.s_ph p h).run F u = (Call.s_ph p h).lawful F u := by
  have hn := fromSI_nan F u hF
  unit_law XSteam.s_ph F u hn
theorem XSteam.uV_p.law {F u} (hF : F.Sane) (p : Num) :
    (Call.uV_p p).run F u = (Call.uV_p p).lawful F u := by
  have hn := fromSI_nan F u hF
  unit_law XSteam.uV_p F u hn
theorem XSteam.uL_p.law {F u} (hF : F.Sane) (p : Num) :
    (Call.uL_p p).run F u = (Call.uL_p p).lawful F u := by
  have hn := fromSI_nan F u hF
  unit_law XSteam.uL_p F u hn
theorem XSteam.uV_t.law {F u} (hF : F.Sane) (t : Num) :
    (Call.uV_t t).run F u = (Call.uV_t t).lawful F u := by
  have hn := fromSI_nan F u hF
  unit_law XSteam.uV_t F u hn
theorem XSteam.uL_t.law {F u} (hF : F.Sane) (t : Num) :
    (Call.uL_t t).run F u = (Call.uL_t t).lawful F u := by
  have hn := fromSI_nan F u hF
  unit_law XSteam.uL_t F u hn
theorem XSteam.u_pt.law {F u} (hF : F.Sane) (p : Num) (t : Num) :
    (Call.u_pt p t).run F u = (Call.u_pt p t).lawful F u := by
  have hn := fromSI_nan F u hF
  unit_law XSteam.u_pt F u hn
theorem XSteam.u_ph.law {F u} (hF : F.Sane) (p : Num) (h : Num) :
    (Call.u_ph p h).run F u = (Call.u_ph p h).lawful F u := by
  have hn := fromSI_nan F u hF
  unit_law XSteam.u_ph F u hn
theorem XSteam.u_ps.law {F u} (hF : F.Sane) (p : Num) (s : Num) :
    (Call.u_ps p s).run F u = (Call.u_ps p s).lawful F u := by
  have hn := fromSI_nan F u hF
  unit_law XSteam.u_ps F u hn
theorem XSteam.CpV_p.law {F u} (hF : F.Sane) (p : Num) :
    (Call.CpV_p p).run F u = (Call.CpV_p p).lawful F u := by
  have hn := fromSI_nan F u hF
  unit_law XSteam.CpV_p F u hn
theorem XSteam.CpL_p.law {F u} (hF : F.Sane) (p : Num) :
    (Call.CpL_p p).run F u = (Call.CpL_p p).lawful F u := by
  have hn := fromSI_nan F u hF
  unit_law XSteam.CpL_p F u hn
theorem XSteam.CpV_t.law {F u} (hF : F.Sane) (t : Num) :
    (Call.CpV_t t).run F u = (Call.CpV_t t).lawful F u := by
  have hn := fromSI_nan F u hF
  unit_law XSteam.CpV_t F u hn
theorem XSteam.CpL_t.law {F u} (hF : F.Sane) (t : Num) :
    (Call.CpL_t t).run F u = (Call.CpL_t t).lawful F u := by
  have hn := fromSI_nan F u hF
  unit_law XSteam.CpL_t F u hn
theorem XSteam.Cp_pt.law {F u} (hF : F.Sane) (p : Num) (t : Num) :
    (Call.Cp_pt p t).run F u = (Call.Cp_pt p t).lawful F u := by
  have hn := fromSI_nan F u hF
  unit_law XSteam.Cp_pt F u hn
theorem XSteam.Cp_ph.law {F u} (hF : F.Sane) (p : Num) (h : Num) :
    (Call.Cp_ph p h).run F u = (Call.Cp_ph p h).lawful F u := by
  have hn := fromSI_nan F u hF
  unit_law XSteam.Cp_ph F u hn
theorem XSteam.Cp_ps.law {F u} (hF : F.Sane) (p : Num) (s : Num) :
    (Call.Cp_ps p s).run F u = (Call.Cp_ps p s).lawful F u := by
  have hn := fromSI_nan F u hF
  unit_law XSteam.Cp_ps F u hn
theorem XSteam.CvV_p.law {F u} (hF : F.Sane) (p : Num) :
    (Call.CvV_p p).run F u = (Call.CvV_p p).lawful F u := by
  have hn := fromSI_nan F u hF
  unit_law XSteam.CvV_p F u hn
theorem XSteam.CvL_p.law {F u} (hF : F.Sane) (p : Num) :
    (Call.CvL_p p).run F u = (Call.CvL_p p).lawful F u := by
  have hn := fromSI_nan F u hF
  unit_law XSteam.CvL_p F u hn
theorem XSteam.CvV_t.law {F u} (hF : F.Sane) (t : Num) :
    (Call.CvV_t t).run F u = (Call.CvV_t t).lawful F u := by
  have hn := fromSI_nan F u hF
  unit_law XSteam.CvV_t F u hn
theorem XSteam.CvL_t.law {F u} (hF : F.Sane) (t : Num) :
    (Call.CvL_t t).run F u = (Call.CvL_t t).lawful F u := by
  have hn := fromSI_nan F u hF
  unit_law XSteam.CvL_t F u hn
theorem XSteam.Cv_pt.law {F u} (hF : F.Sane) (p : Num) (t : Num) :
    (Call.Cv_pt p t).run F u = (Call.Cv_pt p t).lawful F u := by
  have hn := fromSI_nan F u hF
  unit_law XSteam.Cv_pt F u hn
theorem XSteam.Cv_ph.law {F u} (hF : F.Sane) (p : Num) (h : Num) :
    (Call.Cv_ph p h).run F u = (Call.Cv_ph p h).lawful F u := by
  have hn := fromSI_nan F u hF
  unit_law XSteam.Cv_ph F u hn
theorem XSteam.Cv_ps.law {F u} (hF : F.Sane) (p : Num) (s : Num) :
    (Call.Cv_ps p s).run F u = (Call.Cv_ps p s).lawful F u := by
  have hn := fromSI_nan F u hF
  unit_law XSteam.Cv_ps F u hn
theorem XSteam.wV_p.law {F u} (hF : F.Sane) (p : Num) :
    (Call.wV_p p).run F u = (Call.wV_p p).lawful F u := by
  have hn := fromSI_nan F u hF
  unit_law XSteam.wV_p F u hn
theorem XSteam.wL_p.law {F u} (hF : F.Sane) (p : Num) :
    (Call.wL_p p).run F u = (Call.wL_p p).lawful F u := by
  have hn := fromSI_nan F u hF
  unit_law XSteam.wL_p F u hn
theorem XSteam.wV_t.law {F u} (hF : F.Sane) (t : Num) :
    (Call.wV_t t).run F u = (Call.wV_t t).lawful F u := by
  have hn := fromSI_nan F u hF
  unit_law XSteam.wV_t F u hn
theorem XSteam.wL_t.law {F u} (hF : F.Sane) (t : Num) :
    (Call.wL_t t).run F u = (Call.wL_t t).lawful F u := by
  have hn := fromSI_nan F u hF
  unit_law XSteam.wL_t F u hn
theorem XSteam.w_pt.law {F u} (hF : F.Sane) (p : Num) (t : Num) :
    (Call.w_pt p t).run F u = (Call.w_pt p t).lawful F u := by
  have hn := fromSI_nan F u hF
  unit_law XSteam.w_pt F u hn
theorem XSteam.w_ph.law {F u} (hF : F.Sane) (p : Num) (h : Num) :
    (Call.w_ph p h).run F u = (Call.w_ph p h).lawful F u := by
  have hn := fromSI_nan F u hF
  unit_law XSteam.w_ph F u hn
theorem XSteam.w_ps.law {F u} (hF : F.Sane) (p : Num) (s : Num) :
    (Call.w_ps p s).run F u = (Call.w_ps p s).lawful F u := by
  have hn := fromSI_nan F u hF
  unit_law XSteam.w_ps F u hn
theorem XSteam.my_pt.law {F u} (hF : F.Sane) (p : Num) (t : Num) :
    (Call.my_pt p t).run F u = (Call.my_pt p t).lawful F u := by
  have hn := fromSI_nan F u hF
  unit_law XSteam.my_pt F u hn
theorem XSteam.my_ph.law {F u} (hF : F.Sane) (p : Num) (h : Num) :
    (Call.my_ph p h).run F u = (Call.my_ph p h).lawful F u := by
  have hn := fromSI_nan F u hF
  unit_law XSteam.my_ph F u hn
theorem XSteam.st_t.law {F u} (hF : F.Sane) (t : Num) :
    (Call.st_t t).run F u = (Call.st_t t).lawful F u := by
  have hn := fromSI_nan F u hF
  unit_law XSteam.st_t F u hn
theorem XSteam.x_ph.law {F u} (hF : F.Sane) (p : Num) (h : Num) :
    (Call.x_ph p h).run F u = (Call.x_ph p h).lawful F u := by
  have hn := fromSI_nan F u hF
  unit_law XSteam.x_ph F u hn
theorem XSteam.x_ps.law {F u} (hF : F.Sane) (p : Num) (s : Num) :
    (Call.x_ps p s).run F u = (Call.x_ps p s).lawful F u := by
  have hn := fromSI_nan F u hF
  unit_law XSteam.x_ps F u hn
theorem XSteam.vx_ph.law {F u} (hF : F.Sane) (p : Num) (h : Num) :
    (Call.vx_ph p h).run F u = (Call.vx_ph p h).lawful F u := by
  have hn := fromSI_nan F u hF
  unit_law XSteam.vx_ph F u hn
theorem XSteam.vx_ps.law {F u} (hF : F.Sane) (p : Num) (s : Num) :
    (Call.vx_ps p s).run F u = (Call.vx_ps p s).lawful F u := by
  have hn := fromSI_nan F u hF
  unit_law XSteam.vx_ps F u hn
theorem XSteam.pmelt_t.law {F u} (hF : F.Sane) (t : Num) (hint : PyVal) :
    (Call.pmelt_t t hint).run F u = (Call.pmelt_t t hint).lawful F u := by
  have hn := fromSI_nan F u hF
  unit_law XSteam.pmelt_t F u hn
theorem XSteam.psubl_t.law {F u} (hF : F.Sane) (t : Num) :
    (Call.psubl_t t).run F u = (Call.psubl_t t).lawful F u := by
  have hn := fromSI_nan F u hF
  unit_law XSteam.psubl_t F u hn
theorem XSteam_HW.criticalTemperatur.law {F u} (hF : F.Sane)  :
    (Call.hw_criticalTemperatur ).run F u = (Call.hw_criticalTemperatur ).lawful F u := by
  have hn := fromSI_nan F u hF
  unit_law XSteam_HW.criticalTemperatur F u hn
theorem XSteam_HW.criticalPressure.law {F u} (hF : F.Sane)  :
    (Call.hw_criticalPressure ).run F u = (Call.hw_criticalPressure ).lawful F u := by
  have hn := fromSI_nan F u hF
  unit_law XSteam_HW.criticalPressure F u hn

/-- C05 for the methods computing in SI units: in every sane arithmetic, the method run under any unit
system returns, raises and logs exactly what it does on the converted arguments under the bare SI system,
the result converted back -/
theorem C05_simple (hF : F.Sane) (c : Call) (hc : c.Simple) : c.run F u = c.lawful F u := by
  cases c <;> first | exact hc.elim | skip
  case specificGasConstant => exact XSteam.specificGasConstant.law hF
  case criticalTemperatur => exact XSteam.criticalTemperatur.law hF
  case criticalPressure => exact XSteam.criticalPressure.law hF
  case triplePointTemperatur => exact XSteam.triplePointTemperatur.law hF
  case triplePointPressure => exact XSteam.triplePointPressure.law hF
  case zeroPointTemperature => exact XSteam.zeroPointTemperature.law hF
  case tsat_p => exact XSteam.tsat_p.law hF _
  case tsat_s => exact XSteam.tsat_s.law hF _
  case t_ph => exact XSteam.t_ph.law hF _ _
  case t_ps => exact XSteam.t_ps.law hF _ _
  case t_hs => exact XSteam.t_hs.law hF _ _
  case psat_s => exact XSteam.psat_s.law hF _
  case psat_t => exact XSteam.psat_t.law hF _
  case p_hs => exact XSteam.p_hs.law hF _ _
  case hV_p => exact XSteam.hV_p.law hF _
  case hL_p => exact XSteam.hL_p.law hF _
  case hV_t => exact XSteam.hV_t.law hF _
  case hL_t => exact XSteam.hL_t.law hF _
  case h_pt => exact XSteam.h_pt.law hF _ _
  case h_ps => exact XSteam.h_ps.law hF _ _
  case h_px => exact XSteam.h_px.law hF _ _
  case h_tx => exact XSteam.h_tx.law hF _ _
  case vV_p => exact XSteam.vV_p.law hF _
  case vL_p => exact XSteam.vL_p.law hF _
  case vV_t => exact XSteam.vV_t.law hF _
  case vL_t => exact XSteam.vL_t.law hF _
  case v_pt => exact XSteam.v_pt.law hF _ _
  case v_ph => exact XSteam.v_ph.law hF _ _
  case v_ps => exact XSteam.v_ps.law hF _ _
  case sV_p => exact XSteam.sV_p.law hF _
  case sL_p => exact XSteam.sL_p.law hF _
  case sV_t => exact XSteam.sV_t.law hF _
  case sL_t => exact XSteam.sL_t.law hF _
  case s_pt => exact XSteam.s_pt.law hF _ _
  case s_ph => exact XSteam.s_ph.law hF _ _
  case uV_p => exact XSteam.uV_p.law hF _
  case uL_p => exact XSteam.uL_p.law hF _
  case uV_t => exact XSteam.uV_t.law hF _
  case uL_t => exact XSteam.uL_t.law hF _
  case u_pt => exact XSteam.u_pt.law hF _ _
  case u_ph => exact XSteam.u_ph.law hF _ _
  case u_ps => exact XSteam.u_ps.law hF _ _
  case CpV_p => exact XSteam.CpV_p.law hF _
  case CpL_p => exact XSteam.CpL_p.law hF _
  case CpV_t => exact XSteam.CpV_t.law hF _
  case CpL_t => exact XSteam.CpL_t.law hF _
  case Cp_pt => exact XSteam.Cp_pt.law hF _ _
  case Cp_ph => exact XSteam.Cp_ph.law hF _ _
  case Cp_ps => exact XSteam.Cp_ps.law hF _ _
  case CvV_p => exact XSteam.CvV_p.law hF _
  case CvL_p => exact XSteam.CvL_p.law hF _
  case CvV_t => exact XSteam.CvV_t.law hF _
  case CvL_t => exact XSteam.CvL_t.law hF _
  case Cv_pt => exact XSteam.Cv_pt.law hF _ _
  case Cv_ph => exact XSteam.Cv_ph.law hF _ _
  case Cv_ps => exact XSteam.Cv_ps.law hF _ _
  case wV_p => exact XSteam.wV_p.law hF _
  case wL_p => exact XSteam.wL_p.law hF _
  case wV_t => exact XSteam.wV_t.law hF _
  case wL_t => exact XSteam.wL_t.law hF _
  case w_pt => exact XSteam.w_pt.law hF _ _
  case w_ph => exact XSteam.w_ph.law hF _ _
  case w_ps => exact XSteam.w_ps.law hF _ _
  case my_pt => exact XSteam.my_pt.law hF _ _
  case my_ph => exact XSteam.my_ph.law hF _ _
  case st_t => exact XSteam.st_t.law hF _
  case x_ph => exact XSteam.x_ph.law hF _ _
  case x_ps => exact XSteam.x_ps.law hF _ _
  case vx_ph => exact XSteam.vx_ph.law hF _ _
  case vx_ps => exact XSteam.vx_ps.law hF _ _
  case pmelt_t => exact XSteam.pmelt_t.law hF _ _
  case psubl_t => exact XSteam.psubl_t.law hF _
  case hw_criticalTemperatur => exact XSteam_HW.criticalTemperatur.law hF
  case hw_criticalPressure => exact XSteam_HW.criticalPressure.law hF

end

/-! ## Compound methods, exact arithmetic -/

theorem rnd_ideal (x : ℝ) : FP.ideal.rnd x = .fin x := rfl

/-- conversion to SI in exact arithmetic -/
noncomputable def Quantity.toN (q : Quantity) (u : UnitSystem) : Num → Num
  | .fin x => .fin (q.scale u * x + q.offset u)
  | x => x

/-- conversion from SI in exact arithmetic -/
noncomputable def Quantity.fromN (q : Quantity) (u : UnitSystem) : Num → Num
  | .fin x => .fin ((x - q.offset u) / q.scale u)
  | x => x

theorem toSI_ideal (q : Quantity) (u : UnitSystem) (x : Num) :
    q.toSI .ideal u x = pure (q.toN u x) := by
  cases x with
  | fin x => exact C01_toSI_value q u x
  | nan => exact toSI_nan _ u FP.ideal_sane q
  | inf s =>
    cases q <;> cases u <;> cases s <;>
    simp [Quantity.toSI, Quantity.toN, UnitConverter.toSIunit_p,
      UnitConverter.toSIunit_T, UnitConverter.toSIunit_h, UnitConverter.toSIunit_v,
      UnitConverter.toSIunit_s, UnitConverter.toSIunit_u, UnitConverter.toSIunit_Cp,
      UnitConverter.toSIunit_Cv, UnitConverter.toSIunit_w, UnitConverter.toSIunit_tc,
      UnitConverter.toSIunit_st, UnitConverter.toSIunit_my, ideal, Constants.ABSOLUTE_ZERO_CELSIUS,
      FP.div, FP.mul, FP.add, FP.sub, rnd_ideal] <;> norm_num

theorem fromSI_ideal (q : Quantity) (u : UnitSystem) (x : Num) :
    q.fromSI .ideal u x = pure (q.fromN u x) := by
  cases x with
  | fin x => exact C01_fromSI_value q u x
  | nan => exact fromSI_nan _ u FP.ideal_sane q
  | inf s =>
    cases q <;> cases u <;> cases s <;>
    simp [Quantity.fromSI, Quantity.fromN, UnitConverter.fromSIunit_p,
      UnitConverter.fromSIunit_T, UnitConverter.fromSIunit_h, UnitConverter.fromSIunit_v,
      UnitConverter.fromSIunit_s, UnitConverter.fromSIunit_u, UnitConverter.fromSIunit_Cp,
      UnitConverter.fromSIunit_Cv, UnitConverter.fromSIunit_w, UnitConverter.fromSIunit_tc,
      UnitConverter.fromSIunit_st, UnitConverter.fromSIunit_my, ideal, Constants.ABSOLUTE_ZERO_CELSIUS,
      FP.div, FP.mul, FP.add, FP.sub, rnd_ideal] <;> norm_num

theorem toN_fromN (q : Quantity) (u : UnitSystem) (x : Num) : q.toN u (q.fromN u x) = x := by
  cases x with
  | fin x =>
    have := (q.scale_pos u).ne'
    simp only [Quantity.toN, Quantity.fromN]
    congr 1; field_simp; ring
  | _ => rfl

theorem fromN_toN (q : Quantity) (u : UnitSystem) (x : Num) : q.fromN u (q.toN u x) = x := by
  cases x with
  | fin x =>
    have := (q.scale_pos u).ne'
    simp only [Quantity.toN, Quantity.fromN]
    congr 1; field_simp; ring
  | _ => rfl

theorem fromN_nan (q : Quantity) (u : UnitSystem) : q.fromN u .nan = .nan := rfl

theorem toN_bare (q : Quantity) (x : Num) : q.toN .bare x = x := by
  have h := toSI_ideal q .bare x
  rw [toSI_bare] at h
  exact (Outcome.ok.inj (congrArg Py.out h)).symm

theorem fromN_bare (q : Quantity) (x : Num) : q.fromN .bare x = x := by
  have h := fromSI_ideal q .bare x
  rw [fromSI_bare] at h
  exact (Outcome.ok.inj (congrArg Py.out h)).symm

/-- a density unit in SI units -/
noncomputable def Density.scale : UnitSystem → ℝ
  | .fls => 1 / 0.0624279606
  | _ => 1

theorem Density.scale_pos (u : UnitSystem) : 0 < Density.scale u := by
  cases u <;> norm_num [Density.scale]

noncomputable def Density.toN (u : UnitSystem) : Num → Num
  | .fin x => .fin (Density.scale u * x)
  | x => x

noncomputable def Density.fromN (u : UnitSystem) : Num → Num
  | .fin x => .fin (x / Density.scale u)
  | x => x

theorem densityToSI_ideal (u : UnitSystem) (x : Num) :
    Density.toSI .ideal u x = pure (Density.toN u x) := by
  cases u <;> cases x <;>
    simp [Density.toSI, Density.toN, Density.scale, ideal, FP.div, rnd_ideal] <;> norm_num
  congr 2
  ring

theorem densityFromSI_ideal (u : UnitSystem) (x : Num) :
    Density.fromSI .ideal u x = pure (Density.fromN u x) := by
  cases u <;> cases x <;>
    simp [Density.fromSI, Density.fromN, Density.scale, ideal, FP.mul, rnd_ideal] <;> norm_num

/-- a density unit is the reciprocal of a volume unit -/
theorem scale_v (u : UnitSystem) : Density.scale u = 1 / Quantity.v.scale u := by
  cases u <;> norm_num [Density.scale, Quantity.scale]

theorem offset_v (u : UnitSystem) : Quantity.v.offset u = 0 := by
  cases u <;> rfl

/-- densities: the reciprocal of a converted specific volume is the converted reciprocal -/
theorem recip_from (u : UnitSystem) (x : Num) :
    FP.ideal.div (Num.ofInt 1) (Quantity.v.fromN u x) =
      FP.ideal.div (Num.ofInt 1) x >>= fun r => pure (Density.fromN u r) := by
  have h := Quantity.v.scale_pos u
  cases x with
  | nan => rfl
  | inf s => simp [Quantity.fromN, FP.div, Density.fromN, ideal]
  | fin x =>
    by_cases hx : x = 0
    · simp [Quantity.fromN, FP.div, ideal, hx, offset_v]
      rfl
    · simp [Quantity.fromN, FP.div, Density.fromN, ideal, hx, offset_v, h.ne', rnd_ideal, scale_v]
      congr 2
      ring

/-- the density argument of `h_prho` -/
theorem recip_to (u : UnitSystem) (x : Num) {α : Type} (k : Num → Py α) :
    (FP.ideal.div (Num.ofInt 1) x >>= fun a =>
      FP.ideal.div (Num.ofInt 1) (Quantity.v.toN u a) >>= k) =
    FP.ideal.div (Num.ofInt 1) (Density.toN u x) >>= fun a =>
      FP.ideal.div (Num.ofInt 1) a >>= k := by
  have h := Quantity.v.scale_pos u
  cases x with
  | nan => rfl
  | inf s => simp [Quantity.toN, FP.div, Density.toN, ideal, offset_v, raise_bind]
  | fin x =>
    by_cases hx : x = 0
    · simp [Quantity.toN, FP.div, Density.toN, ideal, hx, raise_bind]
    · simp [Quantity.toN, FP.div, Density.toN, ideal, hx, offset_v, h.ne', rnd_ideal, scale_v]
      congr 2
      field_simp

/-- unfold a compound method, express the methods it calls by their SI versions -/
macro "unit_law_compound" m:ident : tactic => `(tactic|
  simp only [Call.lawful, Call.run, Call.toSI, Call.fromSI, bind_assoc, pure_bind, bind_pure, $m:ident,
      to_p, to_T, to_h, to_v, to_s, to_Cp, to_tc, to_my, from_p, from_T, from_h, from_v, from_s, from_u,
      from_Cp, from_Cv, from_w, from_tc, from_st, from_my, toSI_ideal, fromSI_ideal, densityToSI_ideal,
      densityFromSI_ideal, ite_bind, raise_bind,
      toN_fromN, toN_bare, fromN_bare, fromN_nan])

theorem XSteam.tsat_p.exact (u : UnitSystem) (p : Num) : XSteam.tsat_p .ideal u p =
    (Call.tsat_p p).lawful .ideal u := XSteam.tsat_p.law FP.ideal_sane p
theorem XSteam.t_ph.exact (u : UnitSystem) (p : Num) (h : Num) : XSteam.t_ph .ideal u p h =
    (Call.t_ph p h).lawful .ideal u := XSteam.t_ph.law FP.ideal_sane p h
theorem XSteam.psat_t.exact (u : UnitSystem) (t : Num) : XSteam.psat_t .ideal u t =
    (Call.psat_t t).lawful .ideal u := XSteam.psat_t.law FP.ideal_sane t
theorem XSteam.p_hs.exact (u : UnitSystem) (h : Num) (s : Num) : XSteam.p_hs .ideal u h s =
    (Call.p_hs h s).lawful .ideal u := XSteam.p_hs.law FP.ideal_sane h s
theorem XSteam.h_ps.exact (u : UnitSystem) (p : Num) (s : Num) : XSteam.h_ps .ideal u p s =
    (Call.h_ps p s).lawful .ideal u := XSteam.h_ps.law FP.ideal_sane p s
theorem XSteam.vV_p.exact (u : UnitSystem) (p : Num) : XSteam.vV_p .ideal u p =
    (Call.vV_p p).lawful .ideal u := XSteam.vV_p.law FP.ideal_sane p
theorem XSteam.vL_p.exact (u : UnitSystem) (p : Num) : XSteam.vL_p .ideal u p =
    (Call.vL_p p).lawful .ideal u := XSteam.vL_p.law FP.ideal_sane p
theorem XSteam.vV_t.exact (u : UnitSystem) (t : Num) : XSteam.vV_t .ideal u t =
    (Call.vV_t t).lawful .ideal u := XSteam.vV_t.law FP.ideal_sane t
theorem XSteam.vL_t.exact (u : UnitSystem) (t : Num) : XSteam.vL_t .ideal u t =
    (Call.vL_t t).lawful .ideal u := XSteam.vL_t.law FP.ideal_sane t
theorem XSteam.v_pt.exact (u : UnitSystem) (p : Num) (t : Num) : XSteam.v_pt .ideal u p t =
    (Call.v_pt p t).lawful .ideal u := XSteam.v_pt.law FP.ideal_sane p t
theorem XSteam.v_ph.exact (u : UnitSystem) (p : Num) (h : Num) : XSteam.v_ph .ideal u p h =
    (Call.v_ph p h).lawful .ideal u := XSteam.v_ph.law FP.ideal_sane p h
theorem XSteam.v_ps.exact (u : UnitSystem) (p : Num) (s : Num) : XSteam.v_ps .ideal u p s =
    (Call.v_ps p s).lawful .ideal u := XSteam.v_ps.law FP.ideal_sane p s
theorem XSteam.Cp_pt.exact (u : UnitSystem) (p : Num) (t : Num) : XSteam.Cp_pt .ideal u p t =
    (Call.Cp_pt p t).lawful .ideal u := XSteam.Cp_pt.law FP.ideal_sane p t
theorem XSteam.Cp_ph.exact (u : UnitSystem) (p : Num) (h : Num) : XSteam.Cp_ph .ideal u p h =
    (Call.Cp_ph p h).lawful .ideal u := XSteam.Cp_ph.law FP.ideal_sane p h
theorem XSteam.my_pt.exact (u : UnitSystem) (p : Num) (t : Num) : XSteam.my_pt .ideal u p t =
    (Call.my_pt p t).lawful .ideal u := XSteam.my_pt.law FP.ideal_sane p t
theorem XSteam.my_ph.exact (u : UnitSystem) (p : Num) (h : Num) : XSteam.my_ph .ideal u p h =
    (Call.my_ph p h).lawful .ideal u := XSteam.my_ph.law FP.ideal_sane p h

theorem XSteam.h_prho.exact (u : UnitSystem) (p : Num) (rho : Num) : XSteam.h_prho .ideal u p rho =
    (Call.h_prho p rho).lawful .ideal u := by
  unit_law_compound XSteam.h_prho
  rw [recip_to]

theorem XSteam.rhoV_p.exact (u : UnitSystem) (p : Num) : XSteam.rhoV_p .ideal u p =
    (Call.rhoV_p p).lawful .ideal u := by
  unit_law_compound XSteam.rhoV_p
  simp only [XSteam.vV_p.exact u]
  unit_law_compound XSteam.rhoV_p
  simp only [recip_from]

theorem XSteam.rhoL_p.exact (u : UnitSystem) (p : Num) : XSteam.rhoL_p .ideal u p =
    (Call.rhoL_p p).lawful .ideal u := by
  unit_law_compound XSteam.rhoL_p
  simp only [XSteam.vL_p.exact u]
  unit_law_compound XSteam.rhoL_p
  simp only [recip_from]

theorem XSteam.rhoV_t.exact (u : UnitSystem) (t : Num) : XSteam.rhoV_t .ideal u t =
    (Call.rhoV_t t).lawful .ideal u := by
  unit_law_compound XSteam.rhoV_t
  simp only [XSteam.vV_t.exact u]
  unit_law_compound XSteam.rhoV_t
  simp only [recip_from]

theorem XSteam.rhoL_t.exact (u : UnitSystem) (t : Num) : XSteam.rhoL_t .ideal u t =
    (Call.rhoL_t t).lawful .ideal u := by
  unit_law_compound XSteam.rhoL_t
  simp only [XSteam.vL_t.exact u]
  unit_law_compound XSteam.rhoL_t
  simp only [recip_from]

theorem XSteam.rho_pt.exact (u : UnitSystem) (p : Num) (t : Num) : XSteam.rho_pt .ideal u p t =
    (Call.rho_pt p t).lawful .ideal u := by
  unit_law_compound XSteam.rho_pt
  simp only [XSteam.v_pt.exact u]
  unit_law_compound XSteam.rho_pt
  simp only [recip_from]

theorem XSteam.rho_ph.exact (u : UnitSystem) (p : Num) (h : Num) : XSteam.rho_ph .ideal u p h =
    (Call.rho_ph p h).lawful .ideal u := by
  unit_law_compound XSteam.rho_ph
  simp only [XSteam.v_ph.exact u]
  unit_law_compound XSteam.rho_ph
  simp only [recip_from]

theorem XSteam.rho_ps.exact (u : UnitSystem) (p : Num) (s : Num) : XSteam.rho_ps .ideal u p s =
    (Call.rho_ps p s).lawful .ideal u := by
  unit_law_compound XSteam.rho_ps
  simp only [XSteam.v_ps.exact u]
  unit_law_compound XSteam.rho_ps
  simp only [recip_from]

theorem XSteam.my_ps.exact (u : UnitSystem) (p : Num) (s : Num) : XSteam.my_ps .ideal u p s =
    (Call.my_ps p s).lawful .ideal u := by
  rw [XSteam.my_ps]
  simp only [XSteam.h_ps.exact u, XSteam.my_ph.exact u]
  unit_law_compound XSteam.my_ps

theorem XSteam.st_p.exact (u : UnitSystem) (p : Num) : XSteam.st_p .ideal u p =
    (Call.st_p p).lawful .ideal u := by
  rw [XSteam.st_p]
  simp only [XSteam.tsat_p.exact u]
  unit_law_compound XSteam.st_p

theorem XSteam.tcL_p.exact (u : UnitSystem) (p : Num) : XSteam.tcL_p .ideal u p =
    (Call.tcL_p p).lawful .ideal u := by
  rw [XSteam.tcL_p]
  simp only [XSteam.tsat_p.exact u, XSteam.vL_p.exact u]
  unit_law_compound XSteam.tcL_p

theorem XSteam.tcV_p.exact (u : UnitSystem) (p : Num) : XSteam.tcV_p .ideal u p =
    (Call.tcV_p p).lawful .ideal u := by
  rw [XSteam.tcV_p]
  simp only [XSteam.tsat_p.exact u, XSteam.vV_p.exact u]
  unit_law_compound XSteam.tcV_p

theorem XSteam.tcL_t.exact (u : UnitSystem) (t : Num) : XSteam.tcL_t .ideal u t =
    (Call.tcL_t t).lawful .ideal u := by
  rw [XSteam.tcL_t]
  simp only [XSteam.psat_t.exact u, XSteam.vL_t.exact u]
  unit_law_compound XSteam.tcL_t

theorem XSteam.tcV_t.exact (u : UnitSystem) (t : Num) : XSteam.tcV_t .ideal u t =
    (Call.tcV_t t).lawful .ideal u := by
  rw [XSteam.tcV_t]
  simp only [XSteam.psat_t.exact u, XSteam.vV_t.exact u]
  unit_law_compound XSteam.tcV_t

theorem XSteam.tc_pt.exact (u : UnitSystem) (p : Num) (t : Num) : XSteam.tc_pt .ideal u p t =
    (Call.tc_pt p t).lawful .ideal u := by
  rw [XSteam.tc_pt]
  simp only [XSteam.v_pt.exact u]
  unit_law_compound XSteam.tc_pt

theorem XSteam.tc_ph.exact (u : UnitSystem) (p : Num) (h : Num) : XSteam.tc_ph .ideal u p h =
    (Call.tc_ph p h).lawful .ideal u := by
  rw [XSteam.tc_ph]
  simp only [XSteam.v_ph.exact u, XSteam.t_ph.exact u]
  unit_law_compound XSteam.tc_ph

theorem XSteam.tc_hs.exact (u : UnitSystem) (h : Num) (s : Num) : XSteam.tc_hs .ideal u h s =
    (Call.tc_hs h s).lawful .ideal u := by
  rw [XSteam.tc_hs]
  simp only [XSteam.p_hs.exact u, XSteam.v_ph.exact u, XSteam.t_ph.exact u]
  unit_law_compound XSteam.tc_hs

theorem XSteam.pr_pt.exact (u : UnitSystem) (p : Num) (t : Num) : XSteam.pr_pt .ideal u p t =
    (Call.pr_pt p t).lawful .ideal u := by
  rw [XSteam.pr_pt]
  simp only [XSteam.Cp_pt.exact u, XSteam.my_pt.exact u, XSteam.tc_pt.exact u]
  unit_law_compound XSteam.pr_pt

theorem XSteam.pr_ph.exact (u : UnitSystem) (p : Num) (h : Num) : XSteam.pr_ph .ideal u p h =
    (Call.pr_ph p h).lawful .ideal u := by
  rw [XSteam.pr_ph]
  simp only [XSteam.Cp_ph.exact u, XSteam.my_ph.exact u, XSteam.tc_ph.exact u]
  unit_law_compound XSteam.pr_ph

/-- C05 in exact arithmetic: every method but the defective ones (C27, C39, C40) obeys the unit law -/
theorem C05_exact (u : UnitSystem) (c : Call) (hc : ¬ c.Defective) :
    c.run .ideal u = c.lawful .ideal u := by
  by_cases hs : c.Simple
  · exact C05_simple _ u FP.ideal_sane c hs
  · cases c <;> first | exact (hc trivial).elim | exact (hs trivial).elim | skip
    case h_prho => exact XSteam.h_prho.exact u _ _
    case rhoV_p => exact XSteam.rhoV_p.exact u _
    case rhoL_p => exact XSteam.rhoL_p.exact u _
    case rhoV_t => exact XSteam.rhoV_t.exact u _
    case rhoL_t => exact XSteam.rhoL_t.exact u _
    case rho_pt => exact XSteam.rho_pt.exact u _ _
    case rho_ph => exact XSteam.rho_ph.exact u _ _
    case rho_ps => exact XSteam.rho_ps.exact u _ _
    case my_ps => exact XSteam.my_ps.exact u _ _
    case pr_pt => exact XSteam.pr_pt.exact u _ _
    case pr_ph => exact XSteam.pr_ph.exact u _ _
    case st_p => exact XSteam.st_p.exact u _
    case tcL_p => exact XSteam.tcL_p.exact u _
    case tcV_p => exact XSteam.tcV_p.exact u _
    case tcL_t => exact XSteam.tcL_t.exact u _
    case tcV_t => exact XSteam.tcV_t.exact u _
    case tc_pt => exact XSteam.tc_pt.exact u _ _
    case tc_ph => exact XSteam.tc_ph.exact u _ _
    case tc_hs => exact XSteam.tc_hs.exact u _ _

/-- concrete cases: the critical pressure and the saturation temperature in psi and Fahrenheit -/
example : (Call.criticalPressure).run .ideal .fls = pure (.fin (22.06395 / 0.00689475729)) := by
  rw [C05_exact _ _ id]
  simp only [Call.lawful, Call.toSI, Call.run, Call.fromSI, XSteam.criticalPressure, pure_bind, from_p,
    fromSI_ideal, Quantity.fromN, lit_ideal, Constants.CRITICAL_PRESSURE, Quantity.scale,
    Quantity.offset]
  congr 2
  norm_num

example (p : ℝ) : (Call.tsat_p (.fin p)).run .ideal .fls =
    (Call.tsat_p (.fin (0.00689475729 * p))).run .ideal .bare >>= fun T =>
      pure (Quantity.T.fromN .fls T) := by
  rw [C05_exact _ _ id]
  simp only [Call.lawful, Call.toSI, Call.fromSI, toSI_ideal, fromSI_ideal, bind_assoc, pure_bind,
    Quantity.toN, Quantity.scale, Quantity.offset, add_zero]

end PyX
