import Verif.Props.Sound
import Verif.Props.Units
import Verif.Spec.Ranges

/-!
# C12, C42: range checks and silent NaNs
-/

namespace PyX

open Classical Py

set_option linter.unusedSimpArgs false

/-! ## C42 -/

/-- C42: in exact arithmetic a call on finite numbers that returns, returns a finite number or has logged a
warning or an error.  The only exception is `uV_p` (see `C42_uV_p`). -/
theorem C42_number_or_note (u : UnitSystem) (c : Call) (hfin : ∀ a ∈ c.args, ∃ x : ℝ, a = .fin x)
    (hc : ∀ p, c ≠ .uV_p p) (r : Num) (hr : (c.run .ideal u).out = .ok r) :
    (∃ x : ℝ, r = .fin x) ∨ Noted (c.run .ideal u).logs := by
  have key : Sound True (c.run .ideal u) := by
    cases c <;> simp only [Call.args, List.forall_mem_cons, List.not_mem_nil, false_imp_iff,
      implies_true, and_true] at hfin
    case specificGasConstant => exact XSteam.specificGasConstant.sound u
    case criticalTemperatur => exact XSteam.criticalTemperatur.sound u
    case criticalPressure => exact XSteam.criticalPressure.sound u
    case criticalDensity => exact XSteam.criticalDensity.sound u
    case triplePointTemperatur => exact XSteam.triplePointTemperatur.sound u
    case triplePointPressure => exact XSteam.triplePointPressure.sound u
    case zeroPointTemperature => exact XSteam.zeroPointTemperature.sound u
    case tsat_p p => obtain ⟨p, rfl⟩ := hfin; exact XSteam.tsat_p.sound u p
    case tsat_s s => obtain ⟨s, rfl⟩ := hfin; exact XSteam.tsat_s.sound u s
    case t_ph p h => obtain ⟨⟨p, rfl⟩, ⟨h, rfl⟩⟩ := hfin; exact XSteam.t_ph.sound u p h
    case t_ps p s => obtain ⟨⟨p, rfl⟩, ⟨s, rfl⟩⟩ := hfin; exact XSteam.t_ps.sound u p s
    case t_hs h s => obtain ⟨⟨h, rfl⟩, ⟨s, rfl⟩⟩ := hfin; exact XSteam.t_hs.sound u h s
    case psat_s s => obtain ⟨s, rfl⟩ := hfin; exact XSteam.psat_s.sound u s
    case psat_t t => obtain ⟨t, rfl⟩ := hfin; exact XSteam.psat_t.sound u t
    case p_hs h s => obtain ⟨⟨h, rfl⟩, ⟨s, rfl⟩⟩ := hfin; exact XSteam.p_hs.sound u h s
    case p_hrho h rho => obtain ⟨⟨h, rfl⟩, ⟨rho, rfl⟩⟩ := hfin; exact XSteam.p_hrho.sound u h rho
    case hV_p p => obtain ⟨p, rfl⟩ := hfin; exact XSteam.hV_p.sound u p
    case hL_p p => obtain ⟨p, rfl⟩ := hfin; exact XSteam.hL_p.sound u p
    case hV_t t => obtain ⟨t, rfl⟩ := hfin; exact XSteam.hV_t.sound u t
    case hL_t t => obtain ⟨t, rfl⟩ := hfin; exact XSteam.hL_t.sound u t
    case h_pt p t => obtain ⟨⟨p, rfl⟩, ⟨t, rfl⟩⟩ := hfin; exact XSteam.h_pt.sound u p t
    case h_ps p s => obtain ⟨⟨p, rfl⟩, ⟨s, rfl⟩⟩ := hfin; exact XSteam.h_ps.sound u p s
    case h_px p x => obtain ⟨⟨p, rfl⟩, ⟨x, rfl⟩⟩ := hfin; exact XSteam.h_px.sound u p x
    case h_prho p rho => obtain ⟨⟨p, rfl⟩, ⟨rho, rfl⟩⟩ := hfin; exact XSteam.h_prho.sound u p rho
    case h_tx t x => obtain ⟨⟨t, rfl⟩, ⟨x, rfl⟩⟩ := hfin; exact XSteam.h_tx.sound u t x
    case vV_p p => obtain ⟨p, rfl⟩ := hfin; exact XSteam.vV_p.sound u p
    case vL_p p => obtain ⟨p, rfl⟩ := hfin; exact XSteam.vL_p.sound u p
    case vV_t t => obtain ⟨t, rfl⟩ := hfin; exact XSteam.vV_t.sound u t
    case vL_t t => obtain ⟨t, rfl⟩ := hfin; exact XSteam.vL_t.sound u t
    case v_pt p t => obtain ⟨⟨p, rfl⟩, ⟨t, rfl⟩⟩ := hfin; exact XSteam.v_pt.sound u p t
    case v_ph p h => obtain ⟨⟨p, rfl⟩, ⟨h, rfl⟩⟩ := hfin; exact XSteam.v_ph.sound u p h
    case v_ps p s => obtain ⟨⟨p, rfl⟩, ⟨s, rfl⟩⟩ := hfin; exact XSteam.v_ps.sound u p s
    case rhoV_p p => obtain ⟨p, rfl⟩ := hfin; exact XSteam.rhoV_p.sound u p
    case rhoL_p p => obtain ⟨p, rfl⟩ := hfin; exact XSteam.rhoL_p.sound u p
    case rhoV_t t => obtain ⟨t, rfl⟩ := hfin; exact XSteam.rhoV_t.sound u t
    case rhoL_t t => obtain ⟨t, rfl⟩ := hfin; exact XSteam.rhoL_t.sound u t
    case rho_pt p t => obtain ⟨⟨p, rfl⟩, ⟨t, rfl⟩⟩ := hfin; exact XSteam.rho_pt.sound u p t
    case rho_ph p h => obtain ⟨⟨p, rfl⟩, ⟨h, rfl⟩⟩ := hfin; exact XSteam.rho_ph.sound u p h
    case rho_ps p s => obtain ⟨⟨p, rfl⟩, ⟨s, rfl⟩⟩ := hfin; exact XSteam.rho_ps.sound u p s
    case sV_p p => obtain ⟨p, rfl⟩ := hfin; exact XSteam.sV_p.sound u p
    case sL_p p => obtain ⟨p, rfl⟩ := hfin; exact XSteam.sL_p.sound u p
    case sV_t t => obtain ⟨t, rfl⟩ := hfin; exact XSteam.sV_t.sound u t
    case sL_t t => obtain ⟨t, rfl⟩ := hfin; exact XSteam.sL_t.sound u t
    case s_pt p t => obtain ⟨⟨p, rfl⟩, ⟨t, rfl⟩⟩ := hfin; exact XSteam.s_pt.sound u p t
    case s_ph p h => obtain ⟨⟨p, rfl⟩, ⟨h, rfl⟩⟩ := hfin; exact XSteam.s_ph.sound u p h
    case uV_p p => exact absurd rfl (hc p)
    case uL_p p => obtain ⟨p, rfl⟩ := hfin; exact XSteam.uL_p.sound u p
    case uV_t t => obtain ⟨t, rfl⟩ := hfin; exact XSteam.uV_t.sound u t
    case uL_t t => obtain ⟨t, rfl⟩ := hfin; exact XSteam.uL_t.sound u t
    case u_pt p t => obtain ⟨⟨p, rfl⟩, ⟨t, rfl⟩⟩ := hfin; exact XSteam.u_pt.sound u p t
    case u_ph p h => obtain ⟨⟨p, rfl⟩, ⟨h, rfl⟩⟩ := hfin; exact XSteam.u_ph.sound u p h
    case u_ps p s => obtain ⟨⟨p, rfl⟩, ⟨s, rfl⟩⟩ := hfin; exact XSteam.u_ps.sound u p s
    case CpV_p p => obtain ⟨p, rfl⟩ := hfin; exact XSteam.CpV_p.sound u p
    case CpL_p p => obtain ⟨p, rfl⟩ := hfin; exact XSteam.CpL_p.sound u p
    case CpV_t t => obtain ⟨t, rfl⟩ := hfin; exact XSteam.CpV_t.sound u t
    case CpL_t t => obtain ⟨t, rfl⟩ := hfin; exact XSteam.CpL_t.sound u t
    case Cp_pt p t => obtain ⟨⟨p, rfl⟩, ⟨t, rfl⟩⟩ := hfin; exact XSteam.Cp_pt.sound u p t
    case Cp_ph p h => obtain ⟨⟨p, rfl⟩, ⟨h, rfl⟩⟩ := hfin; exact XSteam.Cp_ph.sound u p h
    case Cp_ps p s => obtain ⟨⟨p, rfl⟩, ⟨s, rfl⟩⟩ := hfin; exact XSteam.Cp_ps.sound u p s
    case CvV_p p => obtain ⟨p, rfl⟩ := hfin; exact XSteam.CvV_p.sound u p
    case CvL_p p => obtain ⟨p, rfl⟩ := hfin; exact XSteam.CvL_p.sound u p
    case CvV_t t => obtain ⟨t, rfl⟩ := hfin; exact XSteam.CvV_t.sound u t
    case CvL_t t => obtain ⟨t, rfl⟩ := hfin; exact XSteam.CvL_t.sound u t
    case Cv_pt p t => obtain ⟨⟨p, rfl⟩, ⟨t, rfl⟩⟩ := hfin; exact XSteam.Cv_pt.sound u p t
    case Cv_ph p h => obtain ⟨⟨p, rfl⟩, ⟨h, rfl⟩⟩ := hfin; exact XSteam.Cv_ph.sound u p h
    case Cv_ps p s => obtain ⟨⟨p, rfl⟩, ⟨s, rfl⟩⟩ := hfin; exact XSteam.Cv_ps.sound u p s
    case wV_p p => obtain ⟨p, rfl⟩ := hfin; exact XSteam.wV_p.sound u p
    case wL_p p => obtain ⟨p, rfl⟩ := hfin; exact XSteam.wL_p.sound u p
    case wV_t t => obtain ⟨t, rfl⟩ := hfin; exact XSteam.wV_t.sound u t
    case wL_t t => obtain ⟨t, rfl⟩ := hfin; exact XSteam.wL_t.sound u t
    case w_pt p t => obtain ⟨⟨p, rfl⟩, ⟨t, rfl⟩⟩ := hfin; exact XSteam.w_pt.sound u p t
    case w_ph p h => obtain ⟨⟨p, rfl⟩, ⟨h, rfl⟩⟩ := hfin; exact XSteam.w_ph.sound u p h
    case w_ps p s => obtain ⟨⟨p, rfl⟩, ⟨s, rfl⟩⟩ := hfin; exact XSteam.w_ps.sound u p s
    case my_pt p t => obtain ⟨⟨p, rfl⟩, ⟨t, rfl⟩⟩ := hfin; exact XSteam.my_pt.sound u p t
    case my_ph p h => obtain ⟨⟨p, rfl⟩, ⟨h, rfl⟩⟩ := hfin; exact XSteam.my_ph.sound u p h
    case my_ps p s => obtain ⟨⟨p, rfl⟩, ⟨s, rfl⟩⟩ := hfin; exact XSteam.my_ps.sound u p s
    case pr_pt p t => obtain ⟨⟨p, rfl⟩, ⟨t, rfl⟩⟩ := hfin; exact XSteam.pr_pt.sound u p t
    case pr_ph p h => obtain ⟨⟨p, rfl⟩, ⟨h, rfl⟩⟩ := hfin; exact XSteam.pr_ph.sound u p h
    case st_t t => obtain ⟨t, rfl⟩ := hfin; exact XSteam.st_t.sound u t
    case st_p p => obtain ⟨p, rfl⟩ := hfin; exact XSteam.st_p.sound u p
    case tcL_p p => obtain ⟨p, rfl⟩ := hfin; exact XSteam.tcL_p.sound u p
    case tcV_p p => obtain ⟨p, rfl⟩ := hfin; exact XSteam.tcV_p.sound u p
    case tcL_t t => obtain ⟨t, rfl⟩ := hfin; exact XSteam.tcL_t.sound u t
    case tcV_t t => obtain ⟨t, rfl⟩ := hfin; exact XSteam.tcV_t.sound u t
    case tc_pt p t => obtain ⟨⟨p, rfl⟩, ⟨t, rfl⟩⟩ := hfin; exact XSteam.tc_pt.sound u p t
    case tc_ph p h => obtain ⟨⟨p, rfl⟩, ⟨h, rfl⟩⟩ := hfin; exact XSteam.tc_ph.sound u p h
    case tc_hs h s => obtain ⟨⟨h, rfl⟩, ⟨s, rfl⟩⟩ := hfin; exact XSteam.tc_hs.sound u h s
    case x_ph p h => obtain ⟨⟨p, rfl⟩, ⟨h, rfl⟩⟩ := hfin; exact XSteam.x_ph.sound u p h
    case x_ps p s => obtain ⟨⟨p, rfl⟩, ⟨s, rfl⟩⟩ := hfin; exact XSteam.x_ps.sound u p s
    case vx_ph p h => obtain ⟨⟨p, rfl⟩, ⟨h, rfl⟩⟩ := hfin; exact XSteam.vx_ph.sound u p h
    case vx_ps p s => obtain ⟨⟨p, rfl⟩, ⟨s, rfl⟩⟩ := hfin; exact XSteam.vx_ps.sound u p s
    case pmelt_t t hint => obtain ⟨t, rfl⟩ := hfin; exact XSteam.pmelt_t.sound u t hint
    case psubl_t t => obtain ⟨t, rfl⟩ := hfin; exact XSteam.psubl_t.sound u t
    case hw_criticalTemperatur => exact XSteam_HW.criticalTemperatur.sound u
    case hw_criticalPressure => exact XSteam_HW.criticalPressure.sound u
    case hw_criticalDensity => exact XSteam_HW.criticalDensity.sound u
    case hw_my_rhoT rho T => obtain ⟨⟨rho, rfl⟩, ⟨T, rfl⟩⟩ := hfin; exact XSteam_HW.my_rhoT.sound u rho T
    case hw_tc_rhoT rho T => obtain ⟨⟨rho, rfl⟩, ⟨T, rfl⟩⟩ := hfin; exact XSteam_HW.tc_rhoT.sound u rho T
  have := key.elim hr
  simpa [AllFin.ok] using this

/-- C42: `uV_p` answers a pressure outside the saturation range with NaN and an empty log -/
theorem C42_uV_p (u : UnitSystem) (p : Num) (y : Num) (hy : Quantity.p.toSI .ideal u p = pure y)
    (hout : ¬ (.fin 0.000611657 < y ∧ y < .fin 22.06395)) :
    XSteam.uV_p .ideal u p = pure .nan := by
  have h1 : FP.ideal.lit 0.000611657 = .fin 0.000611657 := by rw [lit_ideal]; norm_num
  have h2 : FP.ideal.lit 22.06395 = .fin 22.06395 := by rw [lit_ideal]; norm_num
  replace hy : UnitConverter.toSIunit_p .ideal u p = pure y := hy
  simp only [XSteam.uV_p, hy, pure_bind, h1, h2, gt_num, if_neg hout]

/-- 1000 MPa: no number, no log record -/
example : XSteam.uV_p .ideal .bare (.fin 1000) = pure .nan := by
  refine C42_uV_p .bare _ (.fin 1000) rfl ?_
  rw [fin_lt, fin_lt]; norm_num

/-- a call that meets the hypotheses of `C42_number_or_note` and is answered with a note -/
example : Noted ((Call.tsat_p (.fin 1000)).run .ideal .bare).logs := by
  have h1 : FP.ideal.lit 22.06395 = .fin 22.06395 := by rw [lit_ideal]; norm_num
  have e : (Call.tsat_p (.fin 1000)).run .ideal .bare =
      ⟨[⟨.warning, "pressure %f out of range"⟩], .ok .nan⟩ := by
    have : ¬ (Num.fin 1000 > FP.ideal.lit 0.000611657 ∧ Num.fin 1000 < FP.ideal.lit 22.06395) := by
      rw [h1, fin_lt]; norm_num
    simp only [Call.run, XSteam.tsat_p]
    rw [show UnitConverter.toSIunit_p .ideal .bare (.fin 1000) = pure (.fin 1000) from rfl, pure_bind,
      if_neg this]
    rfl
  refine C42_number_or_note .bare (.tsat_p (.fin 1000)) ?_ (by simp) .nan (by rw [e]) |>.resolve_left ?_
  · simp [Call.args]
  · rintro ⟨x, hx⟩; cases hx

/-! ## C12 -/

/-- the argument is outside the range -/
def Range.Outside (F : FP) (u : UnitSystem) (g : Range) : Prop :=
  ∀ y, g.q.toSI F u g.x = pure y → ¬ (g.lo F < y ∧ y < g.hi F)

theorem div_nan (F : FP) (a : Num) : F.div a .nan = pure .nan := by
  cases a <;> rfl

theorem fin_of_between {a b : ℝ} {y : Num} (h1 : .fin a < y) (h2 : y < .fin b) :
    ∃ t : ℝ, y = .fin t := by
  cases y with
  | nan => exact absurd h1 (not_lt_nan _)
  | fin t => exact ⟨t, rfl⟩
  | inf n =>
    exfalso
    cases n
    · exact Bool.noConfusion h2
    · exact Bool.noConfusion h1

/-- exactly one warning, and NaN -/
def Refused (x : Py Num) : Prop := ∃ m, x = ⟨[⟨.warning, m⟩], .ok .nan⟩

theorem Refused.intro (m : String) : Refused (warn m >>= fun _ => pure .nan) := ⟨m, rfl⟩

/-- C12: outside its range a saturation function returns NaN and logs exactly one warning; `uV_p` logs
nothing.  Any sane floating point arithmetic. -/
theorem C12_outside (F : FP) (hF : F.Sane) (u : UnitSystem) (c : Call) (g : Range)
    (hg : c.satRange = some g) (hout : g.Outside F u) :
    if ∃ p, c = .uV_p p then c.run F u = pure .nan else Refused (c.run F u) := by
  obtain ⟨y, hy, -⟩ := (C02_total F hF g.q u g.x).1
  have ho := hout y hy
  have hh : ∀ h, ∃ z, UnitConverter.toSIunit_h F u h = pure z := fun h => by
    obtain ⟨z, hz, -⟩ := (C02_total F hF .h u h).1; exact ⟨z, hz⟩
  have hs : ∀ s, ∃ z, UnitConverter.toSIunit_s F u s = pure z := fun s => by
    obtain ⟨z, hz, -⟩ := (C02_total F hF .s u s).1; exact ⟨z, hz⟩
  clear hout
  cases c <;> simp only [Call.satRange, Option.some.injEq, reduceCtorEq] at hg <;> subst hg <;>
    simp only [Range.pressure, Range.temperature, Range.entropy, Quantity.toSI] at hy ho <;>
    simp only [Call.uV_p.injEq, exists_eq', reduceCtorEq, exists_false, if_true, if_false, Call.run]
  case tsat_p => simp only [XSteam.tsat_p, hy, pure_bind, gt_num, if_neg ho]; exact .intro _
  case hV_p => simp only [XSteam.hV_p, hy, pure_bind, gt_num, if_neg ho]; exact .intro _
  case hL_p => simp only [XSteam.hL_p, hy, pure_bind, gt_num, if_neg ho]; exact .intro _
  case vV_p => simp only [XSteam.vV_p, hy, pure_bind, gt_num, if_neg ho]; exact .intro _
  case vL_p => simp only [XSteam.vL_p, hy, pure_bind, gt_num, if_neg ho]; exact .intro _
  case rhoV_p => simp only [XSteam.rhoV_p, XSteam.vV_p, hy, pure_bind, gt_num, if_neg ho, bind_assoc, div_nan]; exact .intro _
  case rhoL_p => simp only [XSteam.rhoL_p, XSteam.vL_p, hy, pure_bind, gt_num, if_neg ho, bind_assoc, div_nan]; exact .intro _
  case sV_p => simp only [XSteam.sV_p, hy, pure_bind, gt_num, if_neg ho]; exact .intro _
  case sL_p => simp only [XSteam.sL_p, hy, pure_bind, gt_num, if_neg ho]; exact .intro _
  case uV_p => simp only [XSteam.uV_p, hy, pure_bind, gt_num, if_neg ho]
  case uL_p => simp only [XSteam.uL_p, hy, pure_bind, gt_num, if_neg ho]; exact .intro _
  case CpV_p => simp only [XSteam.CpV_p, hy, pure_bind, gt_num, if_neg ho]; exact .intro _
  case CpL_p => simp only [XSteam.CpL_p, hy, pure_bind, gt_num, if_neg ho]; exact .intro _
  case CvV_p => simp only [XSteam.CvV_p, hy, pure_bind, gt_num, if_neg ho]; exact .intro _
  case CvL_p => simp only [XSteam.CvL_p, hy, pure_bind, gt_num, if_neg ho]; exact .intro _
  case wV_p => simp only [XSteam.wV_p, hy, pure_bind, gt_num, if_neg ho]; exact .intro _
  case wL_p => simp only [XSteam.wL_p, hy, pure_bind, gt_num, if_neg ho]; exact .intro _
  case hV_t => simp only [XSteam.hV_t, hy, pure_bind, gt_num, if_neg ho]; exact .intro _
  case hL_t => simp only [XSteam.hL_t, hy, pure_bind, gt_num, if_neg ho]; exact .intro _
  case vV_t => simp only [XSteam.vV_t, hy, pure_bind, gt_num, if_neg ho]; exact .intro _
  case vL_t => simp only [XSteam.vL_t, hy, pure_bind, gt_num, if_neg ho]; exact .intro _
  case rhoV_t => simp only [XSteam.rhoV_t, XSteam.vV_t, hy, pure_bind, gt_num, if_neg ho, bind_assoc, div_nan]; exact .intro _
  case rhoL_t => simp only [XSteam.rhoL_t, XSteam.vL_t, hy, pure_bind, gt_num, if_neg ho, bind_assoc, div_nan]; exact .intro _
  case sV_t => simp only [XSteam.sV_t, hy, pure_bind, gt_num, if_neg ho]; exact .intro _
  case sL_t => simp only [XSteam.sL_t, hy, pure_bind, gt_num, if_neg ho]; exact .intro _
  case uV_t => simp only [XSteam.uV_t, hy, pure_bind, gt_num, if_neg ho]; exact .intro _
  case uL_t => simp only [XSteam.uL_t, hy, pure_bind, gt_num, if_neg ho]; exact .intro _
  case CpV_t => simp only [XSteam.CpV_t, hy, pure_bind, gt_num, if_neg ho]; exact .intro _
  case CpL_t => simp only [XSteam.CpL_t, hy, pure_bind, gt_num, if_neg ho]; exact .intro _
  case CvV_t => simp only [XSteam.CvV_t, hy, pure_bind, gt_num, if_neg ho]; exact .intro _
  case CvL_t => simp only [XSteam.CvL_t, hy, pure_bind, gt_num, if_neg ho]; exact .intro _
  case wV_t => simp only [XSteam.wV_t, hy, pure_bind, gt_num, if_neg ho]; exact .intro _
  case wL_t => simp only [XSteam.wL_t, hy, pure_bind, gt_num, if_neg ho]; exact .intro _
  case psat_t => simp only [XSteam.psat_t, hy, pure_bind, gt_num, and_comm, if_neg ho]; exact .intro _
  case tsat_s => simp only [XSteam.tsat_s, hy, pure_bind, gt_num, if_neg ho]; exact .intro _
  case psat_s => simp only [XSteam.psat_s, hy, pure_bind, gt_num, if_neg ho]; exact .intro _
  case x_ph p h =>
    obtain ⟨z, hz⟩ := hh h
    simp only [XSteam.x_ph, hy, hz, pure_bind, gt_num, if_neg ho]; exact .intro _
  case x_ps p s =>
    obtain ⟨z, hz⟩ := hs s
    simp only [XSteam.x_ps, hy, hz, pure_bind, gt_num, if_neg ho]; exact .intro _
  case vx_ph p h =>
    obtain ⟨z, hz⟩ := hh h
    simp only [XSteam.vx_ph, hy, hz, pure_bind, gt_num, if_neg ho]; exact .intro _
  case vx_ps p s =>
    obtain ⟨z, hz⟩ := hs s
    simp only [XSteam.vx_ps, hy, hz, pure_bind, gt_num, if_neg ho]; exact .intro _

/-- C12: inside its range a saturation function that returns, returns a finite number (exact arithmetic) -/
theorem C12_inside (u : UnitSystem) (c : Call) (g : Range) (hg : c.satRange = some g)
    (hfin : ∀ a ∈ c.args, ∃ x : ℝ, a = .fin x) (hin : ¬ g.Outside .ideal u)
    (r : Num) (hr : (c.run .ideal u).out = .ok r) : ∃ x : ℝ, r = .fin x := by
  obtain ⟨y, hy, ho⟩ : ∃ y, g.q.toSI .ideal u g.x = pure y ∧ (g.lo .ideal < y ∧ y < g.hi .ideal) := by
    simpa [Range.Outside] using hin
  have ho' : y < g.hi .ideal ∧ g.lo .ideal < y := ho.symm
  clear hin
  obtain ⟨y, rfl⟩ : ∃ t : ℝ, y = .fin t := by
    cases c <;> simp only [Call.satRange, Option.some.injEq, reduceCtorEq] at hg <;> subst hg <;>
      simp only [Range.pressure, Range.temperature, Range.entropy, lit_ideal, neg_fin] at ho <;>
      exact fin_of_between ho.1 ho.2
  have key : Sound False (c.run .ideal u) := by
    cases c <;> simp only [Call.satRange, Option.some.injEq, reduceCtorEq] at hg <;> subst hg <;>
      simp only [Range.pressure, Range.temperature, Range.entropy, Quantity.toSI] at hy ho ho' <;>
      simp only [Call.args, List.forall_mem_cons, List.not_mem_nil, false_imp_iff, implies_true,
        and_true] at hfin <;>
      simp only [Call.run]
    case tsat_p => simp only [XSteam.tsat_p, hy, pure_bind, gt_num, if_pos ho]; sound_walk
    case hV_p => simp only [XSteam.hV_p, hy, pure_bind, gt_num, if_pos ho]; sound_walk
    case hL_p => simp only [XSteam.hL_p, hy, pure_bind, gt_num, if_pos ho]; sound_walk
    case vV_p => simp only [XSteam.vV_p, hy, pure_bind, gt_num, if_pos ho]; sound_walk
    case vL_p => simp only [XSteam.vL_p, hy, pure_bind, gt_num, if_pos ho]; sound_walk
    case rhoV_p => simp only [XSteam.rhoV_p, XSteam.vV_p, hy, pure_bind, gt_num, if_pos ho]; sound_walk
    case rhoL_p => simp only [XSteam.rhoL_p, XSteam.vL_p, hy, pure_bind, gt_num, if_pos ho]; sound_walk
    case sV_p => simp only [XSteam.sV_p, hy, pure_bind, gt_num, if_pos ho]; sound_walk
    case sL_p => simp only [XSteam.sL_p, hy, pure_bind, gt_num, if_pos ho]; sound_walk
    case uV_p => simp only [XSteam.uV_p, hy, pure_bind, gt_num, if_pos ho]; sound_walk
    case uL_p => simp only [XSteam.uL_p, hy, pure_bind, gt_num, if_pos ho]; sound_walk
    case CpV_p => simp only [XSteam.CpV_p, hy, pure_bind, gt_num, if_pos ho]; sound_walk
    case CpL_p => simp only [XSteam.CpL_p, hy, pure_bind, gt_num, if_pos ho]; sound_walk
    case CvV_p => simp only [XSteam.CvV_p, hy, pure_bind, gt_num, if_pos ho]; sound_walk
    case CvL_p => simp only [XSteam.CvL_p, hy, pure_bind, gt_num, if_pos ho]; sound_walk
    case wV_p => simp only [XSteam.wV_p, hy, pure_bind, gt_num, if_pos ho]; sound_walk
    case wL_p => simp only [XSteam.wL_p, hy, pure_bind, gt_num, if_pos ho]; sound_walk
    case hV_t => simp only [XSteam.hV_t, hy, pure_bind, gt_num, if_pos ho]; sound_walk
    case hL_t => simp only [XSteam.hL_t, hy, pure_bind, gt_num, if_pos ho]; sound_walk
    case vV_t => simp only [XSteam.vV_t, hy, pure_bind, gt_num, if_pos ho]; sound_walk
    case vL_t => simp only [XSteam.vL_t, hy, pure_bind, gt_num, if_pos ho]; sound_walk
    case rhoV_t => simp only [XSteam.rhoV_t, XSteam.vV_t, hy, pure_bind, gt_num, if_pos ho]; sound_walk
    case rhoL_t => simp only [XSteam.rhoL_t, XSteam.vL_t, hy, pure_bind, gt_num, if_pos ho]; sound_walk
    case sV_t => simp only [XSteam.sV_t, hy, pure_bind, gt_num, if_pos ho]; sound_walk
    case sL_t => simp only [XSteam.sL_t, hy, pure_bind, gt_num, if_pos ho]; sound_walk
    case uV_t => simp only [XSteam.uV_t, hy, pure_bind, gt_num, if_pos ho]; sound_walk
    case uL_t => simp only [XSteam.uL_t, hy, pure_bind, gt_num, if_pos ho]; sound_walk
    case CpV_t => simp only [XSteam.CpV_t, hy, pure_bind, gt_num, if_pos ho]; sound_walk
    case CpL_t => simp only [XSteam.CpL_t, hy, pure_bind, gt_num, if_pos ho]; sound_walk
    case CvV_t => simp only [XSteam.CvV_t, hy, pure_bind, gt_num, if_pos ho]; sound_walk
    case CvL_t => simp only [XSteam.CvL_t, hy, pure_bind, gt_num, if_pos ho]; sound_walk
    case wV_t => simp only [XSteam.wV_t, hy, pure_bind, gt_num, if_pos ho]; sound_walk
    case wL_t => simp only [XSteam.wL_t, hy, pure_bind, gt_num, if_pos ho]; sound_walk
    case tsat_s => simp only [XSteam.tsat_s, hy, pure_bind, gt_num, if_pos ho]; sound_walk
    case psat_s => simp only [XSteam.psat_s, hy, pure_bind, gt_num, if_pos ho]; sound_walk
    case psat_t => simp only [XSteam.psat_t, hy, pure_bind, gt_num, if_pos ho']; sound_walk
    case x_ph p h =>
      obtain ⟨-, ⟨h, rfl⟩⟩ := hfin
      simp only [XSteam.x_ph, hy, pure_bind, gt_num]
      refine Sound.bind_num ?_ (fun _ => ?_)
      · simp only [sound]
      rw [if_pos ho]; sound_walk
    case x_ps p s =>
      obtain ⟨-, ⟨s, rfl⟩⟩ := hfin
      simp only [XSteam.x_ps, hy, pure_bind, gt_num]
      refine Sound.bind_num ?_ (fun _ => ?_)
      · simp only [sound]
      rw [if_pos ho]; sound_walk
    case vx_ph p h =>
      obtain ⟨-, ⟨h, rfl⟩⟩ := hfin
      simp only [XSteam.vx_ph, hy, pure_bind, gt_num]
      refine Sound.bind_num ?_ (fun _ => ?_)
      · simp only [sound]
      rw [if_pos ho]; sound_walk
    case vx_ps p s =>
      obtain ⟨-, ⟨s, rfl⟩⟩ := hfin
      simp only [XSteam.vx_ps, hy, pure_bind, gt_num]
      refine Sound.bind_num ?_ (fun _ => ?_)
      · simp only [sound]
      rw [if_pos ho]; sound_walk
  have := key.elim hr
  simpa [AllFin.ok] using this

end PyX
