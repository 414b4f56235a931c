import Verif.Lemmas.Sound
import Verif.Model.Calls

/-!
# Every call returns a finite number or leaves something in the log (exact arithmetic)
-/

namespace PyX

open Classical Py

set_option linter.unusedSectionVars false
set_option linter.unusedSimpArgs false
set_option linter.unusedVariables false

@[sound] theorem UnitConverter.toSIunit_p.sound {B : Prop} (u : UnitSystem) (ins : ℝ) :
    Sound B (UnitConverter.toSIunit_p FP.ideal u (.fin ins)) := by
  unfold UnitConverter.toSIunit_p
  sound_walk

@[sound] theorem UnitConverter.fromSIunit_p.sound {B : Prop} (u : UnitSystem) (ins : ℝ) :
    Sound B (UnitConverter.fromSIunit_p FP.ideal u (.fin ins)) := by
  unfold UnitConverter.fromSIunit_p
  sound_walk

@[sound] theorem UnitConverter.toSIunit_T.sound {B : Prop} (u : UnitSystem) (ins : ℝ) :
    Sound B (UnitConverter.toSIunit_T FP.ideal u (.fin ins)) := by
  unfold UnitConverter.toSIunit_T
  sound_walk

@[sound] theorem UnitConverter.fromSIunit_T.sound {B : Prop} (u : UnitSystem) (ins : ℝ) :
    Sound B (UnitConverter.fromSIunit_T FP.ideal u (.fin ins)) := by
  unfold UnitConverter.fromSIunit_T
  sound_walk

@[sound] theorem UnitConverter.toSIunit_h.sound {B : Prop} (u : UnitSystem) (ins : ℝ) :
    Sound B (UnitConverter.toSIunit_h FP.ideal u (.fin ins)) := by
  unfold UnitConverter.toSIunit_h
  sound_walk

@[sound] theorem UnitConverter.fromSIunit_h.sound {B : Prop} (u : UnitSystem) (ins : ℝ) :
    Sound B (UnitConverter.fromSIunit_h FP.ideal u (.fin ins)) := by
  unfold UnitConverter.fromSIunit_h
  sound_walk

@[sound] theorem UnitConverter.toSIunit_v.sound {B : Prop} (u : UnitSystem) (ins : ℝ) :
    Sound B (UnitConverter.toSIunit_v FP.ideal u (.fin ins)) := by
  unfold UnitConverter.toSIunit_v
  sound_walk

@[sound] theorem UnitConverter.fromSIunit_v.sound {B : Prop} (u : UnitSystem) (ins : ℝ) :
    Sound B (UnitConverter.fromSIunit_v FP.ideal u (.fin ins)) := by
  unfold UnitConverter.fromSIunit_v
  sound_walk

@[sound] theorem UnitConverter.toSIunit_s.sound {B : Prop} (u : UnitSystem) (ins : ℝ) :
    Sound B (UnitConverter.toSIunit_s FP.ideal u (.fin ins)) := by
  unfold UnitConverter.toSIunit_s
  sound_walk

@[sound] theorem UnitConverter.fromSIunit_s.sound {B : Prop} (u : UnitSystem) (ins : ℝ) :
    Sound B (UnitConverter.fromSIunit_s FP.ideal u (.fin ins)) := by
  unfold UnitConverter.fromSIunit_s
  sound_walk

@[sound] theorem UnitConverter.toSIunit_u.sound {B : Prop} (u : UnitSystem) (ins : ℝ) :
    Sound B (UnitConverter.toSIunit_u FP.ideal u (.fin ins)) := by
  unfold UnitConverter.toSIunit_u
  sound_walk

@[sound] theorem UnitConverter.fromSIunit_u.sound {B : Prop} (u : UnitSystem) (ins : ℝ) :
    Sound B (UnitConverter.fromSIunit_u FP.ideal u (.fin ins)) := by
  unfold UnitConverter.fromSIunit_u
  sound_walk

@[sound] theorem UnitConverter.toSIunit_Cp.sound {B : Prop} (u : UnitSystem) (ins : ℝ) :
    Sound B (UnitConverter.toSIunit_Cp FP.ideal u (.fin ins)) := by
  unfold UnitConverter.toSIunit_Cp
  sound_walk

@[sound] theorem UnitConverter.fromSIunit_Cp.sound {B : Prop} (u : UnitSystem) (ins : ℝ) :
    Sound B (UnitConverter.fromSIunit_Cp FP.ideal u (.fin ins)) := by
  unfold UnitConverter.fromSIunit_Cp
  sound_walk

@[sound] theorem UnitConverter.toSIunit_Cv.sound {B : Prop} (u : UnitSystem) (ins : ℝ) :
    Sound B (UnitConverter.toSIunit_Cv FP.ideal u (.fin ins)) := by
  unfold UnitConverter.toSIunit_Cv
  sound_walk

@[sound] theorem UnitConverter.fromSIunit_Cv.sound {B : Prop} (u : UnitSystem) (ins : ℝ) :
    Sound B (UnitConverter.fromSIunit_Cv FP.ideal u (.fin ins)) := by
  unfold UnitConverter.fromSIunit_Cv
  sound_walk

@[sound] theorem UnitConverter.toSIunit_w.sound {B : Prop} (u : UnitSystem) (ins : ℝ) :
    Sound B (UnitConverter.toSIunit_w FP.ideal u (.fin ins)) := by
  unfold UnitConverter.toSIunit_w
  sound_walk

@[sound] theorem UnitConverter.fromSIunit_w.sound {B : Prop} (u : UnitSystem) (ins : ℝ) :
    Sound B (UnitConverter.fromSIunit_w FP.ideal u (.fin ins)) := by
  unfold UnitConverter.fromSIunit_w
  sound_walk

@[sound] theorem UnitConverter.toSIunit_tc.sound {B : Prop} (u : UnitSystem) (ins : ℝ) :
    Sound B (UnitConverter.toSIunit_tc FP.ideal u (.fin ins)) := by
  unfold UnitConverter.toSIunit_tc
  sound_walk

@[sound] theorem UnitConverter.fromSIunit_tc.sound {B : Prop} (u : UnitSystem) (ins : ℝ) :
    Sound B (UnitConverter.fromSIunit_tc FP.ideal u (.fin ins)) := by
  unfold UnitConverter.fromSIunit_tc
  sound_walk

@[sound] theorem UnitConverter.toSIunit_st.sound {B : Prop} (u : UnitSystem) (ins : ℝ) :
    Sound B (UnitConverter.toSIunit_st FP.ideal u (.fin ins)) := by
  unfold UnitConverter.toSIunit_st
  sound_walk

@[sound] theorem UnitConverter.fromSIunit_st.sound {B : Prop} (u : UnitSystem) (ins : ℝ) :
    Sound B (UnitConverter.fromSIunit_st FP.ideal u (.fin ins)) := by
  unfold UnitConverter.fromSIunit_st
  sound_walk

@[sound] theorem UnitConverter.toSIunit_x.sound {B : Prop} (u : UnitSystem) (ins : ℝ) :
    Sound B (UnitConverter.toSIunit_x FP.ideal u (.fin ins)) := by
  unfold UnitConverter.toSIunit_x
  sound_walk

@[sound] theorem UnitConverter.fromSIunit_x.sound {B : Prop} (u : UnitSystem) (ins : ℝ) :
    Sound B (UnitConverter.fromSIunit_x FP.ideal u (.fin ins)) := by
  unfold UnitConverter.fromSIunit_x
  sound_walk

@[sound] theorem UnitConverter.toSIunit_vx.sound {B : Prop} (u : UnitSystem) (ins : ℝ) :
    Sound B (UnitConverter.toSIunit_vx FP.ideal u (.fin ins)) := by
  unfold UnitConverter.toSIunit_vx
  sound_walk

@[sound] theorem UnitConverter.fromSIunit_vx.sound {B : Prop} (u : UnitSystem) (ins : ℝ) :
    Sound B (UnitConverter.fromSIunit_vx FP.ideal u (.fin ins)) := by
  unfold UnitConverter.fromSIunit_vx
  sound_walk

@[sound] theorem UnitConverter.toSIunit_my.sound {B : Prop} (u : UnitSystem) (ins : ℝ) :
    Sound B (UnitConverter.toSIunit_my FP.ideal u (.fin ins)) := by
  unfold UnitConverter.toSIunit_my
  sound_walk

@[sound] theorem UnitConverter.fromSIunit_my.sound {B : Prop} (u : UnitSystem) (ins : ℝ) :
    Sound B (UnitConverter.fromSIunit_my FP.ideal u (.fin ins)) := by
  unfold UnitConverter.fromSIunit_my
  sound_walk

@[sound] theorem RegionBorders.B23p_T.sound {B : Prop} (T : ℝ) :
    Sound B (RegionBorders.B23p_T FP.ideal (.fin T)) := by
  unfold RegionBorders.B23p_T
  sound_walk

@[sound] theorem RegionBorders.B23T_p.sound {B : Prop} (p : ℝ) :
    Sound B (RegionBorders.B23T_p FP.ideal (.fin p)) := by
  unfold RegionBorders.B23T_p
  sound_walk

@[sound] theorem RegionBorders.p3sat_h.sound {B : Prop} (h : ℝ) :
    Sound B (RegionBorders.p3sat_h FP.ideal (.fin h)) := by
  unfold RegionBorders.p3sat_h
  sound_walk

@[sound] theorem RegionBorders.p3sat_s.sound {B : Prop} (s : ℝ) :
    Sound B (RegionBorders.p3sat_s FP.ideal (.fin s)) := by
  unfold RegionBorders.p3sat_s
  sound_walk

@[sound] theorem RegionBorders.hB13_s.sound {B : Prop} (s : ℝ) :
    Sound B (RegionBorders.hB13_s FP.ideal (.fin s)) := by
  unfold RegionBorders.hB13_s
  sound_walk

@[sound] theorem RegionBorders.TB23_hs.sound {B : Prop} (h : ℝ) (s : ℝ) :
    Sound B (RegionBorders.TB23_hs FP.ideal (.fin h) (.fin s)) := by
  unfold RegionBorders.TB23_hs
  sound_walk

@[sound] theorem Region1.v1_pT.sound {B : Prop} (p : ℝ) (T : ℝ) :
    Sound B (Region1.v1_pT FP.ideal (.fin p) (.fin T)) := by
  unfold Region1.v1_pT
  sound_walk

@[sound] theorem Region1.h1_pT.sound {B : Prop} (p : ℝ) (T : ℝ) :
    Sound B (Region1.h1_pT FP.ideal (.fin p) (.fin T)) := by
  unfold Region1.h1_pT
  sound_walk

@[sound] theorem Region1.u1_pT.sound {B : Prop} (p : ℝ) (T : ℝ) :
    Sound B (Region1.u1_pT FP.ideal (.fin p) (.fin T)) := by
  unfold Region1.u1_pT
  sound_walk

@[sound] theorem Region1.s1_pT.sound {B : Prop} (p : ℝ) (T : ℝ) :
    Sound B (Region1.s1_pT FP.ideal (.fin p) (.fin T)) := by
  unfold Region1.s1_pT
  sound_walk

@[sound] theorem Region1.Cp1_pT.sound {B : Prop} (p : ℝ) (T : ℝ) :
    Sound B (Region1.Cp1_pT FP.ideal (.fin p) (.fin T)) := by
  unfold Region1.Cp1_pT
  sound_walk

@[sound] theorem Region1.Cv1_pT.sound {B : Prop} (p : ℝ) (T : ℝ) :
    Sound B (Region1.Cv1_pT FP.ideal (.fin p) (.fin T)) := by
  unfold Region1.Cv1_pT
  sound_walk

@[sound] theorem Region1.w1_pT.sound {B : Prop} (p : ℝ) (T : ℝ) :
    Sound B (Region1.w1_pT FP.ideal (.fin p) (.fin T)) := by
  unfold Region1.w1_pT
  sound_walk

@[sound] theorem Region1.T1_ph.sound {B : Prop} (p : ℝ) (h : ℝ) :
    Sound B (Region1.T1_ph FP.ideal (.fin p) (.fin h)) := by
  unfold Region1.T1_ph
  sound_walk

@[sound] theorem Region1.T1_ps.sound {B : Prop} (p : ℝ) (s : ℝ) :
    Sound B (Region1.T1_ps FP.ideal (.fin p) (.fin s)) := by
  unfold Region1.T1_ps
  sound_walk

@[sound] theorem Region1.p1_hs.sound {B : Prop} (h : ℝ) (s : ℝ) :
    Sound B (Region1.p1_hs FP.ideal (.fin h) (.fin s)) := by
  unfold Region1.p1_hs
  sound_walk

@[sound] theorem Region4.T4_p.sound {B : Prop} (p : ℝ) :
    Sound B (Region4.T4_p FP.ideal (.fin p)) := by
  unfold Region4.T4_p
  sound_walk

theorem Region1.T1_prho.pass.sound {B : Prop} (p : ℝ) (rho : ℝ) (a : Option Num) (b c d : ℝ) (ha : AllFin.ok a) :
    Sound B (Region1.T1_prho.pass FP.ideal (.fin p) (.fin rho) (a, .fin b, .fin c, .fin d)) := by
  unfold Region1.T1_prho.pass
  dsimp only
  sound_walk

@[sound] theorem Region1.T1_prho.sound {B : Prop} (p : ℝ) (rho : ℝ) :
    Sound B (Region1.T1_prho FP.ideal (.fin p) (.fin rho)) := by
  unfold Region1.T1_prho
  sound_walk
  all_goals first
    | (apply Region1.T1_prho.pass.sound; done)
    | (apply Region1.T1_prho.pass.sound; assumption)

@[sound] theorem Region2.v2_pT.sound {B : Prop} (p : ℝ) (T : ℝ) :
    Sound B (Region2.v2_pT FP.ideal (.fin p) (.fin T)) := by
  unfold Region2.v2_pT
  sound_walk

@[sound] theorem Region2.h2_pT.sound {B : Prop} (p : ℝ) (T : ℝ) :
    Sound B (Region2.h2_pT FP.ideal (.fin p) (.fin T)) := by
  unfold Region2.h2_pT
  sound_walk

@[sound] theorem Region2.u2_pT.sound {B : Prop} (p : ℝ) (T : ℝ) :
    Sound B (Region2.u2_pT FP.ideal (.fin p) (.fin T)) := by
  unfold Region2.u2_pT
  sound_walk

@[sound] theorem Region2.s2_pT.sound {B : Prop} (p : ℝ) (T : ℝ) :
    Sound B (Region2.s2_pT FP.ideal (.fin p) (.fin T)) := by
  unfold Region2.s2_pT
  sound_walk

@[sound] theorem Region2.Cp2_pT.sound {B : Prop} (p : ℝ) (T : ℝ) :
    Sound B (Region2.Cp2_pT FP.ideal (.fin p) (.fin T)) := by
  unfold Region2.Cp2_pT
  sound_walk

@[sound] theorem Region2.Cv2_pT.sound {B : Prop} (p : ℝ) (T : ℝ) :
    Sound B (Region2.Cv2_pT FP.ideal (.fin p) (.fin T)) := by
  unfold Region2.Cv2_pT
  sound_walk

@[sound] theorem Region2.w2_pT.sound {B : Prop} (p : ℝ) (T : ℝ) :
    Sound B (Region2.w2_pT FP.ideal (.fin p) (.fin T)) := by
  unfold Region2.w2_pT
  sound_walk

@[sound] theorem Region2.T2_ph.sound {B : Prop} (p : ℝ) (h : ℝ) :
    Sound B (Region2.T2_ph FP.ideal (.fin p) (.fin h)) := by
  unfold Region2.T2_ph
  sound_walk

@[sound] theorem Region2.T2_ps.sound {B : Prop} (p : ℝ) (s : ℝ) :
    Sound B (Region2.T2_ps FP.ideal (.fin p) (.fin s)) := by
  unfold Region2.T2_ps
  sound_walk

@[sound] theorem Region2.p2_hs.sound {B : Prop} (h : ℝ) (s : ℝ) :
    Sound B (Region2.p2_hs FP.ideal (.fin h) (.fin s)) := by
  unfold Region2.p2_hs
  sound_walk

theorem Region2.T2_prho.pass.sound {B : Prop} (p : ℝ) (rho : ℝ) (a : Option Num) (b c d : ℝ) (ha : AllFin.ok a) :
    Sound B (Region2.T2_prho.pass FP.ideal (.fin p) (.fin rho) (a, .fin b, .fin c, .fin d)) := by
  unfold Region2.T2_prho.pass
  dsimp only
  sound_walk

@[sound] theorem Region2.T2_prho.sound {B : Prop} (p : ℝ) (rho : ℝ) :
    Sound B (Region2.T2_prho FP.ideal (.fin p) (.fin rho)) := by
  unfold Region2.T2_prho
  sound_walk
  all_goals first
    | (apply Region2.T2_prho.pass.sound; done)
    | (apply Region2.T2_prho.pass.sound; assumption)

@[sound] theorem Region3.p3_rhoT.sound {B : Prop} (rho : ℝ) (T : ℝ) :
    Sound B (Region3.p3_rhoT FP.ideal (.fin rho) (.fin T)) := by
  unfold Region3.p3_rhoT
  sound_walk

@[sound] theorem Region3.u3_rhoT.sound {B : Prop} (rho : ℝ) (T : ℝ) :
    Sound B (Region3.u3_rhoT FP.ideal (.fin rho) (.fin T)) := by
  unfold Region3.u3_rhoT
  sound_walk

@[sound] theorem Region3.h3_rhoT.sound {B : Prop} (rho : ℝ) (T : ℝ) :
    Sound B (Region3.h3_rhoT FP.ideal (.fin rho) (.fin T)) := by
  unfold Region3.h3_rhoT
  sound_walk

@[sound] theorem Region3.s3_rhoT.sound {B : Prop} (rho : ℝ) (T : ℝ) :
    Sound B (Region3.s3_rhoT FP.ideal (.fin rho) (.fin T)) := by
  unfold Region3.s3_rhoT
  sound_walk

@[sound] theorem Region3.Cp3_rhoT.sound {B : Prop} (rho : ℝ) (T : ℝ) :
    Sound B (Region3.Cp3_rhoT FP.ideal (.fin rho) (.fin T)) := by
  unfold Region3.Cp3_rhoT
  sound_walk

@[sound] theorem Region3.Cv3_rhoT.sound {B : Prop} (rho : ℝ) (T : ℝ) :
    Sound B (Region3.Cv3_rhoT FP.ideal (.fin rho) (.fin T)) := by
  unfold Region3.Cv3_rhoT
  sound_walk

@[sound] theorem Region3.w3_rhoT.sound {B : Prop} (rho : ℝ) (T : ℝ) :
    Sound B (Region3.w3_rhoT FP.ideal (.fin rho) (.fin T)) := by
  unfold Region3.w3_rhoT
  sound_walk

@[sound] theorem Region3.T3_ph.sound {B : Prop} (p : ℝ) (h : ℝ) :
    Sound B (Region3.T3_ph FP.ideal (.fin p) (.fin h)) := by
  unfold Region3.T3_ph
  sound_walk

@[sound] theorem Region3.v3_ph.sound {B : Prop} (p : ℝ) (h : ℝ) :
    Sound B (Region3.v3_ph FP.ideal (.fin p) (.fin h)) := by
  unfold Region3.v3_ph
  sound_walk

@[sound] theorem Region3.T3_ps.sound {B : Prop} (p : ℝ) (s : ℝ) :
    Sound B (Region3.T3_ps FP.ideal (.fin p) (.fin s)) := by
  unfold Region3.T3_ps
  sound_walk

@[sound] theorem Region3.v3_ps.sound {B : Prop} (p : ℝ) (s : ℝ) :
    Sound B (Region3.v3_ps FP.ideal (.fin p) (.fin s)) := by
  unfold Region3.v3_ps
  sound_walk

@[sound] theorem Region3.p3_hs.sound {B : Prop} (h : ℝ) (s : ℝ) :
    Sound B (Region3.p3_hs FP.ideal (.fin h) (.fin s)) := by
  unfold Region3.p3_hs
  sound_walk

theorem Region4.h4L_p.pass.sound {B : Prop} (p : ℝ) (a : Option Num) (b c d : ℝ) (ha : AllFin.ok a) :
    Sound B (Region4.h4L_p.pass FP.ideal (.fin p) (a, .fin b, .fin c, .fin d)) := by
  unfold Region4.h4L_p.pass
  dsimp only
  sound_walk

@[sound] theorem Region4.h4L_p.sound {B : Prop} (p : ℝ) :
    Sound B (Region4.h4L_p FP.ideal (.fin p)) := by
  unfold Region4.h4L_p
  sound_walk
  all_goals first
    | (apply Region4.h4L_p.pass.sound; done)
    | (apply Region4.h4L_p.pass.sound; assumption)

theorem Region4.h4V_p.pass.sound {B : Prop} (p : ℝ) (a : Option Num) (b c d : ℝ) (ha : AllFin.ok a) :
    Sound B (Region4.h4V_p.pass FP.ideal (.fin p) (a, .fin b, .fin c, .fin d)) := by
  unfold Region4.h4V_p.pass
  dsimp only
  sound_walk

@[sound] theorem Region4.h4V_p.sound {B : Prop} (p : ℝ) :
    Sound B (Region4.h4V_p FP.ideal (.fin p)) := by
  unfold Region4.h4V_p
  sound_walk
  all_goals first
    | (apply Region4.h4V_p.pass.sound; done)
    | (apply Region4.h4V_p.pass.sound; assumption)

theorem Region3.h3_pT.pass.sound {B : Prop} (T : ℝ) (p : ℝ) (a : Option Num) (b c d : ℝ) (ha : AllFin.ok a) :
    Sound B (Region3.h3_pT.pass FP.ideal (.fin T) (.fin p) (a, .fin b, .fin c, .fin d)) := by
  unfold Region3.h3_pT.pass
  dsimp only
  sound_walk

@[sound] theorem Region3.h3_pT.sound {B : Prop} (p : ℝ) (T : ℝ) :
    Sound B (Region3.h3_pT FP.ideal (.fin p) (.fin T)) := by
  unfold Region3.h3_pT
  sound_walk
  all_goals first
    | (apply Region3.h3_pT.pass.sound; done)
    | (apply Region3.h3_pT.pass.sound; assumption)

theorem Region3.T3_prho.pass.sound {B : Prop} (p : ℝ) (rho : ℝ) (a : Option Num) (b c d : ℝ) (ha : AllFin.ok a) :
    Sound B (Region3.T3_prho.pass FP.ideal (.fin p) (.fin rho) (a, .fin b, .fin c, .fin d)) := by
  unfold Region3.T3_prho.pass
  dsimp only
  sound_walk

@[sound] theorem Region3.T3_prho.sound {B : Prop} (p : ℝ) (rho : ℝ) :
    Sound B (Region3.T3_prho FP.ideal (.fin p) (.fin rho)) := by
  unfold Region3.T3_prho
  sound_walk
  all_goals first
    | (apply Region3.T3_prho.pass.sound; done)
    | (apply Region3.T3_prho.pass.sound; assumption)

@[sound] theorem Region4.p4_T.sound {B : Prop} (T : ℝ) :
    Sound B (Region4.p4_T FP.ideal (.fin T)) := by
  unfold Region4.p4_T
  sound_walk

@[sound] theorem Region4.h4_s.sound {B : Prop} (s : ℝ) :
    Sound B (Region4.h4_s FP.ideal (.fin s)) := by
  unfold Region4.h4_s
  sound_walk

@[sound] theorem Region4.p4_s.sound {B : Prop} (s : ℝ) :
    Sound B (Region4.p4_s FP.ideal (.fin s)) := by
  unfold Region4.p4_s
  sound_walk

@[sound] theorem Region4.x4_ph.sound {B : Prop} (p : ℝ) (h : ℝ) :
    Sound B (Region4.x4_ph FP.ideal (.fin p) (.fin h)) := by
  unfold Region4.x4_ph
  sound_walk

@[sound] theorem Region4.x4_ps.sound {B : Prop} (p : ℝ) (s : ℝ) :
    Sound B (Region4.x4_ps FP.ideal (.fin p) (.fin s)) := by
  unfold Region4.x4_ps
  sound_walk

theorem Region4.T4_hs.pass.sound {B : Prop} (h : ℝ) (a : Option Num) (b c d : ℝ) (ha : AllFin.ok a) :
    Sound B (Region4.T4_hs.pass FP.ideal (.fin h) (a, .fin b, .fin c, .fin d)) := by
  unfold Region4.T4_hs.pass
  dsimp only
  sound_walk

theorem Region4.T4_hs.pass2.sound {B : Prop} (h : ℝ) (s : ℝ) (a : Option Num) (b c d : ℝ) (ha : AllFin.ok a) :
    Sound B (Region4.T4_hs.pass2 FP.ideal (.fin h) (.fin s) (a, .fin b, .fin c, .fin d)) := by
  unfold Region4.T4_hs.pass2
  dsimp only
  sound_walk

@[sound] theorem Region4.T4_hs.sound {B : Prop} (h : ℝ) (s : ℝ) :
    Sound B (Region4.T4_hs FP.ideal (.fin h) (.fin s)) := by
  unfold Region4.T4_hs
  sound_walk
  all_goals first
    | (apply Region4.T4_hs.pass.sound; done)
    | (apply Region4.T4_hs.pass.sound; assumption)
    | (apply Region4.T4_hs.pass2.sound; done)
    | (apply Region4.T4_hs.pass2.sound; assumption)

@[sound] theorem Region5.h5_pT.sound {B : Prop} (p : ℝ) (T : ℝ) :
    Sound B (Region5.h5_pT FP.ideal (.fin p) (.fin T)) := by
  unfold Region5.h5_pT
  sound_walk

@[sound] theorem Region5.v5_pT.sound {B : Prop} (p : ℝ) (T : ℝ) :
    Sound B (Region5.v5_pT FP.ideal (.fin p) (.fin T)) := by
  unfold Region5.v5_pT
  sound_walk

@[sound] theorem Region5.u5_pT.sound {B : Prop} (p : ℝ) (T : ℝ) :
    Sound B (Region5.u5_pT FP.ideal (.fin p) (.fin T)) := by
  unfold Region5.u5_pT
  sound_walk

@[sound] theorem Region5.Cp5_pT.sound {B : Prop} (p : ℝ) (T : ℝ) :
    Sound B (Region5.Cp5_pT FP.ideal (.fin p) (.fin T)) := by
  unfold Region5.Cp5_pT
  sound_walk

@[sound] theorem Region5.s5_pT.sound {B : Prop} (p : ℝ) (T : ℝ) :
    Sound B (Region5.s5_pT FP.ideal (.fin p) (.fin T)) := by
  unfold Region5.s5_pT
  sound_walk

@[sound] theorem Region5.Cv5_pT.sound {B : Prop} (p : ℝ) (T : ℝ) :
    Sound B (Region5.Cv5_pT FP.ideal (.fin p) (.fin T)) := by
  unfold Region5.Cv5_pT
  sound_walk

@[sound] theorem Region5.w5_pT.sound {B : Prop} (p : ℝ) (T : ℝ) :
    Sound B (Region5.w5_pT FP.ideal (.fin p) (.fin T)) := by
  unfold Region5.w5_pT
  sound_walk

theorem Region5.T5_ph.pass.sound {B : Prop} (h : ℝ) (p : ℝ) (a : Option Num) (b c d : ℝ) (ha : AllFin.ok a) :
    Sound B (Region5.T5_ph.pass FP.ideal (.fin h) (.fin p) (a, .fin b, .fin c, .fin d)) := by
  unfold Region5.T5_ph.pass
  dsimp only
  sound_walk

@[sound] theorem Region5.T5_ph.sound {B : Prop} (p : ℝ) (h : ℝ) :
    Sound B (Region5.T5_ph FP.ideal (.fin p) (.fin h)) := by
  unfold Region5.T5_ph
  sound_walk
  all_goals first
    | (apply Region5.T5_ph.pass.sound; done)
    | (apply Region5.T5_ph.pass.sound; assumption)

theorem Region5.T5_ps.pass.sound {B : Prop} (p : ℝ) (s : ℝ) (a : Option Num) (b c d : ℝ) (ha : AllFin.ok a) :
    Sound B (Region5.T5_ps.pass FP.ideal (.fin p) (.fin s) (a, .fin b, .fin c, .fin d)) := by
  unfold Region5.T5_ps.pass
  dsimp only
  sound_walk

@[sound] theorem Region5.T5_ps.sound {B : Prop} (p : ℝ) (s : ℝ) :
    Sound B (Region5.T5_ps FP.ideal (.fin p) (.fin s)) := by
  unfold Region5.T5_ps
  sound_walk
  all_goals first
    | (apply Region5.T5_ps.pass.sound; done)
    | (apply Region5.T5_ps.pass.sound; assumption)

theorem Region5.T5_prho.pass.sound {B : Prop} (p : ℝ) (rho : ℝ) (a : Option Num) (b c d : ℝ) (ha : AllFin.ok a) :
    Sound B (Region5.T5_prho.pass FP.ideal (.fin p) (.fin rho) (a, .fin b, .fin c, .fin d)) := by
  unfold Region5.T5_prho.pass
  dsimp only
  sound_walk

@[sound] theorem Region5.T5_prho.sound {B : Prop} (p : ℝ) (rho : ℝ) :
    Sound B (Region5.T5_prho FP.ideal (.fin p) (.fin rho)) := by
  unfold Region5.T5_prho
  sound_walk
  all_goals first
    | (apply Region5.T5_prho.pass.sound; done)
    | (apply Region5.T5_prho.pass.sound; assumption)

@[sound] theorem IAPWS_R14.pmelt_T_iceIh.sound {B : Prop} (T : ℝ) :
    Sound B (IAPWS_R14.pmelt_T_iceIh FP.ideal (.fin T)) := by
  unfold IAPWS_R14.pmelt_T_iceIh
  sound_walk

@[sound] theorem IAPWS_R14.pmelt_T_iceIII.sound {B : Prop} (T : ℝ) :
    Sound B (IAPWS_R14.pmelt_T_iceIII FP.ideal (.fin T)) := by
  unfold IAPWS_R14.pmelt_T_iceIII
  sound_walk

@[sound] theorem IAPWS_R14.pmelt_T_iceV.sound {B : Prop} (T : ℝ) :
    Sound B (IAPWS_R14.pmelt_T_iceV FP.ideal (.fin T)) := by
  unfold IAPWS_R14.pmelt_T_iceV
  sound_walk

@[sound] theorem IAPWS_R14.pmelt_T_iceVI.sound {B : Prop} (T : ℝ) :
    Sound B (IAPWS_R14.pmelt_T_iceVI FP.ideal (.fin T)) := by
  unfold IAPWS_R14.pmelt_T_iceVI
  sound_walk

@[sound] theorem IAPWS_R14.pmelt_T_iceVII.sound {B : Prop} (T : ℝ) :
    Sound B (IAPWS_R14.pmelt_T_iceVII FP.ideal (.fin T)) := by
  unfold IAPWS_R14.pmelt_T_iceVII
  sound_walk

@[sound] theorem IAPWS_R14.psubl_T.sound {B : Prop} (T : ℝ) :
    Sound B (IAPWS_R14.psubl_T FP.ideal (.fin T)) := by
  unfold IAPWS_R14.psubl_T
  sound_walk

@[sound] theorem IAPWS_R4.myHW_rhoT_R4.sound {B : Prop} (rho : ℝ) (T : ℝ) :
    Sound B (IAPWS_R4.myHW_rhoT_R4 FP.ideal (.fin rho) (.fin T)) := by
  unfold IAPWS_R4.myHW_rhoT_R4
  sound_walk

@[sound] theorem IAPWS_R4.tcHW_rhoT_R4.sound {B : Prop} (rho : ℝ) (T : ℝ) :
    Sound B (IAPWS_R4.tcHW_rhoT_R4 FP.ideal (.fin rho) (.fin T)) := by
  unfold IAPWS_R4.tcHW_rhoT_R4
  sound_walk

@[sound] theorem TransportProperties.my_AllRegions_pT.rest.sound (p : ℝ) (T : ℝ) (rho : ℝ) :
    Sound True (TransportProperties.my_AllRegions_pT.rest FP.ideal (.fin p) (.fin T) (.fin rho)) := by
  unfold TransportProperties.my_AllRegions_pT.rest
  sound_walk

@[sound] theorem TransportProperties.my_AllRegions_pT.sound (p : ℝ) (T : ℝ) :
    Sound True (TransportProperties.my_AllRegions_pT FP.ideal (.fin p) (.fin T)) := by
  unfold TransportProperties.my_AllRegions_pT
  sound_walk

@[sound] theorem TransportProperties.my_AllRegions_ph.rest.sound (p : ℝ) (T : ℝ) (rho : ℝ) :
    Sound True (TransportProperties.my_AllRegions_ph.rest FP.ideal (.fin p) (.fin T) (.fin rho)) := by
  unfold TransportProperties.my_AllRegions_ph.rest
  sound_walk

@[sound] theorem TransportProperties.my_AllRegions_ph.sound (p : ℝ) (h : ℝ) :
    Sound True (TransportProperties.my_AllRegions_ph FP.ideal (.fin p) (.fin h)) := by
  unfold TransportProperties.my_AllRegions_ph
  sound_walk

@[sound] theorem TransportProperties.tc_ptrho.rest.sound (T : ℝ) (rho : ℝ) :
    Sound True (TransportProperties.tc_ptrho.rest FP.ideal (.fin T) (.fin rho)) := by
  unfold TransportProperties.tc_ptrho.rest
  sound_walk

@[sound] theorem TransportProperties.tc_ptrho.sound (p : ℝ) (T : ℝ) (rho : ℝ) :
    Sound True (TransportProperties.tc_ptrho FP.ideal (.fin p) (.fin T) (.fin rho)) := by
  unfold TransportProperties.tc_ptrho
  sound_walk

@[sound] theorem TransportProperties.Surface_Tension_T.sound (T : ℝ) :
    Sound True (TransportProperties.Surface_Tension_T FP.ideal (.fin T)) := by
  unfold TransportProperties.Surface_Tension_T
  sound_walk

@[sound] theorem XSteam.specificGasConstant.sound (u : UnitSystem) :
    Sound True (XSteam.specificGasConstant FP.ideal u) := by
  unfold XSteam.specificGasConstant
  sound_walk

@[sound] theorem XSteam.criticalTemperatur.sound (u : UnitSystem) :
    Sound True (XSteam.criticalTemperatur FP.ideal u) := by
  unfold XSteam.criticalTemperatur
  sound_walk

@[sound] theorem XSteam.criticalPressure.sound (u : UnitSystem) :
    Sound True (XSteam.criticalPressure FP.ideal u) := by
  unfold XSteam.criticalPressure
  sound_walk

@[sound] theorem XSteam.criticalDensity.sound (u : UnitSystem) :
    Sound True (XSteam.criticalDensity FP.ideal u) := by
  unfold XSteam.criticalDensity
  sound_walk

@[sound] theorem XSteam.triplePointTemperatur.sound (u : UnitSystem) :
    Sound True (XSteam.triplePointTemperatur FP.ideal u) := by
  unfold XSteam.triplePointTemperatur
  sound_walk

@[sound] theorem XSteam.triplePointPressure.sound (u : UnitSystem) :
    Sound True (XSteam.triplePointPressure FP.ideal u) := by
  unfold XSteam.triplePointPressure
  sound_walk

@[sound] theorem XSteam.zeroPointTemperature.sound (u : UnitSystem) :
    Sound True (XSteam.zeroPointTemperature FP.ideal u) := by
  unfold XSteam.zeroPointTemperature
  sound_walk

@[sound] theorem XSteam.tsat_p.sound (u : UnitSystem) (p : ℝ) :
    Sound True (XSteam.tsat_p FP.ideal u (.fin p)) := by
  unfold XSteam.tsat_p
  sound_walk

@[sound] theorem XSteam.tsat_s.sound (u : UnitSystem) (s : ℝ) :
    Sound True (XSteam.tsat_s FP.ideal u (.fin s)) := by
  unfold XSteam.tsat_s
  sound_walk

@[sound] theorem XSteam.t_ph.sound (u : UnitSystem) (p : ℝ) (h : ℝ) :
    Sound True (XSteam.t_ph FP.ideal u (.fin p) (.fin h)) := by
  unfold XSteam.t_ph
  sound_walk

@[sound] theorem XSteam.t_ps.sound (u : UnitSystem) (p : ℝ) (s : ℝ) :
    Sound True (XSteam.t_ps FP.ideal u (.fin p) (.fin s)) := by
  unfold XSteam.t_ps
  sound_walk

@[sound] theorem XSteam.t_hs.sound (u : UnitSystem) (h : ℝ) (s : ℝ) :
    Sound True (XSteam.t_hs FP.ideal u (.fin h) (.fin s)) := by
  unfold XSteam.t_hs
  sound_walk

@[sound] theorem XSteam.psat_s.sound (u : UnitSystem) (s : ℝ) :
    Sound True (XSteam.psat_s FP.ideal u (.fin s)) := by
  unfold XSteam.psat_s
  sound_walk

@[sound] theorem XSteam.psat_t.sound (u : UnitSystem) (t : ℝ) :
    Sound True (XSteam.psat_t FP.ideal u (.fin t)) := by
  unfold XSteam.psat_t
  sound_walk

@[sound] theorem XSteam.p_hs.sound (u : UnitSystem) (h : ℝ) (s : ℝ) :
    Sound True (XSteam.p_hs FP.ideal u (.fin h) (.fin s)) := by
  unfold XSteam.p_hs
  sound_walk

@[sound] theorem XSteam.v_ph.sound (u : UnitSystem) (p : ℝ) (h : ℝ) :
    Sound True (XSteam.v_ph FP.ideal u (.fin p) (.fin h)) := by
  unfold XSteam.v_ph
  sound_walk

theorem XSteam.p_hrho.pass.sound (u : UnitSystem) (h : ℝ) (rho : ℝ) (a b c d : ℝ) :
    Sound True (XSteam.p_hrho.pass FP.ideal u (.fin h) (.fin rho) (.fin a, .fin b, .fin c, .fin d)) := by
  unfold XSteam.p_hrho.pass
  dsimp only
  sound_walk

@[sound] theorem XSteam.p_hrho.sound (u : UnitSystem) (h : ℝ) (rho : ℝ) :
    Sound True (XSteam.p_hrho FP.ideal u (.fin h) (.fin rho)) := by
  unfold XSteam.p_hrho
  sound_walk
  all_goals first
    | (apply XSteam.p_hrho.pass.sound; done)
    | (apply XSteam.p_hrho.pass.sound; assumption)

@[sound] theorem XSteam.hV_p.sound (u : UnitSystem) (p : ℝ) :
    Sound True (XSteam.hV_p FP.ideal u (.fin p)) := by
  unfold XSteam.hV_p
  sound_walk

@[sound] theorem XSteam.hL_p.sound (u : UnitSystem) (p : ℝ) :
    Sound True (XSteam.hL_p FP.ideal u (.fin p)) := by
  unfold XSteam.hL_p
  sound_walk

@[sound] theorem XSteam.hV_t.sound (u : UnitSystem) (t : ℝ) :
    Sound True (XSteam.hV_t FP.ideal u (.fin t)) := by
  unfold XSteam.hV_t
  sound_walk

@[sound] theorem XSteam.hL_t.sound (u : UnitSystem) (t : ℝ) :
    Sound True (XSteam.hL_t FP.ideal u (.fin t)) := by
  unfold XSteam.hL_t
  sound_walk

@[sound] theorem XSteam.h_pt.sound (u : UnitSystem) (p : ℝ) (t : ℝ) :
    Sound True (XSteam.h_pt FP.ideal u (.fin p) (.fin t)) := by
  unfold XSteam.h_pt
  sound_walk

@[sound] theorem XSteam.h_ps.sound (u : UnitSystem) (p : ℝ) (s : ℝ) :
    Sound True (XSteam.h_ps FP.ideal u (.fin p) (.fin s)) := by
  unfold XSteam.h_ps
  sound_walk

@[sound] theorem XSteam.h_px.sound (u : UnitSystem) (p : ℝ) (x : ℝ) :
    Sound True (XSteam.h_px FP.ideal u (.fin p) (.fin x)) := by
  unfold XSteam.h_px
  sound_walk

@[sound] theorem XSteam.h_prho.sound (u : UnitSystem) (p : ℝ) (rho : ℝ) :
    Sound True (XSteam.h_prho FP.ideal u (.fin p) (.fin rho)) := by
  unfold XSteam.h_prho
  sound_walk

@[sound] theorem XSteam.h_tx.sound (u : UnitSystem) (t : ℝ) (x : ℝ) :
    Sound True (XSteam.h_tx FP.ideal u (.fin t) (.fin x)) := by
  unfold XSteam.h_tx
  sound_walk

@[sound] theorem XSteam.vV_p.sound (u : UnitSystem) (p : ℝ) :
    Sound True (XSteam.vV_p FP.ideal u (.fin p)) := by
  unfold XSteam.vV_p
  sound_walk

@[sound] theorem XSteam.vL_p.sound (u : UnitSystem) (p : ℝ) :
    Sound True (XSteam.vL_p FP.ideal u (.fin p)) := by
  unfold XSteam.vL_p
  sound_walk

@[sound] theorem XSteam.vV_t.sound (u : UnitSystem) (t : ℝ) :
    Sound True (XSteam.vV_t FP.ideal u (.fin t)) := by
  unfold XSteam.vV_t
  sound_walk

@[sound] theorem XSteam.vL_t.sound (u : UnitSystem) (t : ℝ) :
    Sound True (XSteam.vL_t FP.ideal u (.fin t)) := by
  unfold XSteam.vL_t
  sound_walk

@[sound] theorem XSteam.v_pt.sound (u : UnitSystem) (p : ℝ) (t : ℝ) :
    Sound True (XSteam.v_pt FP.ideal u (.fin p) (.fin t)) := by
  unfold XSteam.v_pt
  sound_walk

@[sound] theorem XSteam.v_ps.sound (u : UnitSystem) (p : ℝ) (s : ℝ) :
    Sound True (XSteam.v_ps FP.ideal u (.fin p) (.fin s)) := by
  unfold XSteam.v_ps
  sound_walk

@[sound] theorem XSteam.rhoV_p.sound (u : UnitSystem) (p : ℝ) :
    Sound True (XSteam.rhoV_p FP.ideal u (.fin p)) := by
  unfold XSteam.rhoV_p
  sound_walk

@[sound] theorem XSteam.rhoL_p.sound (u : UnitSystem) (p : ℝ) :
    Sound True (XSteam.rhoL_p FP.ideal u (.fin p)) := by
  unfold XSteam.rhoL_p
  sound_walk

@[sound] theorem XSteam.rhoV_t.sound (u : UnitSystem) (t : ℝ) :
    Sound True (XSteam.rhoV_t FP.ideal u (.fin t)) := by
  unfold XSteam.rhoV_t
  sound_walk

@[sound] theorem XSteam.rhoL_t.sound (u : UnitSystem) (t : ℝ) :
    Sound True (XSteam.rhoL_t FP.ideal u (.fin t)) := by
  unfold XSteam.rhoL_t
  sound_walk

@[sound] theorem XSteam.rho_pt.sound (u : UnitSystem) (p : ℝ) (t : ℝ) :
    Sound True (XSteam.rho_pt FP.ideal u (.fin p) (.fin t)) := by
  unfold XSteam.rho_pt
  sound_walk

@[sound] theorem XSteam.rho_ph.sound (u : UnitSystem) (p : ℝ) (h : ℝ) :
    Sound True (XSteam.rho_ph FP.ideal u (.fin p) (.fin h)) := by
  unfold XSteam.rho_ph
  sound_walk

@[sound] theorem XSteam.rho_ps.sound (u : UnitSystem) (p : ℝ) (s : ℝ) :
    Sound True (XSteam.rho_ps FP.ideal u (.fin p) (.fin s)) := by
  unfold XSteam.rho_ps
  sound_walk

@[sound] theorem XSteam.sV_p.sound (u : UnitSystem) (p : ℝ) :
    Sound True (XSteam.sV_p FP.ideal u (.fin p)) := by
  unfold XSteam.sV_p
  sound_walk

@[sound] theorem XSteam.sL_p.sound (u : UnitSystem) (p : ℝ) :
    Sound True (XSteam.sL_p FP.ideal u (.fin p)) := by
  unfold XSteam.sL_p
  sound_walk

@[sound] theorem XSteam.sV_t.sound (u : UnitSystem) (t : ℝ) :
    Sound True (XSteam.sV_t FP.ideal u (.fin t)) := by
  unfold XSteam.sV_t
  sound_walk

@[sound] theorem XSteam.sL_t.sound (u : UnitSystem) (t : ℝ) :
    Sound True (XSteam.sL_t FP.ideal u (.fin t)) := by
  unfold XSteam.sL_t
  sound_walk

@[sound] theorem XSteam.s_pt.sound (u : UnitSystem) (p : ℝ) (t : ℝ) :
    Sound True (XSteam.s_pt FP.ideal u (.fin p) (.fin t)) := by
  unfold XSteam.s_pt
  sound_walk

@[sound] theorem XSteam.s_ph.sound (u : UnitSystem) (p : ℝ) (h : ℝ) :
    Sound True (XSteam.s_ph FP.ideal u (.fin p) (.fin h)) := by
  unfold XSteam.s_ph
  sound_walk

@[sound] theorem XSteam.uL_p.sound (u : UnitSystem) (p : ℝ) :
    Sound True (XSteam.uL_p FP.ideal u (.fin p)) := by
  unfold XSteam.uL_p
  sound_walk

@[sound] theorem XSteam.uV_t.sound (u : UnitSystem) (t : ℝ) :
    Sound True (XSteam.uV_t FP.ideal u (.fin t)) := by
  unfold XSteam.uV_t
  sound_walk

@[sound] theorem XSteam.uL_t.sound (u : UnitSystem) (t : ℝ) :
    Sound True (XSteam.uL_t FP.ideal u (.fin t)) := by
  unfold XSteam.uL_t
  sound_walk

@[sound] theorem XSteam.u_pt.sound (u : UnitSystem) (p : ℝ) (t : ℝ) :
    Sound True (XSteam.u_pt FP.ideal u (.fin p) (.fin t)) := by
  unfold XSteam.u_pt
  sound_walk

@[sound] theorem XSteam.u_ph.sound (u : UnitSystem) (p : ℝ) (h : ℝ) :
    Sound True (XSteam.u_ph FP.ideal u (.fin p) (.fin h)) := by
  unfold XSteam.u_ph
  sound_walk

@[sound] theorem XSteam.u_ps.sound (u : UnitSystem) (p : ℝ) (s : ℝ) :
    Sound True (XSteam.u_ps FP.ideal u (.fin p) (.fin s)) := by
  unfold XSteam.u_ps
  sound_walk

@[sound] theorem XSteam.CpV_p.sound (u : UnitSystem) (p : ℝ) :
    Sound True (XSteam.CpV_p FP.ideal u (.fin p)) := by
  unfold XSteam.CpV_p
  sound_walk

@[sound] theorem XSteam.CpL_p.sound (u : UnitSystem) (p : ℝ) :
    Sound True (XSteam.CpL_p FP.ideal u (.fin p)) := by
  unfold XSteam.CpL_p
  sound_walk

@[sound] theorem XSteam.CpV_t.sound (u : UnitSystem) (t : ℝ) :
    Sound True (XSteam.CpV_t FP.ideal u (.fin t)) := by
  unfold XSteam.CpV_t
  sound_walk

@[sound] theorem XSteam.CpL_t.sound (u : UnitSystem) (t : ℝ) :
    Sound True (XSteam.CpL_t FP.ideal u (.fin t)) := by
  unfold XSteam.CpL_t
  sound_walk

@[sound] theorem XSteam.Cp_pt.sound (u : UnitSystem) (p : ℝ) (t : ℝ) :
    Sound True (XSteam.Cp_pt FP.ideal u (.fin p) (.fin t)) := by
  unfold XSteam.Cp_pt
  sound_walk

@[sound] theorem XSteam.Cp_ph.sound (u : UnitSystem) (p : ℝ) (h : ℝ) :
    Sound True (XSteam.Cp_ph FP.ideal u (.fin p) (.fin h)) := by
  unfold XSteam.Cp_ph
  sound_walk

@[sound] theorem XSteam.Cp_ps.sound (u : UnitSystem) (p : ℝ) (s : ℝ) :
    Sound True (XSteam.Cp_ps FP.ideal u (.fin p) (.fin s)) := by
  unfold XSteam.Cp_ps
  sound_walk

@[sound] theorem XSteam.CvV_p.sound (u : UnitSystem) (p : ℝ) :
    Sound True (XSteam.CvV_p FP.ideal u (.fin p)) := by
  unfold XSteam.CvV_p
  sound_walk

@[sound] theorem XSteam.CvL_p.sound (u : UnitSystem) (p : ℝ) :
    Sound True (XSteam.CvL_p FP.ideal u (.fin p)) := by
  unfold XSteam.CvL_p
  sound_walk

@[sound] theorem XSteam.CvV_t.sound (u : UnitSystem) (t : ℝ) :
    Sound True (XSteam.CvV_t FP.ideal u (.fin t)) := by
  unfold XSteam.CvV_t
  sound_walk

@[sound] theorem XSteam.CvL_t.sound (u : UnitSystem) (t : ℝ) :
    Sound True (XSteam.CvL_t FP.ideal u (.fin t)) := by
  unfold XSteam.CvL_t
  sound_walk

@[sound] theorem XSteam.Cv_pt.sound (u : UnitSystem) (p : ℝ) (t : ℝ) :
    Sound True (XSteam.Cv_pt FP.ideal u (.fin p) (.fin t)) := by
  unfold XSteam.Cv_pt
  sound_walk

@[sound] theorem XSteam.Cv_ph.sound (u : UnitSystem) (p : ℝ) (h : ℝ) :
    Sound True (XSteam.Cv_ph FP.ideal u (.fin p) (.fin h)) := by
  unfold XSteam.Cv_ph
  sound_walk

@[sound] theorem XSteam.Cv_ps.sound (u : UnitSystem) (p : ℝ) (s : ℝ) :
    Sound True (XSteam.Cv_ps FP.ideal u (.fin p) (.fin s)) := by
  unfold XSteam.Cv_ps
  sound_walk

@[sound] theorem XSteam.wV_p.sound (u : UnitSystem) (p : ℝ) :
    Sound True (XSteam.wV_p FP.ideal u (.fin p)) := by
  unfold XSteam.wV_p
  sound_walk

@[sound] theorem XSteam.wL_p.sound (u : UnitSystem) (p : ℝ) :
    Sound True (XSteam.wL_p FP.ideal u (.fin p)) := by
  unfold XSteam.wL_p
  sound_walk

@[sound] theorem XSteam.wV_t.sound (u : UnitSystem) (t : ℝ) :
    Sound True (XSteam.wV_t FP.ideal u (.fin t)) := by
  unfold XSteam.wV_t
  sound_walk

@[sound] theorem XSteam.wL_t.sound (u : UnitSystem) (t : ℝ) :
    Sound True (XSteam.wL_t FP.ideal u (.fin t)) := by
  unfold XSteam.wL_t
  sound_walk

@[sound] theorem XSteam.w_pt.sound (u : UnitSystem) (p : ℝ) (t : ℝ) :
    Sound True (XSteam.w_pt FP.ideal u (.fin p) (.fin t)) := by
  unfold XSteam.w_pt
  sound_walk

@[sound] theorem XSteam.w_ph.sound (u : UnitSystem) (p : ℝ) (h : ℝ) :
    Sound True (XSteam.w_ph FP.ideal u (.fin p) (.fin h)) := by
  unfold XSteam.w_ph
  sound_walk

@[sound] theorem XSteam.w_ps.sound (u : UnitSystem) (p : ℝ) (s : ℝ) :
    Sound True (XSteam.w_ps FP.ideal u (.fin p) (.fin s)) := by
  unfold XSteam.w_ps
  sound_walk

@[sound] theorem XSteam.my_pt.sound (u : UnitSystem) (p : ℝ) (t : ℝ) :
    Sound True (XSteam.my_pt FP.ideal u (.fin p) (.fin t)) := by
  unfold XSteam.my_pt
  sound_walk

@[sound] theorem XSteam.my_ph.sound (u : UnitSystem) (p : ℝ) (h : ℝ) :
    Sound True (XSteam.my_ph FP.ideal u (.fin p) (.fin h)) := by
  unfold XSteam.my_ph
  sound_walk

@[sound] theorem XSteam.my_ps.sound (u : UnitSystem) (p : ℝ) (s : ℝ) :
    Sound True (XSteam.my_ps FP.ideal u (.fin p) (.fin s)) := by
  unfold XSteam.my_ps
  sound_walk

@[sound] theorem XSteam.tc_pt.sound (u : UnitSystem) (p : ℝ) (t : ℝ) :
    Sound True (XSteam.tc_pt FP.ideal u (.fin p) (.fin t)) := by
  unfold XSteam.tc_pt
  sound_walk

@[sound] theorem XSteam.pr_pt.sound (u : UnitSystem) (p : ℝ) (t : ℝ) :
    Sound True (XSteam.pr_pt FP.ideal u (.fin p) (.fin t)) := by
  unfold XSteam.pr_pt
  sound_walk

@[sound] theorem XSteam.tc_ph.sound (u : UnitSystem) (p : ℝ) (h : ℝ) :
    Sound True (XSteam.tc_ph FP.ideal u (.fin p) (.fin h)) := by
  unfold XSteam.tc_ph
  sound_walk

@[sound] theorem XSteam.pr_ph.sound (u : UnitSystem) (p : ℝ) (h : ℝ) :
    Sound True (XSteam.pr_ph FP.ideal u (.fin p) (.fin h)) := by
  unfold XSteam.pr_ph
  sound_walk

@[sound] theorem XSteam.st_t.sound (u : UnitSystem) (t : ℝ) :
    Sound True (XSteam.st_t FP.ideal u (.fin t)) := by
  unfold XSteam.st_t
  sound_walk

@[sound] theorem XSteam.st_p.sound (u : UnitSystem) (p : ℝ) :
    Sound True (XSteam.st_p FP.ideal u (.fin p)) := by
  unfold XSteam.st_p
  sound_walk

@[sound] theorem XSteam.tcL_p.sound (u : UnitSystem) (p : ℝ) :
    Sound True (XSteam.tcL_p FP.ideal u (.fin p)) := by
  unfold XSteam.tcL_p
  sound_walk

@[sound] theorem XSteam.tcV_p.sound (u : UnitSystem) (p : ℝ) :
    Sound True (XSteam.tcV_p FP.ideal u (.fin p)) := by
  unfold XSteam.tcV_p
  sound_walk

@[sound] theorem XSteam.tcL_t.sound (u : UnitSystem) (t : ℝ) :
    Sound True (XSteam.tcL_t FP.ideal u (.fin t)) := by
  unfold XSteam.tcL_t
  sound_walk

@[sound] theorem XSteam.tcV_t.sound (u : UnitSystem) (t : ℝ) :
    Sound True (XSteam.tcV_t FP.ideal u (.fin t)) := by
  unfold XSteam.tcV_t
  sound_walk

@[sound] theorem XSteam.tc_hs.sound (u : UnitSystem) (h : ℝ) (s : ℝ) :
    Sound True (XSteam.tc_hs FP.ideal u (.fin h) (.fin s)) := by
  unfold XSteam.tc_hs
  sound_walk

@[sound] theorem XSteam.x_ph.sound (u : UnitSystem) (p : ℝ) (h : ℝ) :
    Sound True (XSteam.x_ph FP.ideal u (.fin p) (.fin h)) := by
  unfold XSteam.x_ph
  sound_walk

@[sound] theorem XSteam.x_ps.sound (u : UnitSystem) (p : ℝ) (s : ℝ) :
    Sound True (XSteam.x_ps FP.ideal u (.fin p) (.fin s)) := by
  unfold XSteam.x_ps
  sound_walk

@[sound] theorem XSteam.vx_ph.sound (u : UnitSystem) (p : ℝ) (h : ℝ) :
    Sound True (XSteam.vx_ph FP.ideal u (.fin p) (.fin h)) := by
  unfold XSteam.vx_ph
  sound_walk

@[sound] theorem XSteam.vx_ps.sound (u : UnitSystem) (p : ℝ) (s : ℝ) :
    Sound True (XSteam.vx_ps FP.ideal u (.fin p) (.fin s)) := by
  unfold XSteam.vx_ps
  sound_walk

@[sound] theorem XSteam.pmelt_t.sound (u : UnitSystem) (t : ℝ) (hint : PyVal) :
    Sound True (XSteam.pmelt_t FP.ideal u (.fin t) hint) := by
  unfold XSteam.pmelt_t
  sound_walk

@[sound] theorem XSteam.psubl_t.sound (u : UnitSystem) (t : ℝ) :
    Sound True (XSteam.psubl_t FP.ideal u (.fin t)) := by
  unfold XSteam.psubl_t
  sound_walk

@[sound] theorem XSteam_HW.criticalTemperatur.sound (u : UnitSystem) :
    Sound True (XSteam_HW.criticalTemperatur FP.ideal u) := by
  unfold XSteam_HW.criticalTemperatur
  sound_walk

@[sound] theorem XSteam_HW.criticalPressure.sound (u : UnitSystem) :
    Sound True (XSteam_HW.criticalPressure FP.ideal u) := by
  unfold XSteam_HW.criticalPressure
  sound_walk

@[sound] theorem XSteam_HW.criticalDensity.sound (u : UnitSystem) :
    Sound True (XSteam_HW.criticalDensity FP.ideal u) := by
  unfold XSteam_HW.criticalDensity
  sound_walk

@[sound] theorem XSteam_HW.my_rhoT.sound (u : UnitSystem) (rho : ℝ) (T : ℝ) :
    Sound True (XSteam_HW.my_rhoT FP.ideal u (.fin rho) (.fin T)) := by
  unfold XSteam_HW.my_rhoT
  sound_walk

@[sound] theorem XSteam_HW.tc_rhoT.sound (u : UnitSystem) (rho : ℝ) (T : ℝ) :
    Sound True (XSteam_HW.tc_rhoT FP.ideal u (.fin rho) (.fin T)) := by
  unfold XSteam_HW.tc_rhoT
  sound_walk

end PyX
