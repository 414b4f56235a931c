import Verif.Model.Calls
import Verif.Spec.Binary

/-!
# C25, C36: no `IndexError`, and every loop ends
-/

namespace PyX

open Classical Py

set_option linter.unusedSectionVars false
set_option linter.unusedSimpArgs false

/-- `D` may be concluded when the arithmetic is not finite-precision -/
class DivOK (F : FP) (D : Prop) : Prop where
  out : ¬ F.Grid → D

attribute [clean] Clean.ret Clean.warn Clean.logError Clean.logDebug Clean.logInfo Clean.getVar
  Clean.div Clean.pow Clean.exp Clean.log Clean.sqrt

/-- walk over all paths -/
macro "clean_walk" : tactic => `(tactic|
  repeat' (with_reducible first
    | apply Clean.ret
    | apply Clean.ite
    | (refine Clean.bind ?_ (fun _ => ?_))
    | (simp only [clean]; done)
    | (refine Clean.forRange (fun _ _ _ => ?_))
    | exact Clean.idx (lt_of_lt_of_eq (by assumption) (by with_unfolding_all rfl))
    | exact Clean.idx (by with_unfolding_all decide)
    | exact Clean.raise (by decide)
    | split))

variable (F : FP) (D : Prop) [DivOK F D]


omit [DivOK F D] in
/-- use what is known about the value of a run -/
theorem Clean.bind_post {α β : Type} {x : Py α} {f : α → Py β} {Q : α → Prop}
    (hx : Post x (fun _ a => Q a) (· ≠ .index) D) (h : ∀ a, Q a → Clean D (f a)) :
    Clean D (x >>= f) := by
  apply Post.bind
  exact hx.mono (fun _ a ha => (h a ha).mono (fun _ _ _ => trivial) (fun _ h => h) id)
    (fun _ h => h) id

macro "clean_leaf" : tactic => `(tactic| (simp only [clean]; done))

/-- a run whose value, if any, is a float of `F` -/
def Flt (x : Py Num) : Prop := Post x (fun _ r => F.IsFloat r) (fun _ => True) True

omit [DivOK F D] in
theorem Flt.bind {x : Py Num} {f : Num → Py Num} (h : ∀ a, Flt F (f a)) : Flt F (x >>= f) := by
  apply Post.bind
  exact Post.any (fun _ a => h a) (fun _ => trivial) trivial

theorem Flt.add {F : FP} (hF : F.Grid) (a b : Num) : Flt F (pure (F.add a b)) :=
  Post.ret (hF.add_isFloat _ _)
theorem Flt.mul {F : FP} (hF : F.Grid) (a b : Num) : Flt F (pure (F.mul a b)) :=
  Post.ret (hF.mul_isFloat _ _)
theorem Flt.div {F : FP} (hF : F.Grid) (a b : Num) : Flt F (F.div a b) := hF.div_isFloat _ _

macro "flt_walk" hF:ident : tactic => `(tactic|
  repeat' (with_reducible first
    | exact Flt.add $hF _ _
    | exact Flt.mul $hF _ _
    | exact Flt.div $hF _ _
    | (refine Flt.bind _ (fun _ => ?_))))

theorem Region4.T4_p.flt {F : FP} (hF : F.Grid) (p : Num) : Flt F (Region4.T4_p F p) := by
  unfold Region4.T4_p; flt_walk hF

theorem RegionBorders.B23T_p.flt {F : FP} (hF : F.Grid) (p : Num) :
    Flt F (RegionBorders.B23T_p F p) := by
  unfold RegionBorders.B23T_p; flt_walk hF

theorem RegionBorders.p3sat_h.flt {F : FP} (hF : F.Grid) (h : Num) :
    Flt F (RegionBorders.p3sat_h F h) := by
  unfold RegionBorders.p3sat_h; flt_walk hF

theorem Region1.h1_pT.flt {F : FP} (hF : F.Grid) (p T : Num) : Flt F (Region1.h1_pT F p T) := by
  unfold Region1.h1_pT; flt_walk hF

theorem Region2.h2_pT.flt {F : FP} (hF : F.Grid) (p T : Num) : Flt F (Region2.h2_pT F p T) := by
  unfold Region2.h2_pT; flt_walk hF

omit [DivOK F D] in
/-- use that the value of a run is a float -/
theorem Clean.bind_flt {α : Type} {x : Py Num} {f : Num → Py α} (hx : Clean D x) (hf : Flt F x)
    (h : ∀ a, F.IsFloat a → Clean D (f a)) : Clean D (x >>= f) := by
  apply Post.bind
  rcases x with ⟨l, o⟩
  cases o with
  | ok a => exact (h a hf).mono (fun _ _ _ => trivial) (fun _ h => h) id
  | raise e => exact hx
  | diverge => exact hx

@[clean] theorem UnitConverter.toSIunit_p.clean (u : UnitSystem) (ins : Num) : Clean D (UnitConverter.toSIunit_p F u ins) := by
  unfold UnitConverter.toSIunit_p
  clean_walk

@[clean] theorem UnitConverter.fromSIunit_p.clean (u : UnitSystem) (ins : Num) : Clean D (UnitConverter.fromSIunit_p F u ins) := by
  unfold UnitConverter.fromSIunit_p
  clean_walk

@[clean] theorem UnitConverter.toSIunit_T.clean (u : UnitSystem) (ins : Num) : Clean D (UnitConverter.toSIunit_T F u ins) := by
  unfold UnitConverter.toSIunit_T
  clean_walk

@[clean] theorem UnitConverter.fromSIunit_T.clean (u : UnitSystem) (ins : Num) : Clean D (UnitConverter.fromSIunit_T F u ins) := by
  unfold UnitConverter.fromSIunit_T
  clean_walk

@[clean] theorem UnitConverter.toSIunit_h.clean (u : UnitSystem) (ins : Num) : Clean D (UnitConverter.toSIunit_h F u ins) := by
  unfold UnitConverter.toSIunit_h
  clean_walk

@[clean] theorem UnitConverter.fromSIunit_h.clean (u : UnitSystem) (ins : Num) : Clean D (UnitConverter.fromSIunit_h F u ins) := by
  unfold UnitConverter.fromSIunit_h
  clean_walk

@[clean] theorem UnitConverter.toSIunit_v.clean (u : UnitSystem) (ins : Num) : Clean D (UnitConverter.toSIunit_v F u ins) := by
  unfold UnitConverter.toSIunit_v
  clean_walk

@[clean] theorem UnitConverter.fromSIunit_v.clean (u : UnitSystem) (ins : Num) : Clean D (UnitConverter.fromSIunit_v F u ins) := by
  unfold UnitConverter.fromSIunit_v
  clean_walk

@[clean] theorem UnitConverter.toSIunit_s.clean (u : UnitSystem) (ins : Num) : Clean D (UnitConverter.toSIunit_s F u ins) := by
  unfold UnitConverter.toSIunit_s
  clean_walk

@[clean] theorem UnitConverter.fromSIunit_s.clean (u : UnitSystem) (ins : Num) : Clean D (UnitConverter.fromSIunit_s F u ins) := by
  unfold UnitConverter.fromSIunit_s
  clean_walk

@[clean] theorem UnitConverter.toSIunit_u.clean (u : UnitSystem) (ins : Num) : Clean D (UnitConverter.toSIunit_u F u ins) := by
  unfold UnitConverter.toSIunit_u
  clean_walk

@[clean] theorem UnitConverter.fromSIunit_u.clean (u : UnitSystem) (ins : Num) : Clean D (UnitConverter.fromSIunit_u F u ins) := by
  unfold UnitConverter.fromSIunit_u
  clean_walk

@[clean] theorem UnitConverter.toSIunit_Cp.clean (u : UnitSystem) (ins : Num) : Clean D (UnitConverter.toSIunit_Cp F u ins) := by
  unfold UnitConverter.toSIunit_Cp
  clean_walk

@[clean] theorem UnitConverter.fromSIunit_Cp.clean (u : UnitSystem) (ins : Num) : Clean D (UnitConverter.fromSIunit_Cp F u ins) := by
  unfold UnitConverter.fromSIunit_Cp
  clean_walk

@[clean] theorem UnitConverter.toSIunit_Cv.clean (u : UnitSystem) (ins : Num) : Clean D (UnitConverter.toSIunit_Cv F u ins) := by
  unfold UnitConverter.toSIunit_Cv
  clean_walk

@[clean] theorem UnitConverter.fromSIunit_Cv.clean (u : UnitSystem) (ins : Num) : Clean D (UnitConverter.fromSIunit_Cv F u ins) := by
  unfold UnitConverter.fromSIunit_Cv
  clean_walk

@[clean] theorem UnitConverter.toSIunit_w.clean (u : UnitSystem) (ins : Num) : Clean D (UnitConverter.toSIunit_w F u ins) := by
  unfold UnitConverter.toSIunit_w
  clean_walk

@[clean] theorem UnitConverter.fromSIunit_w.clean (u : UnitSystem) (ins : Num) : Clean D (UnitConverter.fromSIunit_w F u ins) := by
  unfold UnitConverter.fromSIunit_w
  clean_walk

@[clean] theorem UnitConverter.toSIunit_tc.clean (u : UnitSystem) (ins : Num) : Clean D (UnitConverter.toSIunit_tc F u ins) := by
  unfold UnitConverter.toSIunit_tc
  clean_walk

@[clean] theorem UnitConverter.fromSIunit_tc.clean (u : UnitSystem) (ins : Num) : Clean D (UnitConverter.fromSIunit_tc F u ins) := by
  unfold UnitConverter.fromSIunit_tc
  clean_walk

@[clean] theorem UnitConverter.toSIunit_st.clean (u : UnitSystem) (ins : Num) : Clean D (UnitConverter.toSIunit_st F u ins) := by
  unfold UnitConverter.toSIunit_st
  clean_walk

@[clean] theorem UnitConverter.fromSIunit_st.clean (u : UnitSystem) (ins : Num) : Clean D (UnitConverter.fromSIunit_st F u ins) := by
  unfold UnitConverter.fromSIunit_st
  clean_walk

@[clean] theorem UnitConverter.toSIunit_x.clean (u : UnitSystem) (ins : Num) : Clean D (UnitConverter.toSIunit_x F u ins) := by
  unfold UnitConverter.toSIunit_x
  clean_walk

@[clean] theorem UnitConverter.fromSIunit_x.clean (u : UnitSystem) (ins : Num) : Clean D (UnitConverter.fromSIunit_x F u ins) := by
  unfold UnitConverter.fromSIunit_x
  clean_walk

@[clean] theorem UnitConverter.toSIunit_vx.clean (u : UnitSystem) (ins : Num) : Clean D (UnitConverter.toSIunit_vx F u ins) := by
  unfold UnitConverter.toSIunit_vx
  clean_walk

@[clean] theorem UnitConverter.fromSIunit_vx.clean (u : UnitSystem) (ins : Num) : Clean D (UnitConverter.fromSIunit_vx F u ins) := by
  unfold UnitConverter.fromSIunit_vx
  clean_walk

@[clean] theorem UnitConverter.toSIunit_my.clean (u : UnitSystem) (ins : Num) : Clean D (UnitConverter.toSIunit_my F u ins) := by
  unfold UnitConverter.toSIunit_my
  clean_walk

@[clean] theorem UnitConverter.fromSIunit_my.clean (u : UnitSystem) (ins : Num) : Clean D (UnitConverter.fromSIunit_my F u ins) := by
  unfold UnitConverter.fromSIunit_my
  clean_walk

@[clean] theorem RegionBorders.B23p_T.clean (T : Num) : Clean D (RegionBorders.B23p_T F T) := by
  unfold RegionBorders.B23p_T
  clean_walk

@[clean] theorem RegionBorders.B23T_p.clean (p : Num) : Clean D (RegionBorders.B23T_p F p) := by
  unfold RegionBorders.B23T_p
  clean_walk

@[clean] theorem RegionBorders.p3sat_h.clean (h : Num) : Clean D (RegionBorders.p3sat_h F h) := by
  unfold RegionBorders.p3sat_h
  clean_walk

@[clean] theorem RegionBorders.p3sat_s.clean (s : Num) : Clean D (RegionBorders.p3sat_s F s) := by
  unfold RegionBorders.p3sat_s
  clean_walk

@[clean] theorem RegionBorders.hB13_s.clean (s : Num) : Clean D (RegionBorders.hB13_s F s) := by
  unfold RegionBorders.hB13_s
  clean_walk

@[clean] theorem RegionBorders.TB23_hs.clean (h : Num) (s : Num) : Clean D (RegionBorders.TB23_hs F h s) := by
  unfold RegionBorders.TB23_hs
  clean_walk

@[clean] theorem Region1.v1_pT.clean (p : Num) (T : Num) : Clean D (Region1.v1_pT F p T) := by
  unfold Region1.v1_pT
  clean_walk

@[clean] theorem Region1.h1_pT.clean (p : Num) (T : Num) : Clean D (Region1.h1_pT F p T) := by
  unfold Region1.h1_pT
  clean_walk

@[clean] theorem Region1.u1_pT.clean (p : Num) (T : Num) : Clean D (Region1.u1_pT F p T) := by
  unfold Region1.u1_pT
  clean_walk

@[clean] theorem Region1.s1_pT.clean (p : Num) (T : Num) : Clean D (Region1.s1_pT F p T) := by
  unfold Region1.s1_pT
  clean_walk

@[clean] theorem Region1.Cp1_pT.clean (p : Num) (T : Num) : Clean D (Region1.Cp1_pT F p T) := by
  unfold Region1.Cp1_pT
  clean_walk

@[clean] theorem Region1.Cv1_pT.clean (p : Num) (T : Num) : Clean D (Region1.Cv1_pT F p T) := by
  unfold Region1.Cv1_pT
  clean_walk

@[clean] theorem Region1.w1_pT.clean (p : Num) (T : Num) : Clean D (Region1.w1_pT F p T) := by
  unfold Region1.w1_pT
  clean_walk

@[clean] theorem Region1.T1_ph.clean (p : Num) (h : Num) : Clean D (Region1.T1_ph F p h) := by
  unfold Region1.T1_ph
  clean_walk

@[clean] theorem Region1.T1_ps.clean (p : Num) (s : Num) : Clean D (Region1.T1_ps F p s) := by
  unfold Region1.T1_ps
  clean_walk

@[clean] theorem Region1.p1_hs.clean (h : Num) (s : Num) : Clean D (Region1.p1_hs F h s) := by
  unfold Region1.p1_hs
  clean_walk

@[clean] theorem Region4.T4_p.clean (p : Num) : Clean D (Region4.T4_p F p) := by
  unfold Region4.T4_p
  clean_walk

/-- the loop of `T1_prho` is a bisection -/
theorem Region1.T1_prho.pass_eq (F : FP) (p rho : Num) : Region1.T1_prho.pass F p rho =
    bisectPass F (fun r => Num.fabs (F.sub rho r) > F.lit 0.00001) (fun x => Region1.v1_pT F p x >>= F.div (Num.ofInt 1))
      (fun r => r < rho) "T1_prho stopped iterating after %d steps because values did not converge" := by
  funext ⟨x, r, hi, lo⟩
  simp only [Region1.T1_prho.pass, bisectPass, bind_assoc]
  congr! 4

theorem Region1.T1_prho.loop_clean (p rho : Num) (x : Option Num) (r hi lo : Num)
    (hhi : F.Grid → F.IsFloat hi) (hlo : F.Grid → F.IsFloat lo) :
    Clean D (whileLoop (Region1.T1_prho.pass F p rho) (x, r, hi, lo)) := by
  by_cases hF : F.Grid
  · rw [Region1.T1_prho.pass_eq]
    refine bisect_terminates hF ?_ (fun x => ?_) x r hi lo (hhi hF) (hlo hF)
    · simp [not_lt_nan]
    · clean_walk
  · refine Clean.whileLoop (DivOK.out hF) (fun s => ?_)
    unfold Region1.T1_prho.pass
    clean_walk

@[clean] theorem Region1.T1_prho.clean (p rho : Num) : Clean D (Region1.T1_prho F p rho) := by
  unfold Region1.T1_prho
  by_cases hF : F.Grid
  · refine Clean.bind_flt F D (by clean_walk) (Region4.T4_p.flt hF p) (fun a ha => ?_)
    refine Clean.bind (loop_clean _ _ _ _ _ _ _ _ (fun _ => ha) (fun hF => hF.lit_isFloat _)) (fun _ => ?_)
    clean_walk
  · have hD : D := DivOK.out hF
    refine Clean.bind (by clean_walk) (fun a => ?_)
    refine Clean.bind (loop_clean _ _ _ _ _ _ _ _ (fun h => absurd h hF) (fun h => absurd h hF)) (fun _ => ?_)
    clean_walk

@[clean] theorem Region2.v2_pT.clean (p : Num) (T : Num) : Clean D (Region2.v2_pT F p T) := by
  unfold Region2.v2_pT
  clean_walk

@[clean] theorem Region2.h2_pT.clean (p : Num) (T : Num) : Clean D (Region2.h2_pT F p T) := by
  unfold Region2.h2_pT
  clean_walk

@[clean] theorem Region2.u2_pT.clean (p : Num) (T : Num) : Clean D (Region2.u2_pT F p T) := by
  unfold Region2.u2_pT
  clean_walk

@[clean] theorem Region2.s2_pT.clean (p : Num) (T : Num) : Clean D (Region2.s2_pT F p T) := by
  unfold Region2.s2_pT
  clean_walk

@[clean] theorem Region2.Cp2_pT.clean (p : Num) (T : Num) : Clean D (Region2.Cp2_pT F p T) := by
  unfold Region2.Cp2_pT
  clean_walk

@[clean] theorem Region2.Cv2_pT.clean (p : Num) (T : Num) : Clean D (Region2.Cv2_pT F p T) := by
  unfold Region2.Cv2_pT
  clean_walk

@[clean] theorem Region2.w2_pT.clean (p : Num) (T : Num) : Clean D (Region2.w2_pT F p T) := by
  unfold Region2.w2_pT
  clean_walk

@[clean] theorem Region2.T2_ph.clean (p : Num) (h : Num) : Clean D (Region2.T2_ph F p h) := by
  unfold Region2.T2_ph
  clean_walk

@[clean] theorem Region2.T2_ps.clean (p : Num) (s : Num) : Clean D (Region2.T2_ps F p s) := by
  unfold Region2.T2_ps
  clean_walk

@[clean] theorem Region2.p2_hs.clean (h : Num) (s : Num) : Clean D (Region2.p2_hs F h s) := by
  unfold Region2.p2_hs
  clean_walk

/-- the loop of `T2_prho` is a bisection -/
theorem Region2.T2_prho.pass_eq (F : FP) (p rho : Num) : Region2.T2_prho.pass F p rho =
    bisectPass F (fun r => Num.fabs (F.sub rho r) > F.lit 0.000001) (fun x => Region2.v2_pT F p x >>= F.div (Num.ofInt 1))
      (fun r => r < rho) "T2_prho stopped iterating after %d steps because values did not converge" := by
  funext ⟨x, r, hi, lo⟩
  simp only [Region2.T2_prho.pass, bisectPass, bind_assoc]
  congr! 4

theorem Region2.T2_prho.loop_clean (p rho : Num) (x : Option Num) (r hi lo : Num)
    (hhi : F.Grid → F.IsFloat hi) (hlo : F.Grid → F.IsFloat lo) :
    Clean D (whileLoop (Region2.T2_prho.pass F p rho) (x, r, hi, lo)) := by
  by_cases hF : F.Grid
  · rw [Region2.T2_prho.pass_eq]
    refine bisect_terminates hF ?_ (fun x => ?_) x r hi lo (hhi hF) (hlo hF)
    · simp [not_lt_nan]
    · clean_walk
  · refine Clean.whileLoop (DivOK.out hF) (fun s => ?_)
    unfold Region2.T2_prho.pass
    clean_walk

@[clean] theorem Region2.T2_prho.clean (p rho : Num) : Clean D (Region2.T2_prho F p rho) := by
  unfold Region2.T2_prho
  simp only [bind_pure, pure_bind]
  by_cases hF : F.Grid
  · apply Clean.ite
    · refine Clean.bind_flt F D (by clean_walk) (Region4.T4_p.flt hF p) (fun a ha => ?_)
      refine Clean.bind (loop_clean _ _ _ _ _ _ _ _ (fun hF => hF.lit_isFloat _) (fun _ => ha)) (fun _ => ?_)
      clean_walk
    · refine Clean.bind_flt F D (by clean_walk) (RegionBorders.B23T_p.flt hF p) (fun a ha => ?_)
      refine Clean.bind (loop_clean _ _ _ _ _ _ _ _ (fun hF => hF.lit_isFloat _) (fun _ => ha)) (fun _ => ?_)
      clean_walk
  · have h := fun a => loop_clean F D p rho none (Num.ofInt (-1000)) (F.lit 1073.15) a (fun h => absurd h hF) (fun h => absurd h hF)
    apply Clean.ite <;> refine Clean.bind (by clean_walk) (fun a => ?_) <;>
      refine Clean.bind (h _) (fun _ => ?_) <;> clean_walk

@[clean] theorem Region3.p3_rhoT.clean (rho : Num) (T : Num) : Clean D (Region3.p3_rhoT F rho T) := by
  unfold Region3.p3_rhoT
  clean_walk

@[clean] theorem Region3.u3_rhoT.clean (rho : Num) (T : Num) : Clean D (Region3.u3_rhoT F rho T) := by
  unfold Region3.u3_rhoT
  clean_walk

@[clean] theorem Region3.h3_rhoT.clean (rho : Num) (T : Num) : Clean D (Region3.h3_rhoT F rho T) := by
  unfold Region3.h3_rhoT
  clean_walk

@[clean] theorem Region3.s3_rhoT.clean (rho : Num) (T : Num) : Clean D (Region3.s3_rhoT F rho T) := by
  unfold Region3.s3_rhoT
  clean_walk

@[clean] theorem Region3.Cp3_rhoT.clean (rho : Num) (T : Num) : Clean D (Region3.Cp3_rhoT F rho T) := by
  unfold Region3.Cp3_rhoT
  clean_walk

@[clean] theorem Region3.Cv3_rhoT.clean (rho : Num) (T : Num) : Clean D (Region3.Cv3_rhoT F rho T) := by
  unfold Region3.Cv3_rhoT
  clean_walk

@[clean] theorem Region3.w3_rhoT.clean (rho : Num) (T : Num) : Clean D (Region3.w3_rhoT F rho T) := by
  unfold Region3.w3_rhoT
  clean_walk

@[clean] theorem Region3.T3_ph.clean (p : Num) (h : Num) : Clean D (Region3.T3_ph F p h) := by
  unfold Region3.T3_ph
  clean_walk

@[clean] theorem Region3.v3_ph.clean (p : Num) (h : Num) : Clean D (Region3.v3_ph F p h) := by
  unfold Region3.v3_ph
  clean_walk

@[clean] theorem Region3.T3_ps.clean (p : Num) (s : Num) : Clean D (Region3.T3_ps F p s) := by
  unfold Region3.T3_ps
  clean_walk

@[clean] theorem Region3.v3_ps.clean (p : Num) (s : Num) : Clean D (Region3.v3_ps F p s) := by
  unfold Region3.v3_ps
  clean_walk

@[clean] theorem Region3.p3_hs.clean (h : Num) (s : Num) : Clean D (Region3.p3_hs F h s) := by
  unfold Region3.p3_hs
  clean_walk

/-- the loop of `h4L_p` is a bisection -/
theorem Region4.h4L_p.pass_eq (F : FP) (p : Num) : Region4.h4L_p.pass F p =
    bisectPass F (fun r => Num.fabs (F.sub p r) > F.lit 0.00001) (fun x => RegionBorders.p3sat_h F x)
      (fun r => r > p) "h4L_p stopped iterating after %d steps because values did not converge" := by
  funext ⟨x, r, hi, lo⟩
  simp only [Region4.h4L_p.pass, bisectPass, bind_assoc]
  congr! 4

theorem Region4.h4L_p.loop_clean (p : Num) (x : Option Num) (r hi lo : Num)
    (hhi : F.Grid → F.IsFloat hi) (hlo : F.Grid → F.IsFloat lo) :
    Clean D (whileLoop (Region4.h4L_p.pass F p) (x, r, hi, lo)) := by
  by_cases hF : F.Grid
  · rw [Region4.h4L_p.pass_eq]
    refine bisect_terminates hF ?_ (fun x => ?_) x r hi lo (hhi hF) (hlo hF)
    · simp [not_lt_nan]
    · clean_walk
  · refine Clean.whileLoop (DivOK.out hF) (fun s => ?_)
    unfold Region4.h4L_p.pass
    clean_walk

@[clean] theorem Region4.h4L_p.clean (p : Num) : Clean D (Region4.h4L_p F p) := by
  unfold Region4.h4L_p
  simp only [bind_pure, pure_bind]
  apply Clean.ite
  · refine Clean.bind (by clean_walk) (fun _ => ?_)
    apply Clean.ite
    · clean_walk
    · refine Clean.bind (loop_clean _ _ _ _ _ _ _ (fun hF => hF.lit_isFloat _) (fun hF => hF.lit_isFloat _)) (fun _ => ?_)
      clean_walk
  · clean_walk


theorem Region4.h4L_p.flt {F : FP} (hF : F.Grid) (p : Num) : Flt F (Region4.h4L_p F p) := by
  unfold Region4.h4L_p
  simp only [bind_pure, pure_bind]
  apply Post.ite <;> intro _
  · refine Flt.bind _ (fun _ => ?_)
    apply Post.ite <;> intro _
    · exact Region1.h1_pT.flt hF _ _
    · rw [Region4.h4L_p.pass_eq]
      apply Post.bind
      refine (bisect_isFloat hF _ _ _).mono ?_ (fun _ h => h) id
      rintro l ⟨x, r, hi, lo⟩ h
      cases x with
      | none => exact Post.raise trivial
      | some x => exact Post.ret (h x rfl)
  · exact Post.ret (hF.ofInt_isFloat _ (by norm_num))

/-- the loop of `h4V_p` is a bisection -/
theorem Region4.h4V_p.pass_eq (F : FP) (p : Num) : Region4.h4V_p.pass F p =
    bisectPass F (fun r => Num.fabs (F.sub p r) > F.lit 0.000001) (fun x => RegionBorders.p3sat_h F x)
      (fun r => r < p) "h4V_p stopped iterating after %d steps because values did not converge" := by
  funext ⟨x, r, hi, lo⟩
  simp only [Region4.h4V_p.pass, bisectPass, bind_assoc]
  congr! 4

theorem Region4.h4V_p.loop_clean (p : Num) (x : Option Num) (r hi lo : Num)
    (hhi : F.Grid → F.IsFloat hi) (hlo : F.Grid → F.IsFloat lo) :
    Clean D (whileLoop (Region4.h4V_p.pass F p) (x, r, hi, lo)) := by
  by_cases hF : F.Grid
  · rw [Region4.h4V_p.pass_eq]
    refine bisect_terminates hF ?_ (fun x => ?_) x r hi lo (hhi hF) (hlo hF)
    · simp [not_lt_nan]
    · clean_walk
  · refine Clean.whileLoop (DivOK.out hF) (fun s => ?_)
    unfold Region4.h4V_p.pass
    clean_walk

@[clean] theorem Region4.h4V_p.clean (p : Num) : Clean D (Region4.h4V_p F p) := by
  unfold Region4.h4V_p
  simp only [bind_pure, pure_bind]
  apply Clean.ite
  · refine Clean.bind (by clean_walk) (fun _ => ?_)
    apply Clean.ite
    · clean_walk
    · refine Clean.bind (loop_clean _ _ _ _ _ _ _ (fun hF => hF.add_isFloat _ _) (fun hF => hF.lit_isFloat _)) (fun _ => ?_)
      clean_walk
  · clean_walk


theorem Region4.h4V_p.flt {F : FP} (hF : F.Grid) (p : Num) : Flt F (Region4.h4V_p F p) := by
  unfold Region4.h4V_p
  simp only [bind_pure, pure_bind]
  apply Post.ite <;> intro _
  · refine Flt.bind _ (fun _ => ?_)
    apply Post.ite <;> intro _
    · exact Region2.h2_pT.flt hF _ _
    · rw [Region4.h4V_p.pass_eq]
      apply Post.bind
      refine (bisect_isFloat hF _ _ _).mono ?_ (fun _ h => h) id
      rintro l ⟨x, r, hi, lo⟩ h
      cases x with
      | none => exact Post.raise trivial
      | some x => exact Post.ret (h x rfl)
  · exact Post.ret (hF.ofInt_isFloat _ (by norm_num))

/-- the loop of `h3_pT` is a bisection -/
theorem Region3.h3_pT.pass_eq (F : FP) (T p : Num) : Region3.h3_pT.pass F T p =
    bisectPass F (fun r => Num.fabs (F.sub T r) > F.lit 0.00001) (fun x => Region3.T3_ph F p x)
      (fun r => r > T) "h3_pT stopped iterating after %d steps because values did not converge" := by
  funext ⟨x, r, hi, lo⟩
  simp only [Region3.h3_pT.pass, bisectPass, bind_assoc]
  congr! 4

theorem Region3.h3_pT.loop_clean (T p : Num) (x : Option Num) (r hi lo : Num)
    (hhi : F.Grid → F.IsFloat hi) (hlo : F.Grid → F.IsFloat lo) :
    Clean D (whileLoop (Region3.h3_pT.pass F T p) (x, r, hi, lo)) := by
  by_cases hF : F.Grid
  · rw [Region3.h3_pT.pass_eq]
    refine bisect_terminates hF ?_ (fun x => ?_) x r hi lo (hhi hF) (hlo hF)
    · simp [not_lt_nan]
    · clean_walk
  · refine Clean.whileLoop (DivOK.out hF) (fun s => ?_)
    unfold Region3.h3_pT.pass
    clean_walk

@[clean] theorem Region3.h3_pT.clean (p T : Num) : Clean D (Region3.h3_pT F p T) := by
  unfold Region3.h3_pT
  have key : ∀ hi lo : Num, (F.Grid → F.IsFloat hi) → (F.Grid → F.IsFloat lo) →
      Clean D (do
        let (hs, Ts, High_Bound, Low_Bound) ← whileLoop (Region3.h3_pT.pass F T p)
          (none, F.add T (Num.ofInt 1), hi, lo)
        getVar hs) := by
    intro hi lo h1 h2
    refine Clean.bind (loop_clean _ _ _ _ _ _ _ _ h1 h2) (fun _ => ?_)
    clean_walk
  simp only [bind_pure, pure_bind]
  by_cases hF : F.Grid
  · apply Clean.ite
    · refine Clean.bind (by clean_walk) (fun _ => ?_)
      apply Clean.ite
      · refine Clean.bind_flt F D (by clean_walk) (Region4.h4L_p.flt hF _) (fun a ha => ?_)
        refine Clean.bind_flt F D (by clean_walk) (Region1.h1_pT.flt hF _ _) (fun b hb => ?_)
        exact key _ _ (fun _ => ha) (fun _ => hb)
      · refine Clean.bind_flt F D (by clean_walk) (Region4.h4V_p.flt hF _) (fun a ha => ?_)
        refine Clean.bind (by clean_walk) (fun _ => ?_)
        refine Clean.bind_flt F D (by clean_walk) (Region2.h2_pT.flt hF _ _) (fun b hb => ?_)
        exact key _ _ (fun _ => hb) (fun _ => ha)
    · refine Clean.bind_flt F D (by clean_walk) (Region1.h1_pT.flt hF _ _) (fun a ha => ?_)
      refine Clean.bind (by clean_walk) (fun _ => ?_)
      refine Clean.bind_flt F D (by clean_walk) (Region2.h2_pT.flt hF _ _) (fun b hb => ?_)
      exact key _ _ (fun _ => hb) (fun _ => ha)
  · have key' := fun hi lo => key hi lo (fun h => absurd h hF) (fun h => absurd h hF)
    repeat' (with_reducible first
      | exact key' _ _
      | apply Clean.ite
      | (refine Clean.bind ?_ (fun _ => ?_))
      | clean_leaf)

/-- the loop of `T3_prho` is a bisection -/
theorem Region3.T3_prho.pass_eq (F : FP) (p rho : Num) : Region3.T3_prho.pass F p rho =
    bisectPass F (fun r => Num.fabs (F.sub p r) > F.lit 0.00000001) (fun x => Region3.p3_rhoT F rho x)
      (fun r => r > p) "T3_prho stopped iterating after %d steps because values did not converge" := by
  funext ⟨x, r, hi, lo⟩
  simp only [Region3.T3_prho.pass, bisectPass, bind_assoc]
  congr! 4

theorem Region3.T3_prho.loop_clean (p rho : Num) (x : Option Num) (r hi lo : Num)
    (hhi : F.Grid → F.IsFloat hi) (hlo : F.Grid → F.IsFloat lo) :
    Clean D (whileLoop (Region3.T3_prho.pass F p rho) (x, r, hi, lo)) := by
  by_cases hF : F.Grid
  · rw [Region3.T3_prho.pass_eq]
    refine bisect_terminates hF ?_ (fun x => ?_) x r hi lo (hhi hF) (hlo hF)
    · simp [not_lt_nan]
    · clean_walk
  · refine Clean.whileLoop (DivOK.out hF) (fun s => ?_)
    unfold Region3.T3_prho.pass
    clean_walk

@[clean] theorem Region3.T3_prho.clean (p rho : Num) : Clean D (Region3.T3_prho F p rho) := by
  unfold Region3.T3_prho
  refine Clean.bind (loop_clean _ _ _ _ _ _ _ _ (fun hF => hF.lit_isFloat _) (fun hF => hF.lit_isFloat _)) (fun _ => ?_)
  clean_walk

@[clean] theorem Region4.p4_T.clean (T : Num) : Clean D (Region4.p4_T F T) := by
  unfold Region4.p4_T
  clean_walk

@[clean] theorem Region4.h4_s.clean (s : Num) : Clean D (Region4.h4_s F s) := by
  unfold Region4.h4_s
  clean_walk

@[clean] theorem Region4.p4_s.clean (s : Num) : Clean D (Region4.p4_s F s) := by
  unfold Region4.p4_s
  clean_walk

@[clean] theorem Region4.x4_ph.clean (p : Num) (h : Num) : Clean D (Region4.x4_ph F p h) := by
  unfold Region4.x4_ph
  clean_walk

@[clean] theorem Region4.x4_ps.clean (p : Num) (s : Num) : Clean D (Region4.x4_ps F p s) := by
  unfold Region4.x4_ps
  clean_walk

/-- the loops of `T4_hs` watch the width of the bracket -/
theorem Region4.T4_hs.pass_eq (F : FP) (h : Num) : Region4.T4_hs.pass F h =
    widthPass F (fun r => Num.fabs (F.sub r h) > F.lit 0.00001) 0.0001
      (fun x => Region4.T4_p F x >>= fun Ts => Region1.h1_pT F x Ts) (fun r => r > h) := by
  funext ⟨x, r, hi, lo⟩
  simp only [Region4.T4_hs.pass, widthPass, bind_assoc]
  congr! 5

/-- entropy of wet steam at pressure `p` and enthalpy `h`, as computed in the second loop -/
noncomputable def Region4.T4_hs.entropy (F : FP) (h p : Num) : Py Num := do
  let Ts ← Region4.T4_p F p
  let xs ← Region4.x4_ph F p h
  let (s4v, s4L) ← if p < (F.lit 16.529) then do
    let s4v ← Region2.s2_pT F p Ts
    let s4L ← Region1.s1_pT F p Ts
    pure (s4v, s4L)
  else do
    let v4v ← Region3.v3_ph F p (← Region4.h4V_p F p)
    let s4v ← Region3.s3_rhoT F (← F.div (Num.ofInt 1) v4v) Ts
    let v4L ← Region3.v3_ph F p (← Region4.h4L_p F p)
    let s4L ← Region3.s3_rhoT F (← F.div (Num.ofInt 1) v4L) Ts
    pure (s4v, s4L)
  pure (F.add (F.mul xs s4v) (F.mul (F.sub (Num.ofInt 1) xs) s4L))

theorem Region4.T4_hs.pass2_eq (F : FP) (h s : Num) : Region4.T4_hs.pass2 F h s =
    widthPass F (fun r => Num.fabs (F.sub s r) > F.lit 0.000001) 0.0000001
      (Region4.T4_hs.entropy F h) (fun r => r < s) := by
  funext ⟨x, r, hi, lo⟩
  simp only [Region4.T4_hs.pass2, widthPass, Region4.T4_hs.entropy, bind_assoc, pure_bind]
  congr! 6
  funext xs
  split_ifs <;> simp only [bind_assoc, pure_bind]

/-- the arguments for which the starting bracket of `T4_hs` is unusable: the pressure of the
saturation line of region 3 at enthalpy `h` is not a number below 10⁶ MPa -/
def Region4.T4_hs.Wild (F : FP) (h s : Num) : Prop :=
  ((s > F.lit 3.77828134 ∧ s ≤ F.lit 4.41202148223476) ∨
    (s > F.lit 4.41202148223476 ∧ s ≤ F.lit 5.210887663)) ∧
  ∃ PL, (RegionBorders.p3sat_h F h).out = .ok PL ∧ ¬ ∃ x : ℝ, PL = .fin x ∧ |x| ≤ 1000000


@[clean] theorem Region4.T4_hs.entropy.clean (h p : Num) : Clean D (Region4.T4_hs.entropy F h p) := by
  unfold Region4.T4_hs.entropy
  clean_walk

theorem Region4.T4_hs.clean_of' (h s : Num) (hW : F.Grid → Region4.T4_hs.Wild F h s → ∀ PL, F.IsFloat PL →
      Clean D (whileLoop (Region4.T4_hs.pass2 F h s) (none, Num.ofInt (-1000), PL, F.lit 0.000611))) :
    Clean D (Region4.T4_hs F h s) := by
  have lit4 : F.Grid → ∀ q : ℚ, |(q : ℝ)| ≤ 4000 → ∃ y : ℝ, F.lit q = .fin y ∧ |y| ≤ 1000000 ∧
      F.rnd y = .fin y := by
    intro hF q hq
    obtain ⟨y, hy, hye⟩ := hF.fine q (by linarith)
    refine ⟨y, hy, ?_, hF.idem _ _ hy⟩
    rw [abs_le] at *
    constructor <;> linarith
  have key : ∀ PL : Num, (F.Grid → (∃ x : ℝ, PL = .fin x ∧ |x| ≤ 1000000 ∧ F.rnd x = .fin x) ∨
        Clean D (whileLoop (Region4.T4_hs.pass2 F h s) (none, Num.ofInt (-1000), PL, F.lit 0.000611))) →
      Clean D (do
        let x ← whileLoop (Region4.T4_hs.pass2 F h s)
          (none, Num.ofInt (-1000), PL, F.lit 0.000611)
        let p ← getVar x.1
        Region4.T4_p F p) := by
    intro PL hPL
    refine Clean.bind ?_ (fun _ => by clean_walk)
    have hD' : D → Clean D (whileLoop (Region4.T4_hs.pass2 F h s)
        (none, Num.ofInt (-1000), PL, F.lit 0.000611)) := by
      intro hD
      refine Clean.whileLoop hD (fun s => ?_)
      unfold Region4.T4_hs.pass2
      clean_walk
    by_cases hF : F.Grid
    · rcases hPL hF with ⟨x, rfl, hx, hxf⟩ | hD
      · obtain ⟨y, hy, hyb, hyf⟩ := lit4 hF 0.000611 (by norm_num [abs_of_pos])
        rw [Region4.T4_hs.pass2_eq, hy]
        refine width_terminates hF (by norm_num) (by norm_num) (fun p => ?_) x y hxf hyf hx hyb _ _
        clean_walk
      · exact hD
    · exact hD' (DivOK.out hF)
  have key0 : ∀ (o : Option Num), (∀ PL, o = some PL →
      (F.Grid → (∃ x : ℝ, PL = .fin x ∧ |x| ≤ 1000000 ∧ F.rnd x = .fin x) ∨
        Clean D (whileLoop (Region4.T4_hs.pass2 F h s) (none, Num.ofInt (-1000), PL, F.lit 0.000611)))) →
      Clean D (do
        let PL ← getVar o
        let x ← whileLoop (Region4.T4_hs.pass2 F h s)
          (none, Num.ofInt (-1000), PL, F.lit 0.000611)
        let p ← getVar x.1
        Region4.T4_p F p) := by
    intro o ho
    cases o with
    | none => exact Clean.raise (by decide)
    | some PL => simpa only [getVar, pure_bind] using key PL (ho PL rfl)
  -- the pressure on the saturation line of region 3
  have sat : ((s > F.lit 3.77828134 ∧ s ≤ F.lit 4.41202148223476) ∨
      (s > F.lit 4.41202148223476 ∧ s ≤ F.lit 5.210887663)) → ∀ PL,
      (RegionBorders.p3sat_h F h).out = .ok PL →
      (F.Grid → (∃ x : ℝ, PL = .fin x ∧ |x| ≤ 1000000 ∧ F.rnd x = .fin x) ∨
        Clean D (whileLoop (Region4.T4_hs.pass2 F h s) (none, Num.ofInt (-1000), PL, F.lit 0.000611))) := by
    intro h1 PL hPL hF
    by_cases hw : ∃ x : ℝ, PL = .fin x ∧ |x| ≤ 1000000
    · obtain ⟨x, rfl, hx⟩ := hw
      left
      exact ⟨x, rfl, hx, Post.elim (RegionBorders.p3sat_h.flt hF h) hPL⟩
    · right
      exact hW hF ⟨h1, PL, hPL, hw⟩ PL (Post.elim (RegionBorders.p3sat_h.flt hF h) hPL)
  unfold Region4.T4_hs
  simp only [bind_pure, pure_bind, bind_assoc]
  apply Clean.ite
  · clean_walk
  · refine Clean.bind_post _ (Q := fun o => ∀ PL, o = some PL →
      (F.Grid → (∃ x : ℝ, PL = .fin x ∧ |x| ≤ 1000000 ∧ F.rnd x = .fin x) ∨
        Clean D (whileLoop (Region4.T4_hs.pass2 F h s) (none, Num.ofInt (-1000), PL, F.lit 0.000611)))) ?_ key0
    have sat' : ((s > F.lit 3.77828134 ∧ s ≤ F.lit 4.41202148223476) ∨
        (s > F.lit 4.41202148223476 ∧ s ≤ F.lit 5.210887663)) →
        Post (RegionBorders.p3sat_h F h >>= fun PL => pure (some PL)) (fun _ o => ∀ PL, o = some PL →
          (F.Grid → (∃ x : ℝ, PL = .fin x ∧ |x| ≤ 1000000 ∧ F.rnd x = .fin x) ∨
        Clean D (whileLoop (Region4.T4_hs.pass2 F h s) (none, Num.ofInt (-1000), PL, F.lit 0.000611)))) (· ≠ .index) D := by
      intro hs
      apply Post.bind
      have hc : Clean D (RegionBorders.p3sat_h F h) := by clean_walk
      have hs' := sat hs
      generalize RegionBorders.p3sat_h F h = x at hc hs'
      rcases x with ⟨l, o⟩
      cases o with
      | ok a =>
        show ∀ PL, some a = some PL → _
        intro PL hPL
        cases hPL
        exact hs' a rfl
      | raise e => exact hc
      | diverge => exact hc
    apply Post.ite <;> intro h1
    · by_cases hF : F.Grid
      · obtain ⟨y, hy, hyb, hyf⟩ := lit4 hF 0.000611 (by norm_num [abs_of_pos])
        obtain ⟨z, hz, hzb, hzf⟩ := lit4 hF 165.291642526045 (by norm_num [abs_of_pos])
        rw [Region4.T4_hs.pass_eq, hy, hz]
        apply Post.bind
        have t := width_terminates (D := D) hF
          (c := fun r => Num.fabs (F.sub r h) > F.lit 0.00001) (tol := 0.0001)
          (f := fun x => Region4.T4_p F x >>= fun Ts => Region1.h1_pT F x Ts) (up := fun r => r > h)
          (by norm_num) (by norm_num) (fun p => by clean_walk) z y hzf hyf hzb hyb none
          (Num.ofInt (-1000))
        have b := width_between hF
          (c := fun r => Num.fabs (F.sub r h) > F.lit 0.00001) (tol := 0.0001)
          (f := fun x => Region4.T4_p F x >>= fun Ts => Region1.h1_pT F x Ts) (up := fun r => r > h)
          (by norm_num) (by norm_num) (min z y) (max z y) z y hzf hyf hzb hyb
          ⟨min_le_left _ _, le_max_left _ _⟩ ⟨min_le_right _ _, le_max_right _ _⟩
          (Num.ofInt (-1000))
        generalize whileLoop _ _ = w at t b ⊢
        rcases w with ⟨l, o⟩
        cases o with
        | ok st =>
          show ∀ PL, st.1 = some PL → _
          intro PL hPL _
          obtain ⟨x, hx, hxf, _, hxb⟩ := b PL hPL
          exact Or.inl ⟨x, hx, hxb, hxf⟩
        | raise e => exact t
        | diverge => exact t
      · have hD : D := DivOK.out hF
        refine Clean.bind_post _ (Q := fun _ => True) ?_ (fun a _ => ?_) |>.mono
          (fun _ _ _ _ _ hG => absurd hG hF) (fun _ h => h) id
        · refine Clean.whileLoop hD (fun s => ?_)
          unfold Region4.T4_hs.pass
          clean_walk
        · clean_walk
    · apply Post.ite <;> intro h2
      · exact sat' (Or.inl h2)
      · apply Post.ite <;> intro h3
        · exact sat' (Or.inr h3)
        · exact Post.ret (fun PL h => by cases h)

theorem Region4.T4_hs.clean_of (h s : Num) (hW : F.Grid → Region4.T4_hs.Wild F h s → D) :
    Clean D (Region4.T4_hs F h s) :=
  Region4.T4_hs.clean_of' F D h s fun hF hw _ _ => Clean.whileLoop (hW hF hw) fun s => by
    unfold Region4.T4_hs.pass2
    clean_walk

/-- `T4_hs` raises no `IndexError` -/
theorem Region4.T4_hs.no_index (h s : Num) : Clean True (Region4.T4_hs F h s) := by
  have : DivOK F True := ⟨fun _ => trivial⟩
  exact Region4.T4_hs.clean_of F True h s (fun _ _ => trivial)

@[clean] theorem Region5.h5_pT.clean (p : Num) (T : Num) : Clean D (Region5.h5_pT F p T) := by
  unfold Region5.h5_pT
  clean_walk

@[clean] theorem Region5.v5_pT.clean (p : Num) (T : Num) : Clean D (Region5.v5_pT F p T) := by
  unfold Region5.v5_pT
  clean_walk

@[clean] theorem Region5.u5_pT.clean (p : Num) (T : Num) : Clean D (Region5.u5_pT F p T) := by
  unfold Region5.u5_pT
  clean_walk

@[clean] theorem Region5.Cp5_pT.clean (p : Num) (T : Num) : Clean D (Region5.Cp5_pT F p T) := by
  unfold Region5.Cp5_pT
  clean_walk

@[clean] theorem Region5.s5_pT.clean (p : Num) (T : Num) : Clean D (Region5.s5_pT F p T) := by
  unfold Region5.s5_pT
  clean_walk

@[clean] theorem Region5.Cv5_pT.clean (p : Num) (T : Num) : Clean D (Region5.Cv5_pT F p T) := by
  unfold Region5.Cv5_pT
  clean_walk

@[clean] theorem Region5.w5_pT.clean (p : Num) (T : Num) : Clean D (Region5.w5_pT F p T) := by
  unfold Region5.w5_pT
  clean_walk

/-- the loop of `T5_ph` is a bisection -/
theorem Region5.T5_ph.pass_eq (F : FP) (h p : Num) : Region5.T5_ph.pass F h p =
    bisectPass F (fun r => Num.fabs (F.sub h r) > F.lit 0.00001) (fun x => Region5.h5_pT F p x)
      (fun r => r > h) "T5_ph stopped iterating after %d steps because values did not converge" := by
  funext ⟨x, r, hi, lo⟩
  simp only [Region5.T5_ph.pass, bisectPass, bind_assoc]
  congr! 4

theorem Region5.T5_ph.loop_clean (h p : Num) (x : Option Num) (r hi lo : Num)
    (hhi : F.Grid → F.IsFloat hi) (hlo : F.Grid → F.IsFloat lo) :
    Clean D (whileLoop (Region5.T5_ph.pass F h p) (x, r, hi, lo)) := by
  by_cases hF : F.Grid
  · rw [Region5.T5_ph.pass_eq]
    refine bisect_terminates hF ?_ (fun x => ?_) x r hi lo (hhi hF) (hlo hF)
    · simp [not_lt_nan]
    · clean_walk
  · refine Clean.whileLoop (DivOK.out hF) (fun s => ?_)
    unfold Region5.T5_ph.pass
    clean_walk

@[clean] theorem Region5.T5_ph.clean (p h : Num) : Clean D (Region5.T5_ph F p h) := by
  unfold Region5.T5_ph
  refine Clean.bind (loop_clean _ _ _ _ _ _ _ _ (fun hF => hF.lit_isFloat _) (fun hF => hF.lit_isFloat _)) (fun _ => ?_)
  clean_walk

/-- the loop of `T5_ps` is a bisection -/
theorem Region5.T5_ps.pass_eq (F : FP) (p s : Num) : Region5.T5_ps.pass F p s =
    bisectPass F (fun r => Num.fabs (F.sub s r) > F.lit 0.00001) (fun x => Region5.s5_pT F p x)
      (fun r => r > s) "T5_ps stopped iterating after %d steps because values did not converge" := by
  funext ⟨x, r, hi, lo⟩
  simp only [Region5.T5_ps.pass, bisectPass, bind_assoc]
  congr! 4

theorem Region5.T5_ps.loop_clean (p s : Num) (x : Option Num) (r hi lo : Num)
    (hhi : F.Grid → F.IsFloat hi) (hlo : F.Grid → F.IsFloat lo) :
    Clean D (whileLoop (Region5.T5_ps.pass F p s) (x, r, hi, lo)) := by
  by_cases hF : F.Grid
  · rw [Region5.T5_ps.pass_eq]
    refine bisect_terminates hF ?_ (fun x => ?_) x r hi lo (hhi hF) (hlo hF)
    · simp [not_lt_nan]
    · clean_walk
  · refine Clean.whileLoop (DivOK.out hF) (fun s => ?_)
    unfold Region5.T5_ps.pass
    clean_walk

@[clean] theorem Region5.T5_ps.clean (p s : Num) : Clean D (Region5.T5_ps F p s) := by
  unfold Region5.T5_ps
  refine Clean.bind (loop_clean _ _ _ _ _ _ _ _ (fun hF => hF.lit_isFloat _) (fun hF => hF.lit_isFloat _)) (fun _ => ?_)
  clean_walk

/-- the loop of `T5_prho` is a bisection -/
theorem Region5.T5_prho.pass_eq (F : FP) (p rho : Num) : Region5.T5_prho.pass F p rho =
    bisectPass F (fun r => Num.fabs (F.sub rho r) > F.lit 0.000001) (fun x => Region2.v2_pT F p x >>= F.div (Num.ofInt 1))
      (fun r => r < rho) "T5_prho stopped iterating after %d steps because values did not converge" := by
  funext ⟨x, r, hi, lo⟩
  simp only [Region5.T5_prho.pass, bisectPass, bind_assoc]
  congr! 4

theorem Region5.T5_prho.loop_clean (p rho : Num) (x : Option Num) (r hi lo : Num)
    (hhi : F.Grid → F.IsFloat hi) (hlo : F.Grid → F.IsFloat lo) :
    Clean D (whileLoop (Region5.T5_prho.pass F p rho) (x, r, hi, lo)) := by
  by_cases hF : F.Grid
  · rw [Region5.T5_prho.pass_eq]
    refine bisect_terminates hF ?_ (fun x => ?_) x r hi lo (hhi hF) (hlo hF)
    · simp [not_lt_nan]
    · clean_walk
  · refine Clean.whileLoop (DivOK.out hF) (fun s => ?_)
    unfold Region5.T5_prho.pass
    clean_walk

@[clean] theorem Region5.T5_prho.clean (p rho : Num) : Clean D (Region5.T5_prho F p rho) := by
  unfold Region5.T5_prho
  refine Clean.bind (loop_clean _ _ _ _ _ _ _ _ (fun hF => hF.lit_isFloat _) (fun hF => hF.lit_isFloat _)) (fun _ => ?_)
  clean_walk

@[clean] theorem IAPWS_R14.pmelt_T_iceIh.clean (T : Num) : Clean D (IAPWS_R14.pmelt_T_iceIh F T) := by
  unfold IAPWS_R14.pmelt_T_iceIh
  clean_walk

@[clean] theorem IAPWS_R14.pmelt_T_iceIII.clean (T : Num) : Clean D (IAPWS_R14.pmelt_T_iceIII F T) := by
  unfold IAPWS_R14.pmelt_T_iceIII
  clean_walk

@[clean] theorem IAPWS_R14.pmelt_T_iceV.clean (T : Num) : Clean D (IAPWS_R14.pmelt_T_iceV F T) := by
  unfold IAPWS_R14.pmelt_T_iceV
  clean_walk

@[clean] theorem IAPWS_R14.pmelt_T_iceVI.clean (T : Num) : Clean D (IAPWS_R14.pmelt_T_iceVI F T) := by
  unfold IAPWS_R14.pmelt_T_iceVI
  clean_walk

@[clean] theorem IAPWS_R14.pmelt_T_iceVII.clean (T : Num) : Clean D (IAPWS_R14.pmelt_T_iceVII F T) := by
  unfold IAPWS_R14.pmelt_T_iceVII
  clean_walk

@[clean] theorem IAPWS_R14.psubl_T.clean (T : Num) : Clean D (IAPWS_R14.psubl_T F T) := by
  unfold IAPWS_R14.psubl_T
  clean_walk

theorem IAPWS_R4.myHW_rhoT_R4.B_rows : ∀ r ∈ IAPWS_R4.myHW_rhoT_R4.B, r.length = 6 := by
  decide

@[clean] theorem IAPWS_R4.myHW_rhoT_R4.clean (rho : Num) (T : Num) :
    Clean D (IAPWS_R4.myHW_rhoT_R4 F rho T) := by
  have inner : ∀ (i : ℕ) (j : ℕ) (f : ℚ → Py Num), i < 6 → j < 7 → (∀ a, Clean D (f a)) →
      Clean D (idx IAPWS_R4.myHW_rhoT_R4.B j >>= fun r => idx r i >>= f) := by
    intro i j f hi hj hf
    refine Clean.idx_bind (lt_of_lt_of_eq hj (by rfl)) (fun r hr => ?_)
    refine Clean.bind (Clean.idx ?_) hf
    rw [B_rows r hr]; exact hi
  unfold IAPWS_R4.myHW_rhoT_R4
  repeat' (with_reducible first
    | apply Clean.ret
    | (refine inner _ _ _ (by assumption) (by assumption) (fun _ => ?_))
    | (refine Clean.bind ?_ (fun _ => ?_))
    | clean_leaf
    | (refine Clean.forRange (fun _ _ _ => ?_))
    | exact Clean.idx (lt_of_lt_of_eq (by assumption) (by with_unfolding_all rfl)))

@[clean] theorem IAPWS_R4.tcHW_rhoT_R4.clean (rho : Num) (T : Num) : Clean D (IAPWS_R4.tcHW_rhoT_R4 F rho T) := by
  unfold IAPWS_R4.tcHW_rhoT_R4
  clean_walk

@[clean] theorem RegionSelection.region_pT.clean (p : Num) (T : Num) : Clean D (RegionSelection.region_pT F p T) := by
  unfold RegionSelection.region_pT
  clean_walk

@[clean] theorem RegionSelection.region_ph.rest.clean (p : Num) (h : Num) : Clean D (RegionSelection.region_ph.rest F p h) := by
  unfold RegionSelection.region_ph.rest
  clean_walk

@[clean] theorem RegionSelection.region_ph.clean (p : Num) (h : Num) : Clean D (RegionSelection.region_ph F p h) := by
  unfold RegionSelection.region_ph
  clean_walk

@[clean] theorem RegionSelection.region_ps.clean (p : Num) (s : Num) : Clean D (RegionSelection.region_ps F p s) := by
  unfold RegionSelection.region_ps
  clean_walk

@[clean] theorem RegionSelection.region_hs.clean (h : Num) (s : Num) : Clean D (RegionSelection.region_hs F h s) := by
  unfold RegionSelection.region_hs
  clean_walk

@[clean] theorem RegionSelection.region_prho.rest.clean  : Clean D (RegionSelection.region_prho.rest F) := by
  unfold RegionSelection.region_prho.rest
  clean_walk

@[clean] theorem RegionSelection.region_prho.clean (p : Num) (rho : Num) : Clean D (RegionSelection.region_prho F p rho) := by
  unfold RegionSelection.region_prho
  clean_walk

@[clean] theorem TransportProperties.my_AllRegions_pT.rest.clean (p : Num) (T : Num) (rho : Num) : Clean D (TransportProperties.my_AllRegions_pT.rest F p T rho) := by
  unfold TransportProperties.my_AllRegions_pT.rest
  clean_walk

@[clean] theorem TransportProperties.my_AllRegions_pT.clean (p : Num) (T : Num) : Clean D (TransportProperties.my_AllRegions_pT F p T) := by
  unfold TransportProperties.my_AllRegions_pT
  clean_walk

@[clean] theorem TransportProperties.my_AllRegions_ph.rest.clean (p : Num) (T : Num) (rho : Num) : Clean D (TransportProperties.my_AllRegions_ph.rest F p T rho) := by
  unfold TransportProperties.my_AllRegions_ph.rest
  clean_walk

@[clean] theorem TransportProperties.my_AllRegions_ph.clean (p : Num) (h : Num) : Clean D (TransportProperties.my_AllRegions_ph F p h) := by
  unfold TransportProperties.my_AllRegions_ph
  clean_walk

@[clean] theorem TransportProperties.tc_ptrho.rest.clean (T : Num) (rho : Num) : Clean D (TransportProperties.tc_ptrho.rest F T rho) := by
  unfold TransportProperties.tc_ptrho.rest
  clean_walk

@[clean] theorem TransportProperties.tc_ptrho.clean (p : Num) (T : Num) (rho : Num) : Clean D (TransportProperties.tc_ptrho F p T rho) := by
  unfold TransportProperties.tc_ptrho
  clean_walk

@[clean] theorem TransportProperties.Surface_Tension_T.clean (T : Num) : Clean D (TransportProperties.Surface_Tension_T F T) := by
  unfold TransportProperties.Surface_Tension_T
  clean_walk

@[clean] theorem XSteam.specificGasConstant.clean (u : UnitSystem) : Clean D (XSteam.specificGasConstant F u) := by
  unfold XSteam.specificGasConstant
  clean_walk

@[clean] theorem XSteam.criticalTemperatur.clean (u : UnitSystem) : Clean D (XSteam.criticalTemperatur F u) := by
  unfold XSteam.criticalTemperatur
  clean_walk

@[clean] theorem XSteam.criticalPressure.clean (u : UnitSystem) : Clean D (XSteam.criticalPressure F u) := by
  unfold XSteam.criticalPressure
  clean_walk

@[clean] theorem XSteam.criticalDensity.clean (u : UnitSystem) : Clean D (XSteam.criticalDensity F u) := by
  unfold XSteam.criticalDensity
  clean_walk

@[clean] theorem XSteam.triplePointTemperatur.clean (u : UnitSystem) : Clean D (XSteam.triplePointTemperatur F u) := by
  unfold XSteam.triplePointTemperatur
  clean_walk

@[clean] theorem XSteam.triplePointPressure.clean (u : UnitSystem) : Clean D (XSteam.triplePointPressure F u) := by
  unfold XSteam.triplePointPressure
  clean_walk

@[clean] theorem XSteam.zeroPointTemperature.clean (u : UnitSystem) : Clean D (XSteam.zeroPointTemperature F u) := by
  unfold XSteam.zeroPointTemperature
  clean_walk

@[clean] theorem XSteam.tsat_p.clean (u : UnitSystem) (p : Num) : Clean D (XSteam.tsat_p F u p) := by
  unfold XSteam.tsat_p
  clean_walk

@[clean] theorem XSteam.tsat_s.clean (u : UnitSystem) (s : Num) : Clean D (XSteam.tsat_s F u s) := by
  unfold XSteam.tsat_s
  clean_walk

@[clean] theorem XSteam.t_ph.clean (u : UnitSystem) (p : Num) (h : Num) : Clean D (XSteam.t_ph F u p h) := by
  unfold XSteam.t_ph
  clean_walk

@[clean] theorem XSteam.t_ps.clean (u : UnitSystem) (p : Num) (s : Num) : Clean D (XSteam.t_ps F u p s) := by
  unfold XSteam.t_ps
  clean_walk

@[clean] theorem XSteam.psat_s.clean (u : UnitSystem) (s : Num) : Clean D (XSteam.psat_s F u s) := by
  unfold XSteam.psat_s
  clean_walk

@[clean] theorem XSteam.psat_t.clean (u : UnitSystem) (t : Num) : Clean D (XSteam.psat_t F u t) := by
  unfold XSteam.psat_t
  clean_walk

@[clean] theorem XSteam.v_ph.clean (u : UnitSystem) (p : Num) (h : Num) : Clean D (XSteam.v_ph F u p h) := by
  unfold XSteam.v_ph
  clean_walk

omit [DivOK F D] in
/-- the loop of `p_hrho` ends in its first pass, without moving -/
theorem XSteam.p_hrho.loop (u : UnitSystem) (h rho ps hi lo r : Num) (l : List LogRec)
    (hr : (XSteam.v_ph F u ps h >>= fun v => F.div (Num.ofInt 1) v) = ⟨l, .ok r⟩) :
    ∃ l', whileLoop (XSteam.p_hrho.pass F u h rho) (r, hi, lo, ps) = ⟨l', .ok (r, hi, lo, ps)⟩ := by
  rw [whileLoop_eq]
  by_cases c : Num.fabs (F.sub rho r) > F.lit 0.0000001
  · have hn : r ≠ .nan := by
      rintro rfl
      revert c
      simp only [sub_nan_right, fabs_nan]
      exact not_lt_nan _
    have hp : XSteam.p_hrho.pass F u h rho (r, hi, lo, ps) =
        (XSteam.v_ph F u ps h >>= fun v => F.div (Num.ofInt 1) v) >>= fun rhos => (do
          if Num.feq r rhos then do
            warn "p_hrho stopped iterating after %d steps because values did not converge for input values h %f and rho %f"
            pure (.brk (rhos, hi, lo, ps))
          else do
            if rhos ≥ rho then do
              let ps' ← F.div (F.add lo ps) (Num.ofInt 2)
              pure (.next (rhos, ps, lo, ps'))
            else do
              let ps' ← F.div (F.add ps hi) (Num.ofInt 2)
              pure (.next (rhos, hi, ps, ps'))) := by
      simp only [XSteam.p_hrho.pass, if_pos c, bind_assoc, pure_bind]
    rw [hp, hr]
    simp only [Py.bind_def, Py.andThen, if_pos (feq_self hn)]
    exact ⟨_, rfl⟩
  · simp only [XSteam.p_hrho.pass, if_neg c]
    exact ⟨_, rfl⟩

@[clean] theorem XSteam.p_hrho.clean (u : UnitSystem) (h rho : Num) :
    Clean D (XSteam.p_hrho F u h rho) := by
  unfold XSteam.p_hrho
  simp only [bind_pure, pure_bind]
  apply Clean.ite
  · clean_walk
  · refine Clean.bind (by clean_walk) fun h' => ?_
    refine Clean.bind (by clean_walk) fun hi => ?_
    refine Clean.bind (by clean_walk) fun lo => ?_
    refine Clean.bind (by clean_walk) fun ps => ?_
    have hc : Clean D (XSteam.v_ph F u ps h' >>= fun v => F.div (Num.ofInt 1) v) := by clean_walk
    have hl := XSteam.p_hrho.loop F u h' rho ps hi lo
    rw [← bind_assoc]
    generalize (XSteam.v_ph F u ps h' >>= fun v => F.div (Num.ofInt 1) v) = w at hc hl
    rcases w with ⟨l, o⟩
    cases o with
    | ok r =>
      obtain ⟨l', hl'⟩ := hl r l rfl
      show Clean D (⟨l, .ok r⟩ >>= _)
      simp only [Py.bind_def, Py.andThen, hl']
      trivial
    | raise e => exact hc
    | diverge => exact hc

@[clean] theorem XSteam.hV_p.clean (u : UnitSystem) (p : Num) : Clean D (XSteam.hV_p F u p) := by
  unfold XSteam.hV_p
  clean_walk

@[clean] theorem XSteam.hL_p.clean (u : UnitSystem) (p : Num) : Clean D (XSteam.hL_p F u p) := by
  unfold XSteam.hL_p
  clean_walk

@[clean] theorem XSteam.hV_t.clean (u : UnitSystem) (t : Num) : Clean D (XSteam.hV_t F u t) := by
  unfold XSteam.hV_t
  clean_walk

@[clean] theorem XSteam.hL_t.clean (u : UnitSystem) (t : Num) : Clean D (XSteam.hL_t F u t) := by
  unfold XSteam.hL_t
  clean_walk

@[clean] theorem XSteam.h_pt.clean (u : UnitSystem) (p : Num) (t : Num) : Clean D (XSteam.h_pt F u p t) := by
  unfold XSteam.h_pt
  clean_walk

@[clean] theorem XSteam.h_ps.clean (u : UnitSystem) (p : Num) (s : Num) : Clean D (XSteam.h_ps F u p s) := by
  unfold XSteam.h_ps
  clean_walk

@[clean] theorem XSteam.h_px.clean (u : UnitSystem) (p : Num) (x : Num) : Clean D (XSteam.h_px F u p x) := by
  unfold XSteam.h_px
  clean_walk

@[clean] theorem XSteam.h_prho.clean (u : UnitSystem) (p : Num) (rho : Num) : Clean D (XSteam.h_prho F u p rho) := by
  unfold XSteam.h_prho
  clean_walk

@[clean] theorem XSteam.h_tx.clean (u : UnitSystem) (t : Num) (x : Num) : Clean D (XSteam.h_tx F u t x) := by
  unfold XSteam.h_tx
  clean_walk

@[clean] theorem XSteam.vV_p.clean (u : UnitSystem) (p : Num) : Clean D (XSteam.vV_p F u p) := by
  unfold XSteam.vV_p
  clean_walk

@[clean] theorem XSteam.vL_p.clean (u : UnitSystem) (p : Num) : Clean D (XSteam.vL_p F u p) := by
  unfold XSteam.vL_p
  clean_walk

@[clean] theorem XSteam.vV_t.clean (u : UnitSystem) (t : Num) : Clean D (XSteam.vV_t F u t) := by
  unfold XSteam.vV_t
  clean_walk

@[clean] theorem XSteam.vL_t.clean (u : UnitSystem) (t : Num) : Clean D (XSteam.vL_t F u t) := by
  unfold XSteam.vL_t
  clean_walk

@[clean] theorem XSteam.v_pt.clean (u : UnitSystem) (p : Num) (t : Num) : Clean D (XSteam.v_pt F u p t) := by
  unfold XSteam.v_pt
  clean_walk

@[clean] theorem XSteam.v_ps.clean (u : UnitSystem) (p : Num) (s : Num) : Clean D (XSteam.v_ps F u p s) := by
  unfold XSteam.v_ps
  clean_walk

@[clean] theorem XSteam.rhoV_p.clean (u : UnitSystem) (p : Num) : Clean D (XSteam.rhoV_p F u p) := by
  unfold XSteam.rhoV_p
  clean_walk

@[clean] theorem XSteam.rhoL_p.clean (u : UnitSystem) (p : Num) : Clean D (XSteam.rhoL_p F u p) := by
  unfold XSteam.rhoL_p
  clean_walk

@[clean] theorem XSteam.rhoV_t.clean (u : UnitSystem) (t : Num) : Clean D (XSteam.rhoV_t F u t) := by
  unfold XSteam.rhoV_t
  clean_walk

@[clean] theorem XSteam.rhoL_t.clean (u : UnitSystem) (t : Num) : Clean D (XSteam.rhoL_t F u t) := by
  unfold XSteam.rhoL_t
  clean_walk

@[clean] theorem XSteam.rho_pt.clean (u : UnitSystem) (p : Num) (t : Num) : Clean D (XSteam.rho_pt F u p t) := by
  unfold XSteam.rho_pt
  clean_walk

@[clean] theorem XSteam.rho_ph.clean (u : UnitSystem) (p : Num) (h : Num) : Clean D (XSteam.rho_ph F u p h) := by
  unfold XSteam.rho_ph
  clean_walk

@[clean] theorem XSteam.rho_ps.clean (u : UnitSystem) (p : Num) (s : Num) : Clean D (XSteam.rho_ps F u p s) := by
  unfold XSteam.rho_ps
  clean_walk

@[clean] theorem XSteam.sV_p.clean (u : UnitSystem) (p : Num) : Clean D (XSteam.sV_p F u p) := by
  unfold XSteam.sV_p
  clean_walk

@[clean] theorem XSteam.sL_p.clean (u : UnitSystem) (p : Num) : Clean D (XSteam.sL_p F u p) := by
  unfold XSteam.sL_p
  clean_walk

@[clean] theorem XSteam.sV_t.clean (u : UnitSystem) (t : Num) : Clean D (XSteam.sV_t F u t) := by
  unfold XSteam.sV_t
  clean_walk

@[clean] theorem XSteam.sL_t.clean (u : UnitSystem) (t : Num) : Clean D (XSteam.sL_t F u t) := by
  unfold XSteam.sL_t
  clean_walk

@[clean] theorem XSteam.s_pt.clean (u : UnitSystem) (p : Num) (t : Num) : Clean D (XSteam.s_pt F u p t) := by
  unfold XSteam.s_pt
  clean_walk

@[clean] theorem XSteam.s_ph.clean (u : UnitSystem) (p : Num) (h : Num) : Clean D (XSteam.s_ph F u p h) := by
  unfold XSteam.s_ph
  clean_walk

@[clean] theorem XSteam.uV_p.clean (u : UnitSystem) (p : Num) : Clean D (XSteam.uV_p F u p) := by
  unfold XSteam.uV_p
  clean_walk

@[clean] theorem XSteam.uL_p.clean (u : UnitSystem) (p : Num) : Clean D (XSteam.uL_p F u p) := by
  unfold XSteam.uL_p
  clean_walk

@[clean] theorem XSteam.uV_t.clean (u : UnitSystem) (t : Num) : Clean D (XSteam.uV_t F u t) := by
  unfold XSteam.uV_t
  clean_walk

@[clean] theorem XSteam.uL_t.clean (u : UnitSystem) (t : Num) : Clean D (XSteam.uL_t F u t) := by
  unfold XSteam.uL_t
  clean_walk

@[clean] theorem XSteam.u_pt.clean (u : UnitSystem) (p : Num) (t : Num) : Clean D (XSteam.u_pt F u p t) := by
  unfold XSteam.u_pt
  clean_walk

@[clean] theorem XSteam.u_ph.clean (u : UnitSystem) (p : Num) (h : Num) : Clean D (XSteam.u_ph F u p h) := by
  unfold XSteam.u_ph
  clean_walk

@[clean] theorem XSteam.u_ps.clean (u : UnitSystem) (p : Num) (s : Num) : Clean D (XSteam.u_ps F u p s) := by
  unfold XSteam.u_ps
  clean_walk

@[clean] theorem XSteam.CpV_p.clean (u : UnitSystem) (p : Num) : Clean D (XSteam.CpV_p F u p) := by
  unfold XSteam.CpV_p
  clean_walk

@[clean] theorem XSteam.CpL_p.clean (u : UnitSystem) (p : Num) : Clean D (XSteam.CpL_p F u p) := by
  unfold XSteam.CpL_p
  clean_walk

@[clean] theorem XSteam.CpV_t.clean (u : UnitSystem) (t : Num) : Clean D (XSteam.CpV_t F u t) := by
  unfold XSteam.CpV_t
  clean_walk

@[clean] theorem XSteam.CpL_t.clean (u : UnitSystem) (t : Num) : Clean D (XSteam.CpL_t F u t) := by
  unfold XSteam.CpL_t
  clean_walk

@[clean] theorem XSteam.Cp_pt.clean (u : UnitSystem) (p : Num) (t : Num) : Clean D (XSteam.Cp_pt F u p t) := by
  unfold XSteam.Cp_pt
  clean_walk

@[clean] theorem XSteam.Cp_ph.clean (u : UnitSystem) (p : Num) (h : Num) : Clean D (XSteam.Cp_ph F u p h) := by
  unfold XSteam.Cp_ph
  clean_walk

@[clean] theorem XSteam.Cp_ps.clean (u : UnitSystem) (p : Num) (s : Num) : Clean D (XSteam.Cp_ps F u p s) := by
  unfold XSteam.Cp_ps
  clean_walk

@[clean] theorem XSteam.CvV_p.clean (u : UnitSystem) (p : Num) : Clean D (XSteam.CvV_p F u p) := by
  unfold XSteam.CvV_p
  clean_walk

@[clean] theorem XSteam.CvL_p.clean (u : UnitSystem) (p : Num) : Clean D (XSteam.CvL_p F u p) := by
  unfold XSteam.CvL_p
  clean_walk

@[clean] theorem XSteam.CvV_t.clean (u : UnitSystem) (t : Num) : Clean D (XSteam.CvV_t F u t) := by
  unfold XSteam.CvV_t
  clean_walk

@[clean] theorem XSteam.CvL_t.clean (u : UnitSystem) (t : Num) : Clean D (XSteam.CvL_t F u t) := by
  unfold XSteam.CvL_t
  clean_walk

@[clean] theorem XSteam.Cv_pt.clean (u : UnitSystem) (p : Num) (t : Num) : Clean D (XSteam.Cv_pt F u p t) := by
  unfold XSteam.Cv_pt
  clean_walk

@[clean] theorem XSteam.Cv_ph.clean (u : UnitSystem) (p : Num) (h : Num) : Clean D (XSteam.Cv_ph F u p h) := by
  unfold XSteam.Cv_ph
  clean_walk

@[clean] theorem XSteam.Cv_ps.clean (u : UnitSystem) (p : Num) (s : Num) : Clean D (XSteam.Cv_ps F u p s) := by
  unfold XSteam.Cv_ps
  clean_walk

@[clean] theorem XSteam.wV_p.clean (u : UnitSystem) (p : Num) : Clean D (XSteam.wV_p F u p) := by
  unfold XSteam.wV_p
  clean_walk

@[clean] theorem XSteam.wL_p.clean (u : UnitSystem) (p : Num) : Clean D (XSteam.wL_p F u p) := by
  unfold XSteam.wL_p
  clean_walk

@[clean] theorem XSteam.wV_t.clean (u : UnitSystem) (t : Num) : Clean D (XSteam.wV_t F u t) := by
  unfold XSteam.wV_t
  clean_walk

@[clean] theorem XSteam.wL_t.clean (u : UnitSystem) (t : Num) : Clean D (XSteam.wL_t F u t) := by
  unfold XSteam.wL_t
  clean_walk

@[clean] theorem XSteam.w_pt.clean (u : UnitSystem) (p : Num) (t : Num) : Clean D (XSteam.w_pt F u p t) := by
  unfold XSteam.w_pt
  clean_walk

@[clean] theorem XSteam.w_ph.clean (u : UnitSystem) (p : Num) (h : Num) : Clean D (XSteam.w_ph F u p h) := by
  unfold XSteam.w_ph
  clean_walk

@[clean] theorem XSteam.w_ps.clean (u : UnitSystem) (p : Num) (s : Num) : Clean D (XSteam.w_ps F u p s) := by
  unfold XSteam.w_ps
  clean_walk

@[clean] theorem XSteam.my_pt.clean (u : UnitSystem) (p : Num) (t : Num) : Clean D (XSteam.my_pt F u p t) := by
  unfold XSteam.my_pt
  clean_walk

@[clean] theorem XSteam.my_ph.clean (u : UnitSystem) (p : Num) (h : Num) : Clean D (XSteam.my_ph F u p h) := by
  unfold XSteam.my_ph
  clean_walk

@[clean] theorem XSteam.my_ps.clean (u : UnitSystem) (p : Num) (s : Num) : Clean D (XSteam.my_ps F u p s) := by
  unfold XSteam.my_ps
  clean_walk

@[clean] theorem XSteam.tc_pt.clean (u : UnitSystem) (p : Num) (t : Num) : Clean D (XSteam.tc_pt F u p t) := by
  unfold XSteam.tc_pt
  clean_walk

@[clean] theorem XSteam.pr_pt.clean (u : UnitSystem) (p : Num) (t : Num) : Clean D (XSteam.pr_pt F u p t) := by
  unfold XSteam.pr_pt
  clean_walk

@[clean] theorem XSteam.tc_ph.clean (u : UnitSystem) (p : Num) (h : Num) : Clean D (XSteam.tc_ph F u p h) := by
  unfold XSteam.tc_ph
  clean_walk

@[clean] theorem XSteam.pr_ph.clean (u : UnitSystem) (p : Num) (h : Num) : Clean D (XSteam.pr_ph F u p h) := by
  unfold XSteam.pr_ph
  clean_walk

@[clean] theorem XSteam.st_t.clean (u : UnitSystem) (t : Num) : Clean D (XSteam.st_t F u t) := by
  unfold XSteam.st_t
  clean_walk

@[clean] theorem XSteam.st_p.clean (u : UnitSystem) (p : Num) : Clean D (XSteam.st_p F u p) := by
  unfold XSteam.st_p
  clean_walk

@[clean] theorem XSteam.tcL_p.clean (u : UnitSystem) (p : Num) : Clean D (XSteam.tcL_p F u p) := by
  unfold XSteam.tcL_p
  clean_walk

@[clean] theorem XSteam.tcV_p.clean (u : UnitSystem) (p : Num) : Clean D (XSteam.tcV_p F u p) := by
  unfold XSteam.tcV_p
  clean_walk

@[clean] theorem XSteam.tcL_t.clean (u : UnitSystem) (t : Num) : Clean D (XSteam.tcL_t F u t) := by
  unfold XSteam.tcL_t
  clean_walk

@[clean] theorem XSteam.tcV_t.clean (u : UnitSystem) (t : Num) : Clean D (XSteam.tcV_t F u t) := by
  unfold XSteam.tcV_t
  clean_walk

@[clean] theorem XSteam.x_ph.clean (u : UnitSystem) (p : Num) (h : Num) : Clean D (XSteam.x_ph F u p h) := by
  unfold XSteam.x_ph
  clean_walk

@[clean] theorem XSteam.x_ps.clean (u : UnitSystem) (p : Num) (s : Num) : Clean D (XSteam.x_ps F u p s) := by
  unfold XSteam.x_ps
  clean_walk

@[clean] theorem XSteam.vx_ph.clean (u : UnitSystem) (p : Num) (h : Num) : Clean D (XSteam.vx_ph F u p h) := by
  unfold XSteam.vx_ph
  clean_walk

@[clean] theorem XSteam.vx_ps.clean (u : UnitSystem) (p : Num) (s : Num) : Clean D (XSteam.vx_ps F u p s) := by
  unfold XSteam.vx_ps
  clean_walk

@[clean] theorem XSteam.pmelt_t.clean (u : UnitSystem) (t : Num) (hint : PyVal) : Clean D (XSteam.pmelt_t F u t hint) := by
  unfold XSteam.pmelt_t
  clean_walk

@[clean] theorem XSteam.psubl_t.clean (u : UnitSystem) (t : Num) : Clean D (XSteam.psubl_t F u t) := by
  unfold XSteam.psubl_t
  clean_walk

@[clean] theorem XSteam_HW.criticalTemperatur.clean (u : UnitSystem) : Clean D (XSteam_HW.criticalTemperatur F u) := by
  unfold XSteam_HW.criticalTemperatur
  clean_walk

@[clean] theorem XSteam_HW.criticalPressure.clean (u : UnitSystem) : Clean D (XSteam_HW.criticalPressure F u) := by
  unfold XSteam_HW.criticalPressure
  clean_walk

@[clean] theorem XSteam_HW.criticalDensity.clean (u : UnitSystem) : Clean D (XSteam_HW.criticalDensity F u) := by
  unfold XSteam_HW.criticalDensity
  clean_walk

@[clean] theorem XSteam_HW.my_rhoT.clean (u : UnitSystem) (rho : Num) (T : Num) : Clean D (XSteam_HW.my_rhoT F u rho T) := by
  unfold XSteam_HW.my_rhoT
  clean_walk

@[clean] theorem XSteam_HW.tc_rhoT.clean (u : UnitSystem) (rho : Num) (T : Num) : Clean D (XSteam_HW.tc_rhoT F u rho T) := by
  unfold XSteam_HW.tc_rhoT
  clean_walk

/-! ## All calls -/

omit [DivOK F D] in
/-- use that the first run returned the value -/
theorem Clean.bind_run {α β : Type} {x : Py α} {f : α → Py β} (hx : Clean D x)
    (h : ∀ a, x.out = .ok a → Clean D (f a)) : Clean D (x >>= f) := by
  refine Clean.bind_post D (Q := fun a => x.out = .ok a) ?_ h
  rcases x with ⟨l, o⟩
  cases o with
  | ok a => exact rfl
  | raise e => exact hx
  | diverge => exact hx

omit [DivOK F D] in
/-- nothing is known about a run but its value -/
theorem Post.any' {α : Type} {x : Py α} {Q : List LogRec → α → Prop}
    (h : ∀ l a, x = ⟨l, .ok a⟩ → Q l a) : Post x Q (fun _ => True) True := by
  rcases x with ⟨l, o⟩
  cases o with
  | ok a => exact h l a rfl
  | raise e => trivial
  | diverge => trivial

/-- the inputs for which `T4_hs` is called with an unusable bracket -/
def WildHS (F : FP) (u : UnitSystem) (h s : Num) : Prop :=
  ∃ h' s', (UnitConverter.toSIunit_h F u h).out = .ok h' ∧
    (UnitConverter.toSIunit_s F u s).out = .ok s' ∧
    (RegionSelection.region_hs F h' s').out = .ok 4 ∧ Region4.T4_hs.Wild F h' s'

theorem XSteam.t_hs.clean_of' (u : UnitSystem) (h s : Num)
    (hT : ∀ h' s', (UnitConverter.toSIunit_h F u h).out = .ok h' →
      (UnitConverter.toSIunit_s F u s).out = .ok s' → (RegionSelection.region_hs F h' s').out = .ok 4 →
      Clean D (Region4.T4_hs F h' s')) :
    Clean D (XSteam.t_hs F u h s) := by
  unfold XSteam.t_hs
  refine Clean.bind_run D (by clean_walk) fun h' hh => ?_
  refine Clean.bind_run D (by clean_walk) fun s' hs => ?_
  refine Clean.bind_run D (by clean_walk) fun r hr => ?_
  by_cases h4 : r = 4
  · have hT := hT h' s' hh hs (by rw [hr, h4])
    clean_walk
    exact hT
  · simp only [if_neg h4]
    clean_walk

theorem XSteam.t_hs.clean_of (u : UnitSystem) (h s : Num) (hW : F.Grid → WildHS F u h s → D) :
    Clean D (XSteam.t_hs F u h s) :=
  XSteam.t_hs.clean_of' F D u h s fun h' s' hh hs hr =>
    Region4.T4_hs.clean_of F D h' s' fun hF hw => hW hF ⟨h', s', hh, hs, hr, hw⟩

theorem XSteam.p_hs.clean_of' (u : UnitSystem) (h s : Num)
    (hT : ∀ h' s', (UnitConverter.toSIunit_h F u h).out = .ok h' →
      (UnitConverter.toSIunit_s F u s).out = .ok s' → (RegionSelection.region_hs F h' s').out = .ok 4 →
      Clean D (Region4.T4_hs F h' s')) :
    Clean D (XSteam.p_hs F u h s) := by
  unfold XSteam.p_hs
  refine Clean.bind_run D (by clean_walk) fun h' hh => ?_
  refine Clean.bind_run D (by clean_walk) fun s' hs => ?_
  refine Clean.bind_run D (by clean_walk) fun r hr => ?_
  by_cases h4 : r = 4
  · have hT := hT h' s' hh hs (by rw [hr, h4])
    clean_walk
    exact hT
  · simp only [if_neg h4]
    clean_walk

theorem XSteam.p_hs.clean_of (u : UnitSystem) (h s : Num) (hW : F.Grid → WildHS F u h s → D) :
    Clean D (XSteam.p_hs F u h s) :=
  XSteam.p_hs.clean_of' F D u h s fun h' s' hh hs hr =>
    Region4.T4_hs.clean_of F D h' s' fun hF hw => hW hF ⟨h', s', hh, hs, hr, hw⟩

theorem XSteam.tc_hs.clean_of (u : UnitSystem) (h s : Num) (hW : F.Grid → WildHS F u h s → D) :
    Clean D (XSteam.tc_hs F u h s) := by
  have hp := XSteam.p_hs.clean_of F D u h s hW
  unfold XSteam.tc_hs
  refine Clean.bind hp (fun _ => ?_)
  clean_walk

/-- every call, with a hypothesis on the three that use `T4_hs` -/
theorem Call.clean_of (u : UnitSystem) (c : Call)
    (hW : ∀ h s, (c = .t_hs h s ∨ c = .p_hs h s ∨ c = .tc_hs h s) → F.Grid → WildHS F u h s → D) :
    Clean D (c.run F u) := by
  cases c <;> simp only [Call.run]
  case t_hs h s => exact XSteam.t_hs.clean_of F D u h s (hW h s (Or.inl rfl))
  case p_hs h s => exact XSteam.p_hs.clean_of F D u h s (hW h s (Or.inr (Or.inl rfl)))
  case tc_hs h s => exact XSteam.tc_hs.clean_of F D u h s (hW h s (Or.inr (Or.inr rfl)))
  all_goals clean_walk

/-- C36: no call of a public method raises `IndexError`, whatever the arguments and the arithmetic -/
theorem C36_no_index_error (F : FP) (u : UnitSystem) (c : Call) :
    (c.run F u).out ≠ .raise .index := by
  have : DivOK F True := ⟨fun _ => trivial⟩
  intro h
  exact (Call.clean_of F True u c (fun _ _ _ _ _ => trivial)).elimErr h rfl

/-- C25, the public methods: in finite precision every call of a public method ends; for `t_hs`, `p_hs`
and `tc_hs` the pressure the bisection starts from must be below 10⁶ MPa -/
theorem C25_calls_end (F : FP) (hF : F.Grid) (u : UnitSystem) (c : Call)
    (hW : ∀ h s, (c = .t_hs h s ∨ c = .p_hs h s ∨ c = .tc_hs h s) → ¬ WildHS F u h s) :
    (c.run F u).out ≠ .diverge := by
  have : DivOK F False := ⟨fun h => h hF⟩
  intro h
  exact (Call.clean_of F False u c (fun h s hc _ => hW h s hc)).elimDiv h

/-- C25, the loops: in finite precision every function with a bisection loop ends, for all arguments -/
theorem C25_loops_end (F : FP) (hF : F.Grid) (a b : Num) :
    (Region1.T1_prho F a b).out ≠ .diverge ∧ (Region2.T2_prho F a b).out ≠ .diverge ∧
    (Region3.T3_prho F a b).out ≠ .diverge ∧ (Region5.T5_prho F a b).out ≠ .diverge ∧
    (Region3.h3_pT F a b).out ≠ .diverge ∧ (Region5.T5_ph F a b).out ≠ .diverge ∧
    (Region5.T5_ps F a b).out ≠ .diverge ∧ (Region4.h4L_p F a).out ≠ .diverge ∧
    (Region4.h4V_p F a).out ≠ .diverge ∧ (IAPWS_R4.myHW_rhoT_R4 F a b).out ≠ .diverge := by
  have : DivOK F False := ⟨fun h => h hF⟩
  refine ⟨?_, ?_, ?_, ?_, ?_, ?_, ?_, ?_, ?_, ?_⟩
  · exact (Region1.T1_prho.clean F False a b).elimDiv
  · exact (Region2.T2_prho.clean F False a b).elimDiv
  · exact (Region3.T3_prho.clean F False a b).elimDiv
  · exact (Region5.T5_prho.clean F False a b).elimDiv
  · exact (Region3.h3_pT.clean F False a b).elimDiv
  · exact (Region5.T5_ph.clean F False a b).elimDiv
  · exact (Region5.T5_ps.clean F False a b).elimDiv
  · exact (Region4.h4L_p.clean F False a).elimDiv
  · exact (Region4.h4V_p.clean F False a).elimDiv
  · exact (IAPWS_R4.myHW_rhoT_R4.clean F False a b).elimDiv

/-- C27: whenever `p_hrho` returns a value, it is 10 MPa in the unit system, whatever `h` and `rho` -/
theorem C27_p_hrho (F : FP) (u : UnitSystem) (h rho r : Num)
    (hr : (XSteam.p_hrho F u h rho).out = .ok r) :
    (UnitConverter.fromSIunit_p F u (Num.ofInt 10)).out = .ok r := by
  have key : Post (XSteam.p_hrho F u h rho)
      (fun _ r => (UnitConverter.fromSIunit_p F u (Num.ofInt 10)).out = .ok r)
      (fun _ => True) True := by
    unfold XSteam.p_hrho
    simp only [bind_pure, pure_bind]
    refine Post.ite (fun _ => ?_) (fun _ => ?_)
    · exact Post.bind (Post.logError (Post.raise trivial))
    · refine Post.bind (Post.any' fun _ h' _ => ?_)
      refine Post.bind (Post.any' fun _ hi _ => ?_)
      refine Post.bind (Post.any' fun _ lo _ => ?_)
      refine Post.bind (Post.any' fun _ ps hps => ?_)
      rw [← bind_assoc]
      refine Post.bind (Post.any' fun l r hr => ?_)
      obtain ⟨l', hl'⟩ := XSteam.p_hrho.loop F u h' rho ps hi lo r _ hr
      simp only [hl', Py.bind_def, Py.andThen]
      exact congrArg Py.out hps
  exact key.elim hr

/-- IEEE binary64 is such an arithmetic: a saturation pressure lookup over the bisection `T3_prho` ends -/
example (a b : ℝ) : (Region3.T3_prho FP.binary64 (.fin a) (.fin b)).out ≠ .diverge :=
  (C25_loops_end _ Binary64.grid _ _).2.2.1

/-- below the entropy of the critical isentrope no hypothesis is needed -/
example (h : Num) : ¬ Region4.T4_hs.Wild FP.binary64 h (.fin 1) := by
  have lt (q : ℚ) (h1 : (1 : ℝ) ≤ q) (h2 : (q : ℝ) ≤ 4000000) : ¬ FP.binary64.lit q < .fin 1 := by
    obtain ⟨y, hy, -⟩ := Binary64.grid.fine q (by rw [abs_of_nonneg (by linarith)]; exact h2)
    have h3 := Binary64.grid.int_exact 1 (by norm_num)
    have := Binary64.grid.mono 1 q 1 y h1 (by exact_mod_cast h3) hy
    rw [FP.lit, hy, fin_lt]
    exact not_lt.2 this
  rintro ⟨h | h, -⟩
  · exact lt _ (by norm_num) (by norm_num) h.1
  · exact lt _ (by norm_num) (by norm_num) h.1

end PyX
