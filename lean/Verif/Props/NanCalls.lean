import Verif.Props.NanOut

/-!
# C35: NaN in, NaN out
-/

namespace PyX

open Classical Py

set_option linter.unusedSimpArgs false
set_option linter.unusedVariables false

/-! ### kernels -/

theorem Region1.v1_pT.nan_p (F : FP) (T : Num) : NanOut (Region1.v1_pT F .nan T) := by
  unfold Region1.v1_pT
  try simp only [bind_pure, pure_bind, bind_assoc]
  nan_walk

theorem Region1.h1_pT.nan_p (F : FP) (T : Num) : NanOut (Region1.h1_pT F .nan T) := by
  unfold Region1.h1_pT
  try simp only [bind_pure, pure_bind, bind_assoc]
  nan_walk

theorem Region1.s1_pT.nan_p (F : FP) (T : Num) : NanOut (Region1.s1_pT F .nan T) := by
  unfold Region1.s1_pT
  try simp only [bind_pure, pure_bind, bind_assoc]
  nan_walk

theorem Region2.v2_pT.nan_p (F : FP) (T : Num) : NanOut (Region2.v2_pT F .nan T) := by
  unfold Region2.v2_pT
  try simp only [bind_pure, pure_bind, bind_assoc]
  nan_walk

theorem Region2.h2_pT.nan_p (F : FP) (T : Num) : NanOut (Region2.h2_pT F .nan T) := by
  unfold Region2.h2_pT
  try simp only [bind_pure, pure_bind, bind_assoc]
  nan_walk

theorem Region2.s2_pT.nan_p (F : FP) (T : Num) : NanOut (Region2.s2_pT F .nan T) := by
  unfold Region2.s2_pT
  try simp only [bind_pure, pure_bind, bind_assoc]
  nan_walk

theorem Region5.s5_pT.nan_p (F : FP) (T : Num) : NanOut (Region5.s5_pT F .nan T) := by
  unfold Region5.s5_pT
  try simp only [bind_pure, pure_bind, bind_assoc]
  nan_walk

theorem Region1.v1_pT.nan_T (F : FP) (p : Num) : NanOut (Region1.v1_pT F p .nan) := by
  unfold Region1.v1_pT
  try simp only [bind_pure, pure_bind, bind_assoc]
  nan_walk

theorem Region1.h1_pT.nan_T (F : FP) (p : Num) : NanOut (Region1.h1_pT F p .nan) := by
  unfold Region1.h1_pT
  try simp only [bind_pure, pure_bind, bind_assoc]
  nan_walk

theorem Region1.u1_pT.nan_T (F : FP) (p : Num) : NanOut (Region1.u1_pT F p .nan) := by
  unfold Region1.u1_pT
  try simp only [bind_pure, pure_bind, bind_assoc]
  nan_walk

theorem Region1.Cp1_pT.nan_T (F : FP) (p : Num) : NanOut (Region1.Cp1_pT F p .nan) := by
  unfold Region1.Cp1_pT
  try simp only [bind_pure, pure_bind, bind_assoc]
  nan_walk

theorem Region1.Cv1_pT.nan_T (F : FP) (p : Num) : NanOut (Region1.Cv1_pT F p .nan) := by
  unfold Region1.Cv1_pT
  try simp only [bind_pure, pure_bind, bind_assoc]
  nan_walk

theorem Region1.s1_pT.nan_T (F : FP) (p : Num) : NanOut (Region1.s1_pT F p .nan) := by
  unfold Region1.s1_pT
  try simp only [bind_pure, pure_bind, bind_assoc]
  nan_walk

theorem Region1.T1_ps.nan_p (F : FP) (s : Num) : NanOut (Region1.T1_ps F .nan s) := by
  unfold Region1.T1_ps
  try simp only [bind_pure, pure_bind, bind_assoc]
  nan_walk

theorem Region1.T1_ps.nan_s (F : FP) (p : Num) : NanOut (Region1.T1_ps F p .nan) := by
  unfold Region1.T1_ps
  try simp only [bind_pure, pure_bind, bind_assoc]
  nan_walk

theorem Region2.p2_hs.nan_h (F : FP) (s : Num) : NanOut (Region2.p2_hs F .nan s) := by
  unfold Region2.p2_hs
  try simp only [bind_pure, pure_bind, bind_assoc]
  nan_walk

theorem Region2.p2_hs.nan_s (F : FP) (h : Num) : NanOut (Region2.p2_hs F h .nan) := by
  unfold Region2.p2_hs
  try simp only [bind_pure, pure_bind, bind_assoc]
  nan_walk

theorem Region2.T2_ph.nan_p (F : FP) (h : Num) : NanOut (Region2.T2_ph F .nan h) := by
  unfold Region2.T2_ph
  try simp only [bind_pure, pure_bind, bind_assoc]
  nan_walk

theorem Region2.T2_ph.nan_h (F : FP) (p : Num) : NanOut (Region2.T2_ph F p .nan) := by
  unfold Region2.T2_ph
  try simp only [bind_pure, pure_bind, bind_assoc]
  nan_walk

theorem RegionBorders.TB23_hs.nan_h (F : FP) (s : Num) : NanOut (RegionBorders.TB23_hs F .nan s) := by
  unfold RegionBorders.TB23_hs
  try simp only [bind_pure, pure_bind, bind_assoc]
  nan_walk

theorem RegionBorders.B23p_T.nan_T (F : FP) : NanOut (RegionBorders.B23p_T F .nan) := by
  unfold RegionBorders.B23p_T
  try simp only [bind_pure, pure_bind, bind_assoc]
  nan_walk

theorem IAPWS_R14.psubl_T.nan_T (F : FP) : NanOut (IAPWS_R14.psubl_T F .nan) := by
  unfold IAPWS_R14.psubl_T
  try simp only [bind_pure, pure_bind, bind_assoc]
  nan_walk

theorem NanOut.half {F : FP} (hF : F.Sane) : NanOut (F.pow .nan (F.lit 0.5)) :=
  NanOut.pow_lit F hF (by norm_num) (by norm_num)

theorem Region1.w1_pT.nan_T {F : FP} (hF : F.Sane) (p : Num) : NanOut (Region1.w1_pT F p .nan) := by
  have := NanOut.half hF
  unfold Region1.w1_pT
  nan_walk

theorem Region4.x4_ph.nan_h (F : FP) (p : Num) : NanOut (Region4.x4_ph F p .nan) := by
  unfold Region4.x4_ph
  simp only [gt_num, not_lt_nan, not_nan_lt, if_false, bind_pure]
  nan_walk

theorem Region4.x4_ps.nan_s (F : FP) (p : Num) : NanOut (Region4.x4_ps F p .nan) := by
  unfold Region4.x4_ps
  simp only [gt_num, not_lt_nan, not_nan_lt, if_false, bind_pure]
  nan_walk

/-! ### region selection -/

/-- if the run returns, then one of these codes -/
def Codes (S : List ℤ) (x : Py ℤ) : Prop := Post x (fun _ r => r ∈ S) (fun _ => True) True

theorem Codes.ret {S : List ℤ} {r : ℤ} (h : r ∈ S) : Codes S (pure r) := h
theorem Codes.raise {S : List ℤ} {e : Err} : Codes S (Py.raise e) := trivial
theorem Codes.skip {S : List ℤ} {α : Type} {x : Py α} {f : α → Py ℤ} (h : ∀ a, Codes S (f a)) :
    Codes S (x >>= f) :=
  Post.bind (Post.any (fun _ a => h a) (fun _ => trivial) trivial)
theorem Codes.bind {S : List ℤ} {x : Py Num} {f : Num → Py ℤ} (hx : NanOut x) (h : Codes S (f .nan)) :
    Codes S (x >>= f) :=
  Post.bind (hx.mono (fun _ a ha => by subst ha; exact h) (fun _ h => h) id)
theorem Codes.ite {S : List ℤ} {c : Prop} {_ : Decidable c} {x y : Py ℤ} (h₁ : Codes S x)
    (h₂ : Codes S y) : Codes S (if c then x else y) := Post.ite (fun _ => h₁) (fun _ => h₂)

/-- if the run returns, then `false` -/
def IsFalse (x : Py Bool) : Prop := Post x (fun _ r => r = false) (fun _ => True) True

theorem IsFalse.ret {r : Bool} (h : r = false) : IsFalse (pure r) := h
theorem IsFalse.raise {e : Err} : IsFalse (Py.raise e) := trivial
theorem IsFalse.skip {α : Type} {x : Py α} {f : α → Py Bool} (h : ∀ a, IsFalse (f a)) :
    IsFalse (x >>= f) :=
  Post.bind (Post.any (fun _ a => h a) (fun _ => trivial) trivial)
theorem IsFalse.bind {x : Py Num} {f : Num → Py Bool} (hx : NanOut x) (h : IsFalse (f .nan)) :
    IsFalse (x >>= f) :=
  Post.bind (hx.mono (fun _ a ha => by subst ha; exact h) (fun _ h => h) id)
theorem IsFalse.ite {c : Prop} {_ : Decidable c} {x y : Py Bool} (h₁ : IsFalse x)
    (h₂ : IsFalse y) : IsFalse (if c then x else y) := Post.ite (fun _ => h₁) (fun _ => h₂)
theorem Codes.bind_false {S : List ℤ} {x : Py Bool} {f : Bool → Py ℤ} (hx : IsFalse x)
    (h : Codes S (f false)) : Codes S (x >>= f) :=
  Post.bind (hx.mono (fun _ a ha => by subst ha; exact h) (fun _ h => h) id)

attribute [nanout] Region1.v1_pT.nan_p Region1.h1_pT.nan_p Region1.s1_pT.nan_p Region2.v2_pT.nan_p
  Region2.h2_pT.nan_p Region2.s2_pT.nan_p Region5.s5_pT.nan_p Region1.v1_pT.nan_T Region1.h1_pT.nan_T
  Region1.u1_pT.nan_T Region1.Cp1_pT.nan_T Region1.Cv1_pT.nan_T Region1.s1_pT.nan_T Region1.T1_ps.nan_p
  Region1.T1_ps.nan_s Region2.p2_hs.nan_h Region2.p2_hs.nan_s Region2.T2_ph.nan_p Region2.T2_ph.nan_h
  RegionBorders.TB23_hs.nan_h RegionBorders.B23p_T.nan_T IAPWS_R14.psubl_T.nan_T Region4.x4_ph.nan_h
  Region4.x4_ps.nan_s

macro "false_walk" : tactic => `(tactic|
  repeat' (with_reducible first
    | (refine IsFalse.ret ?_; simp only [gt_num, ge_num, not_lt_nan, not_nan_lt, not_le_nan, not_nan_le,
        decide_false]; done)
    | exact IsFalse.raise
    | (simp only [gt_num, ge_num, not_lt_nan, not_nan_lt, not_le_nan, not_nan_le, and_false, false_and,
        or_false, if_false, decide_false, Bool.false_eq_true, nanout])
    | (refine IsFalse.bind ?_ ?_ <;> [(nan_leaf; done); skip])
    | (refine IsFalse.skip (fun _ => ?_))
    | apply IsFalse.ite))

macro "codes_walk" : tactic => `(tactic|
  repeat' (with_reducible first
    | (refine Codes.ret ?_; simp only [List.mem_cons, List.not_mem_nil, true_or, or_true]; done)
    | exact Codes.raise
    | (simp only [gt_num, ge_num, not_lt_nan, not_nan_lt, not_le_nan, not_nan_le, and_false, false_and,
        or_false, if_false, decide_false, Bool.false_eq_true, nanout])
    | (refine Codes.bind ?_ ?_ <;> [(nan_leaf; done); skip])
    | (refine Codes.bind_false ?_ ?_ <;> [(false_walk; done); skip])
    | (refine Codes.skip (fun _ => ?_))
    | apply Codes.ite
    | split))

theorem region_pT_nan_p (F : FP) (T : Num) : Codes [0] (RegionSelection.region_pT F .nan T) := by
  unfold RegionSelection.region_pT
  simp only [bind_pure, pure_bind, bind_assoc]
  codes_walk
theorem region_pT_nan_T (F : FP) (p : Num) : Codes [0] (RegionSelection.region_pT F p .nan) := by
  unfold RegionSelection.region_pT
  simp only [bind_pure, pure_bind, bind_assoc]
  codes_walk
theorem region_ph_nan_p (F : FP) (h : Num) : Codes [0] (RegionSelection.region_ph F .nan h) := by
  unfold RegionSelection.region_ph RegionSelection.region_ph.rest
  simp only [bind_pure, pure_bind, bind_assoc]
  codes_walk
theorem region_ph_nan_h (F : FP) (p : Num) : Codes [0] (RegionSelection.region_ph F p .nan) := by
  unfold RegionSelection.region_ph RegionSelection.region_ph.rest
  simp only [bind_pure, pure_bind, bind_assoc]
  codes_walk
theorem region_ps_nan_p (F : FP) (s : Num) : Codes [0, 1] (RegionSelection.region_ps F .nan s) := by
  unfold RegionSelection.region_ps
  simp only [bind_pure, pure_bind, bind_assoc]
  codes_walk
theorem region_ps_nan_s (F : FP) (p : Num) : Codes [0, 1] (RegionSelection.region_ps F p .nan) := by
  unfold RegionSelection.region_ps
  simp only [bind_pure, pure_bind, bind_assoc]
  codes_walk
theorem region_hs_nan_h (F : FP) (s : Num) : Codes [0, 2] (RegionSelection.region_hs F .nan s) := by
  unfold RegionSelection.region_hs
  simp only [bind_pure, pure_bind, bind_assoc]
  codes_walk
theorem region_hs_nan_s (F : FP) (h : Num) : Codes [0] (RegionSelection.region_hs F h .nan) := by
  unfold RegionSelection.region_hs
  simp only [bind_pure, pure_bind, bind_assoc]
  codes_walk
theorem region_prho_nan_p (F : FP) (rho : Num) : Codes [0] (RegionSelection.region_prho F .nan rho) := by
  unfold RegionSelection.region_prho RegionSelection.region_prho.rest
  simp only [bind_pure, pure_bind, bind_assoc]
  codes_walk
theorem region_prho_nan_rho (F : FP) (p : Num) : Codes [0] (RegionSelection.region_prho F p .nan) := by
  unfold RegionSelection.region_prho RegionSelection.region_prho.rest
  simp only [bind_pure, pure_bind, bind_assoc]
  codes_walk

/-! ### calls -/

theorem NanOut.codes {S : List ℤ} {x : Py ℤ} {f : ℤ → Py Num} (hx : Codes S x)
    (h : ∀ r ∈ S, NanOut (f r)) : NanOut (x >>= f) :=
  Post.bind (hx.mono (fun _ a ha => h a ha) (fun _ h => h) id)

theorem NanOut.codes0 {a : ℤ} {x : Py ℤ} {f : ℤ → Py Num} (hx : Codes [a] x)
    (h : NanOut (f a)) : NanOut (x >>= f) :=
  NanOut.codes hx (by rintro r hr; simp only [List.mem_singleton] at hr; subst hr; exact h)
theorem NanOut.codes2 {a b : ℤ} {x : Py ℤ} {f : ℤ → Py Num} (hx : Codes [a, b] x)
    (h : NanOut (f a)) (h' : NanOut (f b)) : NanOut (x >>= f) :=
  NanOut.codes hx (by
    rintro r hr; simp only [List.mem_cons, List.not_mem_nil, or_false] at hr
    rcases hr with rfl | rfl; exacts [h, h'])

theorem NanOut.fraction {F : FP} (hF : F.Sane) (u : UnitSystem) {c : FP → UnitSystem → Num → Py Num}
    (hc : c ∈ fractionConverters) : NanOut (c F u .nan) := by
  have h := ((C03_fraction F hF u .nan c hc).2 (by rintro ⟨r, h, -⟩; cases h)).1
  generalize c F u .nan = x at h
  rcases x with ⟨l, o⟩
  subst h
  trivial

section
variable {F : FP} [hF : Fact F.Sane] (u : UnitSystem)

theorem toSI_p_nan : UnitConverter.toSIunit_p F u .nan = pure .nan :=
  Quantity.toSI_nan' hF.out u .p
theorem toSI_T_nan : UnitConverter.toSIunit_T F u .nan = pure .nan :=
  Quantity.toSI_nan' hF.out u .T
theorem toSI_h_nan : UnitConverter.toSIunit_h F u .nan = pure .nan :=
  Quantity.toSI_nan' hF.out u .h
theorem toSI_v_nan : UnitConverter.toSIunit_v F u .nan = pure .nan :=
  Quantity.toSI_nan' hF.out u .v
theorem toSI_s_nan : UnitConverter.toSIunit_s F u .nan = pure .nan :=
  Quantity.toSI_nan' hF.out u .s
theorem toSI_u_nan : UnitConverter.toSIunit_u F u .nan = pure .nan :=
  Quantity.toSI_nan' hF.out u .u
theorem toSI_Cp_nan : UnitConverter.toSIunit_Cp F u .nan = pure .nan :=
  Quantity.toSI_nan' hF.out u .Cp
theorem toSI_Cv_nan : UnitConverter.toSIunit_Cv F u .nan = pure .nan :=
  Quantity.toSI_nan' hF.out u .Cv
theorem toSI_w_nan : UnitConverter.toSIunit_w F u .nan = pure .nan :=
  Quantity.toSI_nan' hF.out u .w
theorem toSI_tc_nan : UnitConverter.toSIunit_tc F u .nan = pure .nan :=
  Quantity.toSI_nan' hF.out u .tc
theorem toSI_st_nan : UnitConverter.toSIunit_st F u .nan = pure .nan :=
  Quantity.toSI_nan' hF.out u .st
theorem toSI_my_nan : UnitConverter.toSIunit_my F u .nan = pure .nan :=
  Quantity.toSI_nan' hF.out u .my
theorem fromSI_p_nan : UnitConverter.fromSIunit_p F u .nan = pure .nan :=
  Quantity.fromSI_nan' hF.out u .p
theorem fromSI_T_nan : UnitConverter.fromSIunit_T F u .nan = pure .nan :=
  Quantity.fromSI_nan' hF.out u .T
theorem fromSI_h_nan : UnitConverter.fromSIunit_h F u .nan = pure .nan :=
  Quantity.fromSI_nan' hF.out u .h
theorem fromSI_v_nan : UnitConverter.fromSIunit_v F u .nan = pure .nan :=
  Quantity.fromSI_nan' hF.out u .v
theorem fromSI_s_nan : UnitConverter.fromSIunit_s F u .nan = pure .nan :=
  Quantity.fromSI_nan' hF.out u .s
theorem fromSI_u_nan : UnitConverter.fromSIunit_u F u .nan = pure .nan :=
  Quantity.fromSI_nan' hF.out u .u
theorem fromSI_Cp_nan : UnitConverter.fromSIunit_Cp F u .nan = pure .nan :=
  Quantity.fromSI_nan' hF.out u .Cp
theorem fromSI_Cv_nan : UnitConverter.fromSIunit_Cv F u .nan = pure .nan :=
  Quantity.fromSI_nan' hF.out u .Cv
theorem fromSI_w_nan : UnitConverter.fromSIunit_w F u .nan = pure .nan :=
  Quantity.fromSI_nan' hF.out u .w
theorem fromSI_tc_nan : UnitConverter.fromSIunit_tc F u .nan = pure .nan :=
  Quantity.fromSI_nan' hF.out u .tc
theorem fromSI_st_nan : UnitConverter.fromSIunit_st F u .nan = pure .nan :=
  Quantity.fromSI_nan' hF.out u .st
theorem fromSI_my_nan : UnitConverter.fromSIunit_my F u .nan = pure .nan :=
  Quantity.fromSI_nan' hF.out u .my
theorem fromSI_x_nan : NanOut (UnitConverter.fromSIunit_x F u .nan) :=
  NanOut.fraction (c := UnitConverter.fromSIunit_x) hF.out u (by simp [fractionConverters])
theorem fromSI_vx_nan : NanOut (UnitConverter.fromSIunit_vx F u .nan) :=
  NanOut.fraction (c := UnitConverter.fromSIunit_vx) hF.out u (by simp [fractionConverters])
theorem Region1.w1_pT.nan_T' (p : Num) : NanOut (Region1.w1_pT F p .nan) := Region1.w1_pT.nan_T hF.out p
theorem Surface_Tension_nan' : NanOut (TransportProperties.Surface_Tension_T F .nan) :=
  Surface_Tension_nan F hF.out
end

attribute [nanout] fromSI_x_nan fromSI_vx_nan Region1.w1_pT.nan_T' Surface_Tension_nan' tc_ptrho_nan_rho
  tc_ptrho_nan_T myHW_nan_rho myHW_nan_T tcHW_nan_rho tcHW_nan_T
  toSI_p_nan toSI_T_nan toSI_h_nan toSI_v_nan toSI_s_nan toSI_u_nan
  toSI_Cp_nan toSI_Cv_nan toSI_w_nan toSI_tc_nan toSI_st_nan toSI_my_nan
  fromSI_p_nan fromSI_T_nan fromSI_h_nan fromSI_v_nan fromSI_s_nan fromSI_u_nan
  fromSI_Cp_nan fromSI_Cv_nan fromSI_w_nan fromSI_tc_nan fromSI_st_nan fromSI_my_nan

macro "call_walk" : tactic => `(tactic|
  repeat' (with_reducible first
    | (refine NanOut.ret ?_; simp only [nanout]; done)
    | (nan_leaf; done)
    | (simp only [gt_num, ge_num, not_lt_nan, not_nan_lt, not_le_nan, not_nan_le, and_false, false_and,
        or_false, if_false, if_true, Int.reduceEq, List.mem_cons, List.not_mem_nil, or_self, or_true,
        true_or, pure_bind, nanout])
    | refine NanOut.codes0 (region_pT_nan_p _ _) ?_
    | refine NanOut.codes0 (region_pT_nan_T _ _) ?_
    | refine NanOut.codes0 (region_ph_nan_p _ _) ?_
    | refine NanOut.codes0 (region_ph_nan_h _ _) ?_
    | (refine NanOut.codes2 (region_ps_nan_p _ _) ?_ ?_)
    | (refine NanOut.codes2 (region_ps_nan_s _ _) ?_ ?_)
    | (refine NanOut.codes2 (region_hs_nan_h _ _) ?_ ?_)
    | refine NanOut.codes0 (region_hs_nan_s _ _) ?_
    | refine NanOut.codes0 (region_prho_nan_p _ _) ?_
    | refine NanOut.codes0 (region_prho_nan_rho _ _) ?_
    | (refine NanOut.bind ?_ ?_ <;> [(nan_leaf; done); skip])
    | apply NanOut.ite
    | (refine NanOut.skip (fun _ => ?_))
    | split))

@[nanout] theorem XSteam.tsat_p.nan_p {F : FP} [Fact F.Sane] (u : UnitSystem)  : NanOut (XSteam.tsat_p F u .nan) := by
  unfold XSteam.tsat_p
  call_walk
@[nanout] theorem XSteam.tsat_s.nan_s {F : FP} [Fact F.Sane] (u : UnitSystem)  : NanOut (XSteam.tsat_s F u .nan) := by
  unfold XSteam.tsat_s
  call_walk
@[nanout] theorem XSteam.t_ph.nan_p {F : FP} [Fact F.Sane] (u : UnitSystem) (h : Num) : NanOut (XSteam.t_ph F u .nan h) := by
  unfold XSteam.t_ph
  call_walk
@[nanout] theorem XSteam.t_ph.nan_h {F : FP} [Fact F.Sane] (u : UnitSystem) (p : Num) : NanOut (XSteam.t_ph F u p .nan) := by
  unfold XSteam.t_ph
  call_walk
@[nanout] theorem XSteam.t_ps.nan_p {F : FP} [Fact F.Sane] (u : UnitSystem) (s : Num) : NanOut (XSteam.t_ps F u .nan s) := by
  unfold XSteam.t_ps
  call_walk
@[nanout] theorem XSteam.t_ps.nan_s {F : FP} [Fact F.Sane] (u : UnitSystem) (p : Num) : NanOut (XSteam.t_ps F u p .nan) := by
  unfold XSteam.t_ps
  call_walk
@[nanout] theorem XSteam.t_hs.nan_h {F : FP} [Fact F.Sane] (u : UnitSystem) (s : Num) : NanOut (XSteam.t_hs F u .nan s) := by
  unfold XSteam.t_hs
  call_walk
@[nanout] theorem XSteam.t_hs.nan_s {F : FP} [Fact F.Sane] (u : UnitSystem) (h : Num) : NanOut (XSteam.t_hs F u h .nan) := by
  unfold XSteam.t_hs
  call_walk
@[nanout] theorem XSteam.psat_s.nan_s {F : FP} [Fact F.Sane] (u : UnitSystem)  : NanOut (XSteam.psat_s F u .nan) := by
  unfold XSteam.psat_s
  call_walk
@[nanout] theorem XSteam.psat_t.nan_t {F : FP} [Fact F.Sane] (u : UnitSystem)  : NanOut (XSteam.psat_t F u .nan) := by
  unfold XSteam.psat_t
  call_walk
@[nanout] theorem XSteam.p_hs.nan_h {F : FP} [Fact F.Sane] (u : UnitSystem) (s : Num) : NanOut (XSteam.p_hs F u .nan s) := by
  unfold XSteam.p_hs
  call_walk
@[nanout] theorem XSteam.p_hs.nan_s {F : FP} [Fact F.Sane] (u : UnitSystem) (h : Num) : NanOut (XSteam.p_hs F u h .nan) := by
  unfold XSteam.p_hs
  call_walk
@[nanout] theorem XSteam.v_ph.nan_p {F : FP} [Fact F.Sane] (u : UnitSystem) (h : Num) : NanOut (XSteam.v_ph F u .nan h) := by
  unfold XSteam.v_ph
  call_walk
@[nanout] theorem XSteam.v_ph.nan_h {F : FP} [Fact F.Sane] (u : UnitSystem) (p : Num) : NanOut (XSteam.v_ph F u p .nan) := by
  unfold XSteam.v_ph
  call_walk
@[nanout] theorem XSteam.hV_p.nan_p {F : FP} [Fact F.Sane] (u : UnitSystem)  : NanOut (XSteam.hV_p F u .nan) := by
  unfold XSteam.hV_p
  call_walk
@[nanout] theorem XSteam.hL_p.nan_p {F : FP} [Fact F.Sane] (u : UnitSystem)  : NanOut (XSteam.hL_p F u .nan) := by
  unfold XSteam.hL_p
  call_walk
@[nanout] theorem XSteam.hV_t.nan_t {F : FP} [Fact F.Sane] (u : UnitSystem)  : NanOut (XSteam.hV_t F u .nan) := by
  unfold XSteam.hV_t
  call_walk
@[nanout] theorem XSteam.hL_t.nan_t {F : FP} [Fact F.Sane] (u : UnitSystem)  : NanOut (XSteam.hL_t F u .nan) := by
  unfold XSteam.hL_t
  call_walk
@[nanout] theorem XSteam.h_pt.nan_p {F : FP} [Fact F.Sane] (u : UnitSystem) (t : Num) : NanOut (XSteam.h_pt F u .nan t) := by
  unfold XSteam.h_pt
  call_walk
@[nanout] theorem XSteam.h_pt.nan_t {F : FP} [Fact F.Sane] (u : UnitSystem) (p : Num) : NanOut (XSteam.h_pt F u p .nan) := by
  unfold XSteam.h_pt
  call_walk
@[nanout] theorem XSteam.h_ps.nan_p {F : FP} [Fact F.Sane] (u : UnitSystem) (s : Num) : NanOut (XSteam.h_ps F u .nan s) := by
  unfold XSteam.h_ps
  call_walk
@[nanout] theorem XSteam.h_ps.nan_s {F : FP} [Fact F.Sane] (u : UnitSystem) (p : Num) : NanOut (XSteam.h_ps F u p .nan) := by
  unfold XSteam.h_ps
  call_walk
@[nanout] theorem XSteam.h_prho.nan_p {F : FP} [Fact F.Sane] (u : UnitSystem) (rho : Num) : NanOut (XSteam.h_prho F u .nan rho) := by
  unfold XSteam.h_prho
  call_walk
@[nanout] theorem XSteam.h_prho.nan_rho {F : FP} [Fact F.Sane] (u : UnitSystem) (p : Num) : NanOut (XSteam.h_prho F u p .nan) := by
  unfold XSteam.h_prho
  call_walk
@[nanout] theorem XSteam.vV_p.nan_p {F : FP} [Fact F.Sane] (u : UnitSystem)  : NanOut (XSteam.vV_p F u .nan) := by
  unfold XSteam.vV_p
  call_walk
@[nanout] theorem XSteam.vL_p.nan_p {F : FP} [Fact F.Sane] (u : UnitSystem)  : NanOut (XSteam.vL_p F u .nan) := by
  unfold XSteam.vL_p
  call_walk
@[nanout] theorem XSteam.vV_t.nan_t {F : FP} [Fact F.Sane] (u : UnitSystem)  : NanOut (XSteam.vV_t F u .nan) := by
  unfold XSteam.vV_t
  call_walk
@[nanout] theorem XSteam.vL_t.nan_t {F : FP} [Fact F.Sane] (u : UnitSystem)  : NanOut (XSteam.vL_t F u .nan) := by
  unfold XSteam.vL_t
  call_walk
@[nanout] theorem XSteam.v_pt.nan_p {F : FP} [Fact F.Sane] (u : UnitSystem) (t : Num) : NanOut (XSteam.v_pt F u .nan t) := by
  unfold XSteam.v_pt
  call_walk
@[nanout] theorem XSteam.v_pt.nan_t {F : FP} [Fact F.Sane] (u : UnitSystem) (p : Num) : NanOut (XSteam.v_pt F u p .nan) := by
  unfold XSteam.v_pt
  call_walk
@[nanout] theorem XSteam.v_ps.nan_p {F : FP} [Fact F.Sane] (u : UnitSystem) (s : Num) : NanOut (XSteam.v_ps F u .nan s) := by
  unfold XSteam.v_ps
  call_walk
@[nanout] theorem XSteam.v_ps.nan_s {F : FP} [Fact F.Sane] (u : UnitSystem) (p : Num) : NanOut (XSteam.v_ps F u p .nan) := by
  unfold XSteam.v_ps
  call_walk
@[nanout] theorem XSteam.rhoV_p.nan_p {F : FP} [Fact F.Sane] (u : UnitSystem)  : NanOut (XSteam.rhoV_p F u .nan) := by
  unfold XSteam.rhoV_p
  call_walk
@[nanout] theorem XSteam.rhoL_p.nan_p {F : FP} [Fact F.Sane] (u : UnitSystem)  : NanOut (XSteam.rhoL_p F u .nan) := by
  unfold XSteam.rhoL_p
  call_walk
@[nanout] theorem XSteam.rhoV_t.nan_t {F : FP} [Fact F.Sane] (u : UnitSystem)  : NanOut (XSteam.rhoV_t F u .nan) := by
  unfold XSteam.rhoV_t
  call_walk
@[nanout] theorem XSteam.rhoL_t.nan_t {F : FP} [Fact F.Sane] (u : UnitSystem)  : NanOut (XSteam.rhoL_t F u .nan) := by
  unfold XSteam.rhoL_t
  call_walk
@[nanout] theorem XSteam.rho_pt.nan_p {F : FP} [Fact F.Sane] (u : UnitSystem) (t : Num) : NanOut (XSteam.rho_pt F u .nan t) := by
  unfold XSteam.rho_pt
  call_walk
@[nanout] theorem XSteam.rho_pt.nan_t {F : FP} [Fact F.Sane] (u : UnitSystem) (p : Num) : NanOut (XSteam.rho_pt F u p .nan) := by
  unfold XSteam.rho_pt
  call_walk
@[nanout] theorem XSteam.rho_ph.nan_p {F : FP} [Fact F.Sane] (u : UnitSystem) (h : Num) : NanOut (XSteam.rho_ph F u .nan h) := by
  unfold XSteam.rho_ph
  call_walk
@[nanout] theorem XSteam.rho_ph.nan_h {F : FP} [Fact F.Sane] (u : UnitSystem) (p : Num) : NanOut (XSteam.rho_ph F u p .nan) := by
  unfold XSteam.rho_ph
  call_walk
@[nanout] theorem XSteam.rho_ps.nan_p {F : FP} [Fact F.Sane] (u : UnitSystem) (s : Num) : NanOut (XSteam.rho_ps F u .nan s) := by
  unfold XSteam.rho_ps
  call_walk
@[nanout] theorem XSteam.rho_ps.nan_s {F : FP} [Fact F.Sane] (u : UnitSystem) (p : Num) : NanOut (XSteam.rho_ps F u p .nan) := by
  unfold XSteam.rho_ps
  call_walk
@[nanout] theorem XSteam.sV_p.nan_p {F : FP} [Fact F.Sane] (u : UnitSystem)  : NanOut (XSteam.sV_p F u .nan) := by
  unfold XSteam.sV_p
  call_walk
@[nanout] theorem XSteam.sL_p.nan_p {F : FP} [Fact F.Sane] (u : UnitSystem)  : NanOut (XSteam.sL_p F u .nan) := by
  unfold XSteam.sL_p
  call_walk
@[nanout] theorem XSteam.sV_t.nan_t {F : FP} [Fact F.Sane] (u : UnitSystem)  : NanOut (XSteam.sV_t F u .nan) := by
  unfold XSteam.sV_t
  call_walk
@[nanout] theorem XSteam.sL_t.nan_t {F : FP} [Fact F.Sane] (u : UnitSystem)  : NanOut (XSteam.sL_t F u .nan) := by
  unfold XSteam.sL_t
  call_walk
@[nanout] theorem XSteam.s_pt.nan_p {F : FP} [Fact F.Sane] (u : UnitSystem) (t : Num) : NanOut (XSteam.s_pt F u .nan t) := by
  unfold XSteam.s_pt
  call_walk
@[nanout] theorem XSteam.s_pt.nan_t {F : FP} [Fact F.Sane] (u : UnitSystem) (p : Num) : NanOut (XSteam.s_pt F u p .nan) := by
  unfold XSteam.s_pt
  call_walk
@[nanout] theorem XSteam.s_ph.nan_p {F : FP} [Fact F.Sane] (u : UnitSystem) (h : Num) : NanOut (XSteam.s_ph F u .nan h) := by
  unfold XSteam.s_ph
  call_walk
@[nanout] theorem XSteam.s_ph.nan_h {F : FP} [Fact F.Sane] (u : UnitSystem) (p : Num) : NanOut (XSteam.s_ph F u p .nan) := by
  unfold XSteam.s_ph
  call_walk
@[nanout] theorem XSteam.uV_p.nan_p {F : FP} [Fact F.Sane] (u : UnitSystem)  : NanOut (XSteam.uV_p F u .nan) := by
  unfold XSteam.uV_p
  call_walk
@[nanout] theorem XSteam.uL_p.nan_p {F : FP} [Fact F.Sane] (u : UnitSystem)  : NanOut (XSteam.uL_p F u .nan) := by
  unfold XSteam.uL_p
  call_walk
@[nanout] theorem XSteam.uV_t.nan_t {F : FP} [Fact F.Sane] (u : UnitSystem)  : NanOut (XSteam.uV_t F u .nan) := by
  unfold XSteam.uV_t
  call_walk
@[nanout] theorem XSteam.uL_t.nan_t {F : FP} [Fact F.Sane] (u : UnitSystem)  : NanOut (XSteam.uL_t F u .nan) := by
  unfold XSteam.uL_t
  call_walk
@[nanout] theorem XSteam.u_pt.nan_p {F : FP} [Fact F.Sane] (u : UnitSystem) (t : Num) : NanOut (XSteam.u_pt F u .nan t) := by
  unfold XSteam.u_pt
  call_walk
@[nanout] theorem XSteam.u_pt.nan_t {F : FP} [Fact F.Sane] (u : UnitSystem) (p : Num) : NanOut (XSteam.u_pt F u p .nan) := by
  unfold XSteam.u_pt
  call_walk
@[nanout] theorem XSteam.u_ph.nan_p {F : FP} [Fact F.Sane] (u : UnitSystem) (h : Num) : NanOut (XSteam.u_ph F u .nan h) := by
  unfold XSteam.u_ph
  call_walk
@[nanout] theorem XSteam.u_ph.nan_h {F : FP} [Fact F.Sane] (u : UnitSystem) (p : Num) : NanOut (XSteam.u_ph F u p .nan) := by
  unfold XSteam.u_ph
  call_walk
@[nanout] theorem XSteam.u_ps.nan_p {F : FP} [Fact F.Sane] (u : UnitSystem) (s : Num) : NanOut (XSteam.u_ps F u .nan s) := by
  unfold XSteam.u_ps
  call_walk
@[nanout] theorem XSteam.u_ps.nan_s {F : FP} [Fact F.Sane] (u : UnitSystem) (p : Num) : NanOut (XSteam.u_ps F u p .nan) := by
  unfold XSteam.u_ps
  call_walk
@[nanout] theorem XSteam.CpV_p.nan_p {F : FP} [Fact F.Sane] (u : UnitSystem)  : NanOut (XSteam.CpV_p F u .nan) := by
  unfold XSteam.CpV_p
  call_walk
@[nanout] theorem XSteam.CpL_p.nan_p {F : FP} [Fact F.Sane] (u : UnitSystem)  : NanOut (XSteam.CpL_p F u .nan) := by
  unfold XSteam.CpL_p
  call_walk
@[nanout] theorem XSteam.CpV_t.nan_t {F : FP} [Fact F.Sane] (u : UnitSystem)  : NanOut (XSteam.CpV_t F u .nan) := by
  unfold XSteam.CpV_t
  call_walk
@[nanout] theorem XSteam.CpL_t.nan_t {F : FP} [Fact F.Sane] (u : UnitSystem)  : NanOut (XSteam.CpL_t F u .nan) := by
  unfold XSteam.CpL_t
  call_walk
@[nanout] theorem XSteam.Cp_pt.nan_p {F : FP} [Fact F.Sane] (u : UnitSystem) (t : Num) : NanOut (XSteam.Cp_pt F u .nan t) := by
  unfold XSteam.Cp_pt
  call_walk
@[nanout] theorem XSteam.Cp_pt.nan_t {F : FP} [Fact F.Sane] (u : UnitSystem) (p : Num) : NanOut (XSteam.Cp_pt F u p .nan) := by
  unfold XSteam.Cp_pt
  call_walk
@[nanout] theorem XSteam.Cp_ph.nan_p {F : FP} [Fact F.Sane] (u : UnitSystem) (h : Num) : NanOut (XSteam.Cp_ph F u .nan h) := by
  unfold XSteam.Cp_ph
  call_walk
@[nanout] theorem XSteam.Cp_ph.nan_h {F : FP} [Fact F.Sane] (u : UnitSystem) (p : Num) : NanOut (XSteam.Cp_ph F u p .nan) := by
  unfold XSteam.Cp_ph
  call_walk
@[nanout] theorem XSteam.Cp_ps.nan_p {F : FP} [Fact F.Sane] (u : UnitSystem) (s : Num) : NanOut (XSteam.Cp_ps F u .nan s) := by
  unfold XSteam.Cp_ps
  call_walk
@[nanout] theorem XSteam.Cp_ps.nan_s {F : FP} [Fact F.Sane] (u : UnitSystem) (p : Num) : NanOut (XSteam.Cp_ps F u p .nan) := by
  unfold XSteam.Cp_ps
  call_walk
@[nanout] theorem XSteam.CvV_p.nan_p {F : FP} [Fact F.Sane] (u : UnitSystem)  : NanOut (XSteam.CvV_p F u .nan) := by
  unfold XSteam.CvV_p
  call_walk
@[nanout] theorem XSteam.CvL_p.nan_p {F : FP} [Fact F.Sane] (u : UnitSystem)  : NanOut (XSteam.CvL_p F u .nan) := by
  unfold XSteam.CvL_p
  call_walk
@[nanout] theorem XSteam.CvV_t.nan_t {F : FP} [Fact F.Sane] (u : UnitSystem)  : NanOut (XSteam.CvV_t F u .nan) := by
  unfold XSteam.CvV_t
  call_walk
@[nanout] theorem XSteam.CvL_t.nan_t {F : FP} [Fact F.Sane] (u : UnitSystem)  : NanOut (XSteam.CvL_t F u .nan) := by
  unfold XSteam.CvL_t
  call_walk
@[nanout] theorem XSteam.Cv_pt.nan_p {F : FP} [Fact F.Sane] (u : UnitSystem) (t : Num) : NanOut (XSteam.Cv_pt F u .nan t) := by
  unfold XSteam.Cv_pt
  call_walk
@[nanout] theorem XSteam.Cv_pt.nan_t {F : FP} [Fact F.Sane] (u : UnitSystem) (p : Num) : NanOut (XSteam.Cv_pt F u p .nan) := by
  unfold XSteam.Cv_pt
  call_walk
@[nanout] theorem XSteam.Cv_ph.nan_p {F : FP} [Fact F.Sane] (u : UnitSystem) (h : Num) : NanOut (XSteam.Cv_ph F u .nan h) := by
  unfold XSteam.Cv_ph
  call_walk
@[nanout] theorem XSteam.Cv_ph.nan_h {F : FP} [Fact F.Sane] (u : UnitSystem) (p : Num) : NanOut (XSteam.Cv_ph F u p .nan) := by
  unfold XSteam.Cv_ph
  call_walk
@[nanout] theorem XSteam.Cv_ps.nan_p {F : FP} [Fact F.Sane] (u : UnitSystem) (s : Num) : NanOut (XSteam.Cv_ps F u .nan s) := by
  unfold XSteam.Cv_ps
  call_walk
@[nanout] theorem XSteam.Cv_ps.nan_s {F : FP} [Fact F.Sane] (u : UnitSystem) (p : Num) : NanOut (XSteam.Cv_ps F u p .nan) := by
  unfold XSteam.Cv_ps
  call_walk
@[nanout] theorem XSteam.wV_p.nan_p {F : FP} [Fact F.Sane] (u : UnitSystem)  : NanOut (XSteam.wV_p F u .nan) := by
  unfold XSteam.wV_p
  call_walk
@[nanout] theorem XSteam.wL_p.nan_p {F : FP} [Fact F.Sane] (u : UnitSystem)  : NanOut (XSteam.wL_p F u .nan) := by
  unfold XSteam.wL_p
  call_walk
@[nanout] theorem XSteam.wV_t.nan_t {F : FP} [Fact F.Sane] (u : UnitSystem)  : NanOut (XSteam.wV_t F u .nan) := by
  unfold XSteam.wV_t
  call_walk
@[nanout] theorem XSteam.wL_t.nan_t {F : FP} [Fact F.Sane] (u : UnitSystem)  : NanOut (XSteam.wL_t F u .nan) := by
  unfold XSteam.wL_t
  call_walk
@[nanout] theorem XSteam.w_pt.nan_p {F : FP} [Fact F.Sane] (u : UnitSystem) (t : Num) : NanOut (XSteam.w_pt F u .nan t) := by
  unfold XSteam.w_pt
  call_walk
@[nanout] theorem XSteam.w_pt.nan_t {F : FP} [Fact F.Sane] (u : UnitSystem) (p : Num) : NanOut (XSteam.w_pt F u p .nan) := by
  unfold XSteam.w_pt
  call_walk
@[nanout] theorem XSteam.w_ph.nan_p {F : FP} [Fact F.Sane] (u : UnitSystem) (h : Num) : NanOut (XSteam.w_ph F u .nan h) := by
  unfold XSteam.w_ph
  call_walk
@[nanout] theorem XSteam.w_ph.nan_h {F : FP} [Fact F.Sane] (u : UnitSystem) (p : Num) : NanOut (XSteam.w_ph F u p .nan) := by
  unfold XSteam.w_ph
  call_walk
@[nanout] theorem XSteam.w_ps.nan_p {F : FP} [Fact F.Sane] (u : UnitSystem) (s : Num) : NanOut (XSteam.w_ps F u .nan s) := by
  unfold XSteam.w_ps
  call_walk
@[nanout] theorem XSteam.w_ps.nan_s {F : FP} [Fact F.Sane] (u : UnitSystem) (p : Num) : NanOut (XSteam.w_ps F u p .nan) := by
  unfold XSteam.w_ps
  call_walk
@[nanout] theorem XSteam.my_pt.nan_p {F : FP} [Fact F.Sane] (u : UnitSystem) (t : Num) : NanOut (XSteam.my_pt F u .nan t) := by
  unfold XSteam.my_pt
  call_walk
@[nanout] theorem XSteam.my_pt.nan_t {F : FP} [Fact F.Sane] (u : UnitSystem) (p : Num) : NanOut (XSteam.my_pt F u p .nan) := by
  unfold XSteam.my_pt
  call_walk
@[nanout] theorem XSteam.my_ph.nan_p {F : FP} [Fact F.Sane] (u : UnitSystem) (h : Num) : NanOut (XSteam.my_ph F u .nan h) := by
  unfold XSteam.my_ph
  call_walk
@[nanout] theorem XSteam.my_ph.nan_h {F : FP} [Fact F.Sane] (u : UnitSystem) (p : Num) : NanOut (XSteam.my_ph F u p .nan) := by
  unfold XSteam.my_ph
  call_walk
@[nanout] theorem XSteam.my_ps.nan_p {F : FP} [Fact F.Sane] (u : UnitSystem) (s : Num) : NanOut (XSteam.my_ps F u .nan s) := by
  unfold XSteam.my_ps
  call_walk
@[nanout] theorem XSteam.my_ps.nan_s {F : FP} [Fact F.Sane] (u : UnitSystem) (p : Num) : NanOut (XSteam.my_ps F u p .nan) := by
  unfold XSteam.my_ps
  call_walk
@[nanout] theorem XSteam.tc_pt.nan_p {F : FP} [Fact F.Sane] (u : UnitSystem) (t : Num) : NanOut (XSteam.tc_pt F u .nan t) := by
  unfold XSteam.tc_pt
  call_walk
@[nanout] theorem XSteam.tc_pt.nan_t {F : FP} [Fact F.Sane] (u : UnitSystem) (p : Num) : NanOut (XSteam.tc_pt F u p .nan) := by
  unfold XSteam.tc_pt
  call_walk
@[nanout] theorem XSteam.pr_pt.nan_p {F : FP} [Fact F.Sane] (u : UnitSystem) (t : Num) : NanOut (XSteam.pr_pt F u .nan t) := by
  unfold XSteam.pr_pt
  call_walk
@[nanout] theorem XSteam.pr_pt.nan_t {F : FP} [Fact F.Sane] (u : UnitSystem) (p : Num) : NanOut (XSteam.pr_pt F u p .nan) := by
  unfold XSteam.pr_pt
  call_walk
@[nanout] theorem XSteam.tc_ph.nan_p {F : FP} [Fact F.Sane] (u : UnitSystem) (h : Num) : NanOut (XSteam.tc_ph F u .nan h) := by
  unfold XSteam.tc_ph
  call_walk
@[nanout] theorem XSteam.tc_ph.nan_h {F : FP} [Fact F.Sane] (u : UnitSystem) (p : Num) : NanOut (XSteam.tc_ph F u p .nan) := by
  unfold XSteam.tc_ph
  call_walk
@[nanout] theorem XSteam.pr_ph.nan_p {F : FP} [Fact F.Sane] (u : UnitSystem) (h : Num) : NanOut (XSteam.pr_ph F u .nan h) := by
  unfold XSteam.pr_ph
  call_walk
@[nanout] theorem XSteam.pr_ph.nan_h {F : FP} [Fact F.Sane] (u : UnitSystem) (p : Num) : NanOut (XSteam.pr_ph F u p .nan) := by
  unfold XSteam.pr_ph
  call_walk
@[nanout] theorem XSteam.st_t.nan_t {F : FP} [Fact F.Sane] (u : UnitSystem)  : NanOut (XSteam.st_t F u .nan) := by
  unfold XSteam.st_t
  call_walk
@[nanout] theorem XSteam.st_p.nan_p {F : FP} [Fact F.Sane] (u : UnitSystem)  : NanOut (XSteam.st_p F u .nan) := by
  unfold XSteam.st_p
  call_walk
@[nanout] theorem XSteam.tcL_p.nan_p {F : FP} [Fact F.Sane] (u : UnitSystem)  : NanOut (XSteam.tcL_p F u .nan) := by
  unfold XSteam.tcL_p
  call_walk
@[nanout] theorem XSteam.tcV_p.nan_p {F : FP} [Fact F.Sane] (u : UnitSystem)  : NanOut (XSteam.tcV_p F u .nan) := by
  unfold XSteam.tcV_p
  call_walk
@[nanout] theorem XSteam.tcL_t.nan_t {F : FP} [Fact F.Sane] (u : UnitSystem)  : NanOut (XSteam.tcL_t F u .nan) := by
  unfold XSteam.tcL_t
  call_walk
@[nanout] theorem XSteam.tcV_t.nan_t {F : FP} [Fact F.Sane] (u : UnitSystem)  : NanOut (XSteam.tcV_t F u .nan) := by
  unfold XSteam.tcV_t
  call_walk
@[nanout] theorem XSteam.tc_hs.nan_h {F : FP} [Fact F.Sane] (u : UnitSystem) (s : Num) : NanOut (XSteam.tc_hs F u .nan s) := by
  unfold XSteam.tc_hs
  call_walk
@[nanout] theorem XSteam.tc_hs.nan_s {F : FP} [Fact F.Sane] (u : UnitSystem) (h : Num) : NanOut (XSteam.tc_hs F u h .nan) := by
  unfold XSteam.tc_hs
  call_walk
@[nanout] theorem XSteam.x_ph.nan_p {F : FP} [Fact F.Sane] (u : UnitSystem) (h : Num) : NanOut (XSteam.x_ph F u .nan h) := by
  unfold XSteam.x_ph
  call_walk
@[nanout] theorem XSteam.x_ph.nan_h {F : FP} [Fact F.Sane] (u : UnitSystem) (p : Num) : NanOut (XSteam.x_ph F u p .nan) := by
  unfold XSteam.x_ph
  call_walk
@[nanout] theorem XSteam.x_ps.nan_p {F : FP} [Fact F.Sane] (u : UnitSystem) (s : Num) : NanOut (XSteam.x_ps F u .nan s) := by
  unfold XSteam.x_ps
  call_walk
@[nanout] theorem XSteam.x_ps.nan_s {F : FP} [Fact F.Sane] (u : UnitSystem) (p : Num) : NanOut (XSteam.x_ps F u p .nan) := by
  unfold XSteam.x_ps
  call_walk
@[nanout] theorem XSteam.vx_ph.nan_p {F : FP} [Fact F.Sane] (u : UnitSystem) (h : Num) : NanOut (XSteam.vx_ph F u .nan h) := by
  unfold XSteam.vx_ph
  call_walk
@[nanout] theorem XSteam.vx_ph.nan_h {F : FP} [Fact F.Sane] (u : UnitSystem) (p : Num) : NanOut (XSteam.vx_ph F u p .nan) := by
  unfold XSteam.vx_ph
  call_walk
@[nanout] theorem XSteam.vx_ps.nan_p {F : FP} [Fact F.Sane] (u : UnitSystem) (s : Num) : NanOut (XSteam.vx_ps F u .nan s) := by
  unfold XSteam.vx_ps
  call_walk
@[nanout] theorem XSteam.vx_ps.nan_s {F : FP} [Fact F.Sane] (u : UnitSystem) (p : Num) : NanOut (XSteam.vx_ps F u p .nan) := by
  unfold XSteam.vx_ps
  call_walk
@[nanout] theorem XSteam.pmelt_t.nan_t {F : FP} [Fact F.Sane] (u : UnitSystem) (hint : PyVal) : NanOut (XSteam.pmelt_t F u .nan hint) := by
  unfold XSteam.pmelt_t
  call_walk
@[nanout] theorem XSteam.psubl_t.nan_t {F : FP} [Fact F.Sane] (u : UnitSystem)  : NanOut (XSteam.psubl_t F u .nan) := by
  unfold XSteam.psubl_t
  call_walk
@[nanout] theorem XSteam_HW.my_rhoT.nan_rho {F : FP} [Fact F.Sane] (u : UnitSystem) (T : Num) : NanOut (XSteam_HW.my_rhoT F u .nan T) := by
  unfold XSteam_HW.my_rhoT
  call_walk
@[nanout] theorem XSteam_HW.my_rhoT.nan_T {F : FP} [Fact F.Sane] (u : UnitSystem) (rho : Num) : NanOut (XSteam_HW.my_rhoT F u rho .nan) := by
  unfold XSteam_HW.my_rhoT
  call_walk
@[nanout] theorem XSteam_HW.tc_rhoT.nan_rho {F : FP} [Fact F.Sane] (u : UnitSystem) (T : Num) : NanOut (XSteam_HW.tc_rhoT F u .nan T) := by
  unfold XSteam_HW.tc_rhoT
  call_walk
@[nanout] theorem XSteam_HW.tc_rhoT.nan_T {F : FP} [Fact F.Sane] (u : UnitSystem) (rho : Num) : NanOut (XSteam_HW.tc_rhoT F u rho .nan) := by
  unfold XSteam_HW.tc_rhoT
  call_walk

/-- the three functions that can turn NaN into a number -/
def Call.swallowsNaN : Call → Prop
  | .h_px _ _ | .h_tx _ _ | .p_hrho _ _ => True
  | _ => False

/-- C35: a NaN argument never gives a number: the call returns NaN, raises or does not stop.  Every sane
floating point arithmetic, every unit system, every call but `h_px`, `h_tx` and `p_hrho`. -/
theorem C35_nan_in_nan_out (F : FP) (hF : F.Sane) (u : UnitSystem) (c : Call) (hc : ¬ c.swallowsNaN)
    (h : Num.nan ∈ c.args) (r : Num) (hr : (c.run F u).out = .ok r) : r = .nan := by
  have : Fact F.Sane := ⟨hF⟩
  refine NanOut.elim ?_ hr
  clear hr
  cases c <;> simp only [Call.args, List.mem_cons, List.not_mem_nil, or_false] at h <;>
    simp only [Call.swallowsNaN, not_true_eq_false] at hc <;> simp only [Call.run]
  case tsat_p p => subst h; exact XSteam.tsat_p.nan_p u
  case tsat_s s => subst h; exact XSteam.tsat_s.nan_s u
  case t_ph p h => rcases h with h | h <;> subst h; exacts [XSteam.t_ph.nan_p u h, XSteam.t_ph.nan_h u p]
  case t_ps p s => rcases h with h | h <;> subst h; exacts [XSteam.t_ps.nan_p u s, XSteam.t_ps.nan_s u p]
  case t_hs h s => rcases h with h | h <;> subst h; exacts [XSteam.t_hs.nan_h u s, XSteam.t_hs.nan_s u h]
  case psat_s s => subst h; exact XSteam.psat_s.nan_s u
  case psat_t t => subst h; exact XSteam.psat_t.nan_t u
  case p_hs h s => rcases h with h | h <;> subst h; exacts [XSteam.p_hs.nan_h u s, XSteam.p_hs.nan_s u h]
  case v_ph p h => rcases h with h | h <;> subst h; exacts [XSteam.v_ph.nan_p u h, XSteam.v_ph.nan_h u p]
  case hV_p p => subst h; exact XSteam.hV_p.nan_p u
  case hL_p p => subst h; exact XSteam.hL_p.nan_p u
  case hV_t t => subst h; exact XSteam.hV_t.nan_t u
  case hL_t t => subst h; exact XSteam.hL_t.nan_t u
  case h_pt p t => rcases h with h | h <;> subst h; exacts [XSteam.h_pt.nan_p u t, XSteam.h_pt.nan_t u p]
  case h_ps p s => rcases h with h | h <;> subst h; exacts [XSteam.h_ps.nan_p u s, XSteam.h_ps.nan_s u p]
  case h_prho p rho => rcases h with h | h <;> subst h; exacts [XSteam.h_prho.nan_p u rho, XSteam.h_prho.nan_rho u p]
  case vV_p p => subst h; exact XSteam.vV_p.nan_p u
  case vL_p p => subst h; exact XSteam.vL_p.nan_p u
  case vV_t t => subst h; exact XSteam.vV_t.nan_t u
  case vL_t t => subst h; exact XSteam.vL_t.nan_t u
  case v_pt p t => rcases h with h | h <;> subst h; exacts [XSteam.v_pt.nan_p u t, XSteam.v_pt.nan_t u p]
  case v_ps p s => rcases h with h | h <;> subst h; exacts [XSteam.v_ps.nan_p u s, XSteam.v_ps.nan_s u p]
  case rhoV_p p => subst h; exact XSteam.rhoV_p.nan_p u
  case rhoL_p p => subst h; exact XSteam.rhoL_p.nan_p u
  case rhoV_t t => subst h; exact XSteam.rhoV_t.nan_t u
  case rhoL_t t => subst h; exact XSteam.rhoL_t.nan_t u
  case rho_pt p t => rcases h with h | h <;> subst h; exacts [XSteam.rho_pt.nan_p u t, XSteam.rho_pt.nan_t u p]
  case rho_ph p h => rcases h with h | h <;> subst h; exacts [XSteam.rho_ph.nan_p u h, XSteam.rho_ph.nan_h u p]
  case rho_ps p s => rcases h with h | h <;> subst h; exacts [XSteam.rho_ps.nan_p u s, XSteam.rho_ps.nan_s u p]
  case sV_p p => subst h; exact XSteam.sV_p.nan_p u
  case sL_p p => subst h; exact XSteam.sL_p.nan_p u
  case sV_t t => subst h; exact XSteam.sV_t.nan_t u
  case sL_t t => subst h; exact XSteam.sL_t.nan_t u
  case s_pt p t => rcases h with h | h <;> subst h; exacts [XSteam.s_pt.nan_p u t, XSteam.s_pt.nan_t u p]
  case s_ph p h => rcases h with h | h <;> subst h; exacts [XSteam.s_ph.nan_p u h, XSteam.s_ph.nan_h u p]
  case uV_p p => subst h; exact XSteam.uV_p.nan_p u
  case uL_p p => subst h; exact XSteam.uL_p.nan_p u
  case uV_t t => subst h; exact XSteam.uV_t.nan_t u
  case uL_t t => subst h; exact XSteam.uL_t.nan_t u
  case u_pt p t => rcases h with h | h <;> subst h; exacts [XSteam.u_pt.nan_p u t, XSteam.u_pt.nan_t u p]
  case u_ph p h => rcases h with h | h <;> subst h; exacts [XSteam.u_ph.nan_p u h, XSteam.u_ph.nan_h u p]
  case u_ps p s => rcases h with h | h <;> subst h; exacts [XSteam.u_ps.nan_p u s, XSteam.u_ps.nan_s u p]
  case CpV_p p => subst h; exact XSteam.CpV_p.nan_p u
  case CpL_p p => subst h; exact XSteam.CpL_p.nan_p u
  case CpV_t t => subst h; exact XSteam.CpV_t.nan_t u
  case CpL_t t => subst h; exact XSteam.CpL_t.nan_t u
  case Cp_pt p t => rcases h with h | h <;> subst h; exacts [XSteam.Cp_pt.nan_p u t, XSteam.Cp_pt.nan_t u p]
  case Cp_ph p h => rcases h with h | h <;> subst h; exacts [XSteam.Cp_ph.nan_p u h, XSteam.Cp_ph.nan_h u p]
  case Cp_ps p s => rcases h with h | h <;> subst h; exacts [XSteam.Cp_ps.nan_p u s, XSteam.Cp_ps.nan_s u p]
  case CvV_p p => subst h; exact XSteam.CvV_p.nan_p u
  case CvL_p p => subst h; exact XSteam.CvL_p.nan_p u
  case CvV_t t => subst h; exact XSteam.CvV_t.nan_t u
  case CvL_t t => subst h; exact XSteam.CvL_t.nan_t u
  case Cv_pt p t => rcases h with h | h <;> subst h; exacts [XSteam.Cv_pt.nan_p u t, XSteam.Cv_pt.nan_t u p]
  case Cv_ph p h => rcases h with h | h <;> subst h; exacts [XSteam.Cv_ph.nan_p u h, XSteam.Cv_ph.nan_h u p]
  case Cv_ps p s => rcases h with h | h <;> subst h; exacts [XSteam.Cv_ps.nan_p u s, XSteam.Cv_ps.nan_s u p]
  case wV_p p => subst h; exact XSteam.wV_p.nan_p u
  case wL_p p => subst h; exact XSteam.wL_p.nan_p u
  case wV_t t => subst h; exact XSteam.wV_t.nan_t u
  case wL_t t => subst h; exact XSteam.wL_t.nan_t u
  case w_pt p t => rcases h with h | h <;> subst h; exacts [XSteam.w_pt.nan_p u t, XSteam.w_pt.nan_t u p]
  case w_ph p h => rcases h with h | h <;> subst h; exacts [XSteam.w_ph.nan_p u h, XSteam.w_ph.nan_h u p]
  case w_ps p s => rcases h with h | h <;> subst h; exacts [XSteam.w_ps.nan_p u s, XSteam.w_ps.nan_s u p]
  case my_pt p t => rcases h with h | h <;> subst h; exacts [XSteam.my_pt.nan_p u t, XSteam.my_pt.nan_t u p]
  case my_ph p h => rcases h with h | h <;> subst h; exacts [XSteam.my_ph.nan_p u h, XSteam.my_ph.nan_h u p]
  case my_ps p s => rcases h with h | h <;> subst h; exacts [XSteam.my_ps.nan_p u s, XSteam.my_ps.nan_s u p]
  case tc_pt p t => rcases h with h | h <;> subst h; exacts [XSteam.tc_pt.nan_p u t, XSteam.tc_pt.nan_t u p]
  case pr_pt p t => rcases h with h | h <;> subst h; exacts [XSteam.pr_pt.nan_p u t, XSteam.pr_pt.nan_t u p]
  case tc_ph p h => rcases h with h | h <;> subst h; exacts [XSteam.tc_ph.nan_p u h, XSteam.tc_ph.nan_h u p]
  case pr_ph p h => rcases h with h | h <;> subst h; exacts [XSteam.pr_ph.nan_p u h, XSteam.pr_ph.nan_h u p]
  case st_t t => subst h; exact XSteam.st_t.nan_t u
  case st_p p => subst h; exact XSteam.st_p.nan_p u
  case tcL_p p => subst h; exact XSteam.tcL_p.nan_p u
  case tcV_p p => subst h; exact XSteam.tcV_p.nan_p u
  case tcL_t t => subst h; exact XSteam.tcL_t.nan_t u
  case tcV_t t => subst h; exact XSteam.tcV_t.nan_t u
  case tc_hs h s => rcases h with h | h <;> subst h; exacts [XSteam.tc_hs.nan_h u s, XSteam.tc_hs.nan_s u h]
  case x_ph p h => rcases h with h | h <;> subst h; exacts [XSteam.x_ph.nan_p u h, XSteam.x_ph.nan_h u p]
  case x_ps p s => rcases h with h | h <;> subst h; exacts [XSteam.x_ps.nan_p u s, XSteam.x_ps.nan_s u p]
  case vx_ph p h => rcases h with h | h <;> subst h; exacts [XSteam.vx_ph.nan_p u h, XSteam.vx_ph.nan_h u p]
  case vx_ps p s => rcases h with h | h <;> subst h; exacts [XSteam.vx_ps.nan_p u s, XSteam.vx_ps.nan_s u p]
  case pmelt_t t hint => subst h; exact XSteam.pmelt_t.nan_t u hint
  case psubl_t t => subst h; exact XSteam.psubl_t.nan_t u
  case hw_my_rhoT rho T => rcases h with h | h <;> subst h; exacts [XSteam_HW.my_rhoT.nan_rho u T, XSteam_HW.my_rhoT.nan_T u rho]
  case hw_tc_rhoT rho T => rcases h with h | h <;> subst h; exacts [XSteam_HW.tc_rhoT.nan_rho u T, XSteam_HW.tc_rhoT.nan_T u rho]

/-- such a call: NaN entropy on the pressure-entropy plane, which is classified as liquid -/
example : Num.nan ∈ (Call.h_ps (.fin 1) .nan).args ∧ ¬ (Call.h_ps (.fin 1) .nan).swallowsNaN := by
  simp [Call.args, Call.swallowsNaN]

end PyX
