import Verif.Props.Derived

/-!
# C51: functions of (p, h), (p, s) and (h, s) agree with the functions of (p, t)

A state given by pressure and enthalpy (or entropy) has a temperature, `t_ph` (or `t_ps`). Where the classification
of the state by (p, h) and the one by (p, T) agree on one of the regions 1, 2 and 5, every property at (p, h) is the
property at (p, t) of that temperature: for every arithmetic, hence without any rounding error, in SI units, and in
exact arithmetic in every unit system. In region 3 it is the property of the density `1 / v_ph` and the temperature
`t_ph`. Pressure and temperature at (h, s) are related in the same way.
-/

namespace PyX

open Classical Py Num

theorem out_eq {α β : Type} {x : Py α} {f : α → Py β} {a : α} (h : x.out = .ok a) : (x >>= f).out = (f a).out := by
  rcases x with ⟨l, o⟩
  subst h
  rcases e : f a with ⟨l', o'⟩
  show (Py.prepend l (f a)).out = o'
  rw [e]
  cases o' <;> rfl

theorem out_congr {α β : Type} {x y : Py α} (f : α → Py β) (h : x.out = y.out) : (x >>= f).out = (y >>= f).out := by
  rcases x with ⟨l, o⟩
  rcases y with ⟨k, o'⟩
  subst h
  cases o with
  | ok a =>
    show (Py.prepend l (f a)).out = (Py.prepend k (f a)).out
    rcases f a with ⟨l', o'⟩
    cases o' <;> rfl
  | raise e => rfl
  | diverge => rfl

private theorem bare_toSI_p (F : FP) (x : Num) : UnitConverter.toSIunit_p F .bare x = pure x := by
  simp [UnitConverter.toSIunit_p]
private theorem bare_fromSI_p (F : FP) (x : Num) : UnitConverter.fromSIunit_p F .bare x = pure x := by
  simp [UnitConverter.fromSIunit_p]
private theorem bare_toSI_T (F : FP) (x : Num) : UnitConverter.toSIunit_T F .bare x = pure x := by
  simp [UnitConverter.toSIunit_T]
private theorem bare_fromSI_T (F : FP) (x : Num) : UnitConverter.fromSIunit_T F .bare x = pure x := by
  simp [UnitConverter.fromSIunit_T]
private theorem bare_toSI_h (F : FP) (x : Num) : UnitConverter.toSIunit_h F .bare x = pure x := by
  simp [UnitConverter.toSIunit_h]
private theorem bare_fromSI_h (F : FP) (x : Num) : UnitConverter.fromSIunit_h F .bare x = pure x := by
  simp [UnitConverter.fromSIunit_h]
private theorem bare_toSI_v (F : FP) (x : Num) : UnitConverter.toSIunit_v F .bare x = pure x := by
  simp [UnitConverter.toSIunit_v]
private theorem bare_fromSI_v (F : FP) (x : Num) : UnitConverter.fromSIunit_v F .bare x = pure x := by
  simp [UnitConverter.fromSIunit_v]
private theorem bare_toSI_s (F : FP) (x : Num) : UnitConverter.toSIunit_s F .bare x = pure x := by
  simp [UnitConverter.toSIunit_s]
private theorem bare_fromSI_s (F : FP) (x : Num) : UnitConverter.fromSIunit_s F .bare x = pure x := by
  simp [UnitConverter.fromSIunit_s]
private theorem bare_toSI_u (F : FP) (x : Num) : UnitConverter.toSIunit_u F .bare x = pure x := by
  simp [UnitConverter.toSIunit_u]
private theorem bare_fromSI_u (F : FP) (x : Num) : UnitConverter.fromSIunit_u F .bare x = pure x := by
  simp [UnitConverter.fromSIunit_u]
private theorem bare_toSI_Cp (F : FP) (x : Num) : UnitConverter.toSIunit_Cp F .bare x = pure x := by
  simp [UnitConverter.toSIunit_Cp]
private theorem bare_fromSI_Cp (F : FP) (x : Num) : UnitConverter.fromSIunit_Cp F .bare x = pure x := by
  simp [UnitConverter.fromSIunit_Cp]
private theorem bare_toSI_Cv (F : FP) (x : Num) : UnitConverter.toSIunit_Cv F .bare x = pure x := by
  simp [UnitConverter.toSIunit_Cv]
private theorem bare_fromSI_Cv (F : FP) (x : Num) : UnitConverter.fromSIunit_Cv F .bare x = pure x := by
  simp [UnitConverter.fromSIunit_Cv]
private theorem bare_toSI_w (F : FP) (x : Num) : UnitConverter.toSIunit_w F .bare x = pure x := by
  simp [UnitConverter.toSIunit_w]
private theorem bare_fromSI_w (F : FP) (x : Num) : UnitConverter.fromSIunit_w F .bare x = pure x := by
  simp [UnitConverter.fromSIunit_w]

local macro "bare" : tactic => `(tactic| simp only [bare_toSI_p, bare_fromSI_p, bare_toSI_T, bare_fromSI_T, bare_toSI_h, bare_fromSI_h, bare_toSI_v, bare_fromSI_v, bare_toSI_s, bare_fromSI_s, bare_toSI_u, bare_fromSI_u, bare_toSI_Cp, bare_fromSI_Cp, bare_toSI_Cv, bare_fromSI_Cv, bare_toSI_w, bare_fromSI_w, pure_bind, bind_pure] at *)

/-- C51: specific volume at (p, h) is specific volume at (p, t) -/
theorem C51_v_ph (F : FP) (p h t : Num) (r : ℤ) (h1 : r = 1 ∨ r = 2 ∨ r = 5)
    (hr : (RegionSelection.region_ph F p h).out = .ok r) (ht : (XSteam.t_ph F .bare p h).out = .ok t)
    (hp : (RegionSelection.region_pT F p t).out = .ok r) :
    (XSteam.v_ph F .bare p h).out = (XSteam.v_pt F .bare p t).out := by
  unfold XSteam.t_ph at ht
  unfold XSteam.v_ph XSteam.v_pt
  bare
  rw [out_eq hr] at ht ⊢
  rw [out_eq hp]
  rcases h1 with rfl | rfl | rfl <;> norm_num only [if_true, if_false] at ht ⊢ <;> rw [out_eq ht]

/-- C51: entropy at (p, h) is entropy at (p, t) -/
theorem C51_s_ph (F : FP) (p h t : Num) (r : ℤ) (h1 : r = 1 ∨ r = 2 ∨ r = 5)
    (hr : (RegionSelection.region_ph F p h).out = .ok r) (ht : (XSteam.t_ph F .bare p h).out = .ok t)
    (hp : (RegionSelection.region_pT F p t).out = .ok r) :
    (XSteam.s_ph F .bare p h).out = (XSteam.s_pt F .bare p t).out := by
  unfold XSteam.t_ph at ht
  unfold XSteam.s_ph XSteam.s_pt
  bare
  rw [out_eq hr] at ht ⊢
  rw [out_eq hp]
  rcases h1 with rfl | rfl | rfl <;> norm_num only [if_true, if_false] at ht ⊢ <;> rw [out_eq ht]

/-- C51: internal energy at (p, h) is internal energy at (p, t) -/
theorem C51_u_ph (F : FP) (p h t : Num) (r : ℤ) (h1 : r = 1 ∨ r = 2 ∨ r = 5)
    (hr : (RegionSelection.region_ph F p h).out = .ok r) (ht : (XSteam.t_ph F .bare p h).out = .ok t)
    (hp : (RegionSelection.region_pT F p t).out = .ok r) :
    (XSteam.u_ph F .bare p h).out = (XSteam.u_pt F .bare p t).out := by
  unfold XSteam.t_ph at ht
  unfold XSteam.u_ph XSteam.u_pt
  bare
  rw [out_eq hr] at ht ⊢
  rw [out_eq hp]
  rcases h1 with rfl | rfl | rfl <;> norm_num only [if_true, if_false] at ht ⊢ <;> rw [out_eq ht]

/-- C51: isobaric heat capacity at (p, h) is isobaric heat capacity at (p, t) -/
theorem C51_Cp_ph (F : FP) (p h t : Num) (r : ℤ) (h1 : r = 1 ∨ r = 2 ∨ r = 5)
    (hr : (RegionSelection.region_ph F p h).out = .ok r) (ht : (XSteam.t_ph F .bare p h).out = .ok t)
    (hp : (RegionSelection.region_pT F p t).out = .ok r) :
    (XSteam.Cp_ph F .bare p h).out = (XSteam.Cp_pt F .bare p t).out := by
  unfold XSteam.t_ph at ht
  unfold XSteam.Cp_ph XSteam.Cp_pt
  bare
  rw [out_eq hr] at ht ⊢
  rw [out_eq hp]
  rcases h1 with rfl | rfl | rfl <;> norm_num only [if_true, if_false] at ht ⊢ <;> rw [out_eq ht]

/-- C51: isochoric heat capacity at (p, h) is isochoric heat capacity at (p, t) -/
theorem C51_Cv_ph (F : FP) (p h t : Num) (r : ℤ) (h1 : r = 1 ∨ r = 2 ∨ r = 5)
    (hr : (RegionSelection.region_ph F p h).out = .ok r) (ht : (XSteam.t_ph F .bare p h).out = .ok t)
    (hp : (RegionSelection.region_pT F p t).out = .ok r) :
    (XSteam.Cv_ph F .bare p h).out = (XSteam.Cv_pt F .bare p t).out := by
  unfold XSteam.t_ph at ht
  unfold XSteam.Cv_ph XSteam.Cv_pt
  bare
  rw [out_eq hr] at ht ⊢
  rw [out_eq hp]
  rcases h1 with rfl | rfl | rfl <;> norm_num only [if_true, if_false] at ht ⊢ <;> rw [out_eq ht]

/-- C51: the speed of sound at (p, h) is the speed of sound at (p, t) -/
theorem C51_w_ph (F : FP) (p h t : Num) (r : ℤ) (h1 : r = 1 ∨ r = 2 ∨ r = 5)
    (hr : (RegionSelection.region_ph F p h).out = .ok r) (ht : (XSteam.t_ph F .bare p h).out = .ok t)
    (hp : (RegionSelection.region_pT F p t).out = .ok r) :
    (XSteam.w_ph F .bare p h).out = (XSteam.w_pt F .bare p t).out := by
  unfold XSteam.t_ph at ht
  unfold XSteam.w_ph XSteam.w_pt
  bare
  rw [out_eq hr] at ht ⊢
  rw [out_eq hp]
  rcases h1 with rfl | rfl | rfl <;> norm_num only [if_true, if_false] at ht ⊢ <;> rw [out_eq ht]

/-- C51: specific volume at (p, s) is specific volume at (p, t) -/
theorem C51_v_ps (F : FP) (p s t : Num) (r : ℤ) (h1 : r = 1 ∨ r = 2 ∨ r = 5)
    (hr : (RegionSelection.region_ps F p s).out = .ok r) (ht : (XSteam.t_ps F .bare p s).out = .ok t)
    (hp : (RegionSelection.region_pT F p t).out = .ok r) :
    (XSteam.v_ps F .bare p s).out = (XSteam.v_pt F .bare p t).out := by
  unfold XSteam.t_ps at ht
  unfold XSteam.v_ps XSteam.v_pt
  bare
  rw [out_eq hr] at ht ⊢
  rw [out_eq hp]
  rcases h1 with rfl | rfl | rfl <;> norm_num only [if_true, if_false] at ht ⊢ <;> rw [out_eq ht]

/-- C51: enthalpy at (p, s) is enthalpy at (p, t) -/
theorem C51_h_ps (F : FP) (p s t : Num) (r : ℤ) (h1 : r = 1 ∨ r = 2 ∨ r = 5)
    (hr : (RegionSelection.region_ps F p s).out = .ok r) (ht : (XSteam.t_ps F .bare p s).out = .ok t)
    (hp : (RegionSelection.region_pT F p t).out = .ok r) :
    (XSteam.h_ps F .bare p s).out = (XSteam.h_pt F .bare p t).out := by
  unfold XSteam.t_ps at ht
  unfold XSteam.h_ps XSteam.h_pt
  bare
  rw [out_eq hr] at ht ⊢
  rw [out_eq hp]
  rcases h1 with rfl | rfl | rfl <;> norm_num only [if_true, if_false] at ht ⊢ <;> rw [out_eq ht]

/-- C51: internal energy at (p, s) is internal energy at (p, t) -/
theorem C51_u_ps (F : FP) (p s t : Num) (r : ℤ) (h1 : r = 1 ∨ r = 2 ∨ r = 5)
    (hr : (RegionSelection.region_ps F p s).out = .ok r) (ht : (XSteam.t_ps F .bare p s).out = .ok t)
    (hp : (RegionSelection.region_pT F p t).out = .ok r) :
    (XSteam.u_ps F .bare p s).out = (XSteam.u_pt F .bare p t).out := by
  unfold XSteam.t_ps at ht
  unfold XSteam.u_ps XSteam.u_pt
  bare
  rw [out_eq hr] at ht ⊢
  rw [out_eq hp]
  rcases h1 with rfl | rfl | rfl <;> norm_num only [if_true, if_false] at ht ⊢ <;> rw [out_eq ht]

/-- C51: isobaric heat capacity at (p, s) is isobaric heat capacity at (p, t) -/
theorem C51_Cp_ps (F : FP) (p s t : Num) (r : ℤ) (h1 : r = 1 ∨ r = 2 ∨ r = 5)
    (hr : (RegionSelection.region_ps F p s).out = .ok r) (ht : (XSteam.t_ps F .bare p s).out = .ok t)
    (hp : (RegionSelection.region_pT F p t).out = .ok r) :
    (XSteam.Cp_ps F .bare p s).out = (XSteam.Cp_pt F .bare p t).out := by
  unfold XSteam.t_ps at ht
  unfold XSteam.Cp_ps XSteam.Cp_pt
  bare
  rw [out_eq hr] at ht ⊢
  rw [out_eq hp]
  rcases h1 with rfl | rfl | rfl <;> norm_num only [if_true, if_false] at ht ⊢ <;> rw [out_eq ht]

/-- C51: isochoric heat capacity at (p, s) is isochoric heat capacity at (p, t) -/
theorem C51_Cv_ps (F : FP) (p s t : Num) (r : ℤ) (h1 : r = 1 ∨ r = 2 ∨ r = 5)
    (hr : (RegionSelection.region_ps F p s).out = .ok r) (ht : (XSteam.t_ps F .bare p s).out = .ok t)
    (hp : (RegionSelection.region_pT F p t).out = .ok r) :
    (XSteam.Cv_ps F .bare p s).out = (XSteam.Cv_pt F .bare p t).out := by
  unfold XSteam.t_ps at ht
  unfold XSteam.Cv_ps XSteam.Cv_pt
  bare
  rw [out_eq hr] at ht ⊢
  rw [out_eq hp]
  rcases h1 with rfl | rfl | rfl <;> norm_num only [if_true, if_false] at ht ⊢ <;> rw [out_eq ht]

/-- C51: the speed of sound at (p, s) is the speed of sound at (p, t) -/
theorem C51_w_ps (F : FP) (p s t : Num) (r : ℤ) (h1 : r = 1 ∨ r = 2 ∨ r = 5)
    (hr : (RegionSelection.region_ps F p s).out = .ok r) (ht : (XSteam.t_ps F .bare p s).out = .ok t)
    (hp : (RegionSelection.region_pT F p t).out = .ok r) :
    (XSteam.w_ps F .bare p s).out = (XSteam.w_pt F .bare p t).out := by
  unfold XSteam.t_ps at ht
  unfold XSteam.w_ps XSteam.w_pt
  bare
  rw [out_eq hr] at ht ⊢
  rw [out_eq hp]
  rcases h1 with rfl | rfl | rfl <;> norm_num only [if_true, if_false] at ht ⊢ <;> rw [out_eq ht]

/-! ## Region 3 -/

/-- C51: in region 3 entropy at (p, h) is that of the density `1 / v_ph` and the temperature `t_ph` -/
theorem C51_s_ph_region3 (F : FP) (p h t v rho : Num) (hr : (RegionSelection.region_ph F p h).out = .ok 3)
    (ht : (XSteam.t_ph F .bare p h).out = .ok t) (hv : (XSteam.v_ph F .bare p h).out = .ok v)
    (hd : (F.div (Num.ofInt 1) v).out = .ok rho) :
    (XSteam.s_ph F .bare p h).out = (Region3.s3_rhoT F rho t).out := by
  unfold XSteam.t_ph at ht
  unfold XSteam.v_ph at hv
  unfold XSteam.s_ph
  bare
  rw [out_eq hr] at ht hv ⊢
  norm_num only [if_true, if_false] at ht hv ⊢
  rw [out_eq hv, out_eq hd, out_eq ht]

/-- C51: in region 3 internal energy at (p, h) is that of the density `1 / v_ph` and the temperature `t_ph` -/
theorem C51_u_ph_region3 (F : FP) (p h t v rho : Num) (hr : (RegionSelection.region_ph F p h).out = .ok 3)
    (ht : (XSteam.t_ph F .bare p h).out = .ok t) (hv : (XSteam.v_ph F .bare p h).out = .ok v)
    (hd : (F.div (Num.ofInt 1) v).out = .ok rho) :
    (XSteam.u_ph F .bare p h).out = (Region3.u3_rhoT F rho t).out := by
  unfold XSteam.t_ph at ht
  unfold XSteam.v_ph at hv
  unfold XSteam.u_ph
  bare
  rw [out_eq hr] at ht hv ⊢
  norm_num only [if_true, if_false] at ht hv ⊢
  rw [out_eq hv, out_eq hd, out_eq ht]

/-- C51: in region 3 isobaric heat capacity at (p, h) is that of the density `1 / v_ph` and the temperature `t_ph` -/
theorem C51_Cp_ph_region3 (F : FP) (p h t v rho : Num) (hr : (RegionSelection.region_ph F p h).out = .ok 3)
    (ht : (XSteam.t_ph F .bare p h).out = .ok t) (hv : (XSteam.v_ph F .bare p h).out = .ok v)
    (hd : (F.div (Num.ofInt 1) v).out = .ok rho) :
    (XSteam.Cp_ph F .bare p h).out = (Region3.Cp3_rhoT F rho t).out := by
  unfold XSteam.t_ph at ht
  unfold XSteam.v_ph at hv
  unfold XSteam.Cp_ph
  bare
  rw [out_eq hr] at ht hv ⊢
  norm_num only [if_true, if_false] at ht hv ⊢
  rw [out_eq hv, out_eq hd, out_eq ht]

/-- C51: in region 3 isochoric heat capacity at (p, h) is that of the density `1 / v_ph` and the temperature `t_ph` -/
theorem C51_Cv_ph_region3 (F : FP) (p h t v rho : Num) (hr : (RegionSelection.region_ph F p h).out = .ok 3)
    (ht : (XSteam.t_ph F .bare p h).out = .ok t) (hv : (XSteam.v_ph F .bare p h).out = .ok v)
    (hd : (F.div (Num.ofInt 1) v).out = .ok rho) :
    (XSteam.Cv_ph F .bare p h).out = (Region3.Cv3_rhoT F rho t).out := by
  unfold XSteam.t_ph at ht
  unfold XSteam.v_ph at hv
  unfold XSteam.Cv_ph
  bare
  rw [out_eq hr] at ht hv ⊢
  norm_num only [if_true, if_false] at ht hv ⊢
  rw [out_eq hv, out_eq hd, out_eq ht]

/-- C51: in region 3 the speed of sound at (p, h) is that of the density `1 / v_ph` and the temperature `t_ph` -/
theorem C51_w_ph_region3 (F : FP) (p h t v rho : Num) (hr : (RegionSelection.region_ph F p h).out = .ok 3)
    (ht : (XSteam.t_ph F .bare p h).out = .ok t) (hv : (XSteam.v_ph F .bare p h).out = .ok v)
    (hd : (F.div (Num.ofInt 1) v).out = .ok rho) :
    (XSteam.w_ph F .bare p h).out = (Region3.w3_rhoT F rho t).out := by
  unfold XSteam.t_ph at ht
  unfold XSteam.v_ph at hv
  unfold XSteam.w_ph
  bare
  rw [out_eq hr] at ht hv ⊢
  norm_num only [if_true, if_false] at ht hv ⊢
  rw [out_eq hv, out_eq hd, out_eq ht]

/-- C51: in region 3 enthalpy at (p, s) is that of the density `1 / v_ps` and the temperature `t_ps` -/
theorem C51_h_ps_region3 (F : FP) (p s t v rho : Num) (hr : (RegionSelection.region_ps F p s).out = .ok 3)
    (ht : (XSteam.t_ps F .bare p s).out = .ok t) (hv : (XSteam.v_ps F .bare p s).out = .ok v)
    (hd : (F.div (Num.ofInt 1) v).out = .ok rho) :
    (XSteam.h_ps F .bare p s).out = (Region3.h3_rhoT F rho t).out := by
  unfold XSteam.t_ps at ht
  unfold XSteam.v_ps at hv
  unfold XSteam.h_ps
  bare
  rw [out_eq hr] at ht hv ⊢
  norm_num only [if_true, if_false] at ht hv ⊢
  rw [out_eq hv, out_eq hd, out_eq ht]

/-- C51: in region 3 internal energy at (p, s) is that of the density `1 / v_ps` and the temperature `t_ps` -/
theorem C51_u_ps_region3 (F : FP) (p s t v rho : Num) (hr : (RegionSelection.region_ps F p s).out = .ok 3)
    (ht : (XSteam.t_ps F .bare p s).out = .ok t) (hv : (XSteam.v_ps F .bare p s).out = .ok v)
    (hd : (F.div (Num.ofInt 1) v).out = .ok rho) :
    (XSteam.u_ps F .bare p s).out = (Region3.u3_rhoT F rho t).out := by
  unfold XSteam.t_ps at ht
  unfold XSteam.v_ps at hv
  unfold XSteam.u_ps
  bare
  rw [out_eq hr] at ht hv ⊢
  norm_num only [if_true, if_false] at ht hv ⊢
  rw [out_eq hv, out_eq hd, out_eq ht]

/-- C51: in region 3 isobaric heat capacity at (p, s) is that of the density `1 / v_ps` and the temperature `t_ps` -/
theorem C51_Cp_ps_region3 (F : FP) (p s t v rho : Num) (hr : (RegionSelection.region_ps F p s).out = .ok 3)
    (ht : (XSteam.t_ps F .bare p s).out = .ok t) (hv : (XSteam.v_ps F .bare p s).out = .ok v)
    (hd : (F.div (Num.ofInt 1) v).out = .ok rho) :
    (XSteam.Cp_ps F .bare p s).out = (Region3.Cp3_rhoT F rho t).out := by
  unfold XSteam.t_ps at ht
  unfold XSteam.v_ps at hv
  unfold XSteam.Cp_ps
  bare
  rw [out_eq hr] at ht hv ⊢
  norm_num only [if_true, if_false] at ht hv ⊢
  rw [out_eq hv, out_eq hd, out_eq ht]

/-- C51: in region 3 isochoric heat capacity at (p, s) is that of the density `1 / v_ps` and the temperature `t_ps` -/
theorem C51_Cv_ps_region3 (F : FP) (p s t v rho : Num) (hr : (RegionSelection.region_ps F p s).out = .ok 3)
    (ht : (XSteam.t_ps F .bare p s).out = .ok t) (hv : (XSteam.v_ps F .bare p s).out = .ok v)
    (hd : (F.div (Num.ofInt 1) v).out = .ok rho) :
    (XSteam.Cv_ps F .bare p s).out = (Region3.Cv3_rhoT F rho t).out := by
  unfold XSteam.t_ps at ht
  unfold XSteam.v_ps at hv
  unfold XSteam.Cv_ps
  bare
  rw [out_eq hr] at ht hv ⊢
  norm_num only [if_true, if_false] at ht hv ⊢
  rw [out_eq hv, out_eq hd, out_eq ht]

/-- C51: in region 3 the speed of sound at (p, s) is that of the density `1 / v_ps` and the temperature `t_ps` -/
theorem C51_w_ps_region3 (F : FP) (p s t v rho : Num) (hr : (RegionSelection.region_ps F p s).out = .ok 3)
    (ht : (XSteam.t_ps F .bare p s).out = .ok t) (hv : (XSteam.v_ps F .bare p s).out = .ok v)
    (hd : (F.div (Num.ofInt 1) v).out = .ok rho) :
    (XSteam.w_ps F .bare p s).out = (Region3.w3_rhoT F rho t).out := by
  unfold XSteam.t_ps at ht
  unfold XSteam.v_ps at hv
  unfold XSteam.w_ps
  bare
  rw [out_eq hr] at ht hv ⊢
  norm_num only [if_true, if_false] at ht hv ⊢
  rw [out_eq hv, out_eq hd, out_eq ht]

/-! ## Enthalpy and entropy -/

/-- C51: the temperature at (h, s) is the temperature at (p, h) of the pressure at (h, s) -/
theorem C51_t_hs (F : FP) (h s p : Num) (r : ℤ) (h1 : r = 1 ∨ r = 2 ∨ r = 3)
    (hr : (RegionSelection.region_hs F h s).out = .ok r) (hp : (XSteam.p_hs F .bare h s).out = .ok p)
    (hr' : (RegionSelection.region_ph F p h).out = .ok r) :
    (XSteam.t_hs F .bare h s).out = (XSteam.t_ph F .bare p h).out := by
  unfold XSteam.p_hs at hp
  unfold XSteam.t_hs XSteam.t_ph
  bare
  rw [out_eq hr] at hp ⊢
  rw [out_eq hr']
  rcases h1 with rfl | rfl | rfl <;> norm_num only [if_true, if_false] at hp ⊢ <;> rw [out_eq hp]

/-- C51: a wet state at (h, s) lies on the saturation curve -/
theorem C51_t_hs_wet (F : FP) (h s t : Num) (hr : (RegionSelection.region_hs F h s).out = .ok 4)
    (ht : (XSteam.t_hs F .bare h s).out = .ok t) (h0 : F.lit 273.1 < t) (h1 : t < F.lit 647.096) :
    (XSteam.p_hs F .bare h s).out = (XSteam.psat_t F .bare t).out := by
  unfold XSteam.t_hs at ht
  unfold XSteam.p_hs XSteam.psat_t
  bare
  rw [out_eq hr] at ht ⊢
  rw [if_pos (⟨h1, h0⟩ : t < F.lit 647.096 ∧ t > F.lit 273.1)]
  norm_num only [if_true, if_false] at ht ⊢
  rw [out_eq ht]

/-- C51: the temperature of a wet state at (p, h) is the saturation temperature -/
theorem C51_t_ph_wet (F : FP) (p h : Num) (hr : (RegionSelection.region_ph F p h).out = .ok 4)
    (h0 : F.lit 0.000611657 < p) (h1 : p < F.lit 22.06395) :
    (XSteam.t_ph F .bare p h).out = (XSteam.tsat_p F .bare p).out := by
  unfold XSteam.t_ph XSteam.tsat_p
  bare
  rw [out_eq hr, if_pos (⟨h0, h1⟩ : p > F.lit 0.000611657 ∧ p < F.lit 22.06395)]
  norm_num only [if_true, if_false]

/-- C51: the temperature of a wet state at (p, s) is the saturation temperature -/
theorem C51_t_ps_wet (F : FP) (p s : Num) (hr : (RegionSelection.region_ps F p s).out = .ok 4)
    (h0 : F.lit 0.000611657 < p) (h1 : p < F.lit 22.06395) :
    (XSteam.t_ps F .bare p s).out = (XSteam.tsat_p F .bare p).out := by
  unfold XSteam.t_ps XSteam.tsat_p
  bare
  rw [out_eq hr, if_pos (⟨h0, h1⟩ : p > F.lit 0.000611657 ∧ p < F.lit 22.06395)]
  norm_num only [if_true, if_false]

/-! ## All unit systems -/

/-- C51: specific volume at (p, h) and (p, t) in every unit system -/
theorem C51_v_ph_units (u : UnitSystem) (p h t : ℝ) (r : ℤ) (h1 : r = 1 ∨ r = 2 ∨ r = 5)
    (hr : (RegionSelection.region_ph .ideal (.fin (Quantity.p.si u p)) (.fin (Quantity.h.si u h))).out = .ok r)
    (ht : (XSteam.t_ph .ideal u (.fin p) (.fin h)).out = .ok (.fin t))
    (hp : (RegionSelection.region_pT .ideal (.fin (Quantity.p.si u p)) (.fin (Quantity.T.si u t))).out = .ok r) :
    (XSteam.v_ph .ideal u (.fin p) (.fin h)).out = (XSteam.v_pt .ideal u (.fin p) (.fin t)).out := by
  have e1 := C05_exact u (.t_ph (.fin p) (.fin h)) (by simp [Call.Defective])
  have e2 := C05_exact u (.v_ph (.fin p) (.fin h)) (by simp [Call.Defective])
  have e3 := C05_exact u (.v_pt (.fin p) (.fin t)) (by simp [Call.Defective])
  simp only [Call.lawful, Call.run, Call.toSI, Call.fromSI, Quantity.toSI_fin, pure_bind] at e1 e2 e3
  rw [e1] at ht
  obtain ⟨l, y, ey, ht'⟩ := out_bind ht
  rw [Quantity.fromSI_fin_inv ht'] at ey
  rw [e2, e3]
  exact out_congr _ (C51_v_ph .ideal _ _ _ r h1 hr (by rw [ey]) hp)

/-- C51: entropy at (p, h) and (p, t) in every unit system -/
theorem C51_s_ph_units (u : UnitSystem) (p h t : ℝ) (r : ℤ) (h1 : r = 1 ∨ r = 2 ∨ r = 5)
    (hr : (RegionSelection.region_ph .ideal (.fin (Quantity.p.si u p)) (.fin (Quantity.h.si u h))).out = .ok r)
    (ht : (XSteam.t_ph .ideal u (.fin p) (.fin h)).out = .ok (.fin t))
    (hp : (RegionSelection.region_pT .ideal (.fin (Quantity.p.si u p)) (.fin (Quantity.T.si u t))).out = .ok r) :
    (XSteam.s_ph .ideal u (.fin p) (.fin h)).out = (XSteam.s_pt .ideal u (.fin p) (.fin t)).out := by
  have e1 := C05_exact u (.t_ph (.fin p) (.fin h)) (by simp [Call.Defective])
  have e2 := C05_exact u (.s_ph (.fin p) (.fin h)) (by simp [Call.Defective])
  have e3 := C05_exact u (.s_pt (.fin p) (.fin t)) (by simp [Call.Defective])
  simp only [Call.lawful, Call.run, Call.toSI, Call.fromSI, Quantity.toSI_fin, pure_bind] at e1 e2 e3
  rw [e1] at ht
  obtain ⟨l, y, ey, ht'⟩ := out_bind ht
  rw [Quantity.fromSI_fin_inv ht'] at ey
  rw [e2, e3]
  exact out_congr _ (C51_s_ph .ideal _ _ _ r h1 hr (by rw [ey]) hp)

/-- C51: internal energy at (p, h) and (p, t) in every unit system -/
theorem C51_u_ph_units (u : UnitSystem) (p h t : ℝ) (r : ℤ) (h1 : r = 1 ∨ r = 2 ∨ r = 5)
    (hr : (RegionSelection.region_ph .ideal (.fin (Quantity.p.si u p)) (.fin (Quantity.h.si u h))).out = .ok r)
    (ht : (XSteam.t_ph .ideal u (.fin p) (.fin h)).out = .ok (.fin t))
    (hp : (RegionSelection.region_pT .ideal (.fin (Quantity.p.si u p)) (.fin (Quantity.T.si u t))).out = .ok r) :
    (XSteam.u_ph .ideal u (.fin p) (.fin h)).out = (XSteam.u_pt .ideal u (.fin p) (.fin t)).out := by
  have e1 := C05_exact u (.t_ph (.fin p) (.fin h)) (by simp [Call.Defective])
  have e2 := C05_exact u (.u_ph (.fin p) (.fin h)) (by simp [Call.Defective])
  have e3 := C05_exact u (.u_pt (.fin p) (.fin t)) (by simp [Call.Defective])
  simp only [Call.lawful, Call.run, Call.toSI, Call.fromSI, Quantity.toSI_fin, pure_bind] at e1 e2 e3
  rw [e1] at ht
  obtain ⟨l, y, ey, ht'⟩ := out_bind ht
  rw [Quantity.fromSI_fin_inv ht'] at ey
  rw [e2, e3]
  exact out_congr _ (C51_u_ph .ideal _ _ _ r h1 hr (by rw [ey]) hp)

/-- C51: isobaric heat capacity at (p, h) and (p, t) in every unit system -/
theorem C51_Cp_ph_units (u : UnitSystem) (p h t : ℝ) (r : ℤ) (h1 : r = 1 ∨ r = 2 ∨ r = 5)
    (hr : (RegionSelection.region_ph .ideal (.fin (Quantity.p.si u p)) (.fin (Quantity.h.si u h))).out = .ok r)
    (ht : (XSteam.t_ph .ideal u (.fin p) (.fin h)).out = .ok (.fin t))
    (hp : (RegionSelection.region_pT .ideal (.fin (Quantity.p.si u p)) (.fin (Quantity.T.si u t))).out = .ok r) :
    (XSteam.Cp_ph .ideal u (.fin p) (.fin h)).out = (XSteam.Cp_pt .ideal u (.fin p) (.fin t)).out := by
  have e1 := C05_exact u (.t_ph (.fin p) (.fin h)) (by simp [Call.Defective])
  have e2 := C05_exact u (.Cp_ph (.fin p) (.fin h)) (by simp [Call.Defective])
  have e3 := C05_exact u (.Cp_pt (.fin p) (.fin t)) (by simp [Call.Defective])
  simp only [Call.lawful, Call.run, Call.toSI, Call.fromSI, Quantity.toSI_fin, pure_bind] at e1 e2 e3
  rw [e1] at ht
  obtain ⟨l, y, ey, ht'⟩ := out_bind ht
  rw [Quantity.fromSI_fin_inv ht'] at ey
  rw [e2, e3]
  exact out_congr _ (C51_Cp_ph .ideal _ _ _ r h1 hr (by rw [ey]) hp)

/-- C51: isochoric heat capacity at (p, h) and (p, t) in every unit system -/
theorem C51_Cv_ph_units (u : UnitSystem) (p h t : ℝ) (r : ℤ) (h1 : r = 1 ∨ r = 2 ∨ r = 5)
    (hr : (RegionSelection.region_ph .ideal (.fin (Quantity.p.si u p)) (.fin (Quantity.h.si u h))).out = .ok r)
    (ht : (XSteam.t_ph .ideal u (.fin p) (.fin h)).out = .ok (.fin t))
    (hp : (RegionSelection.region_pT .ideal (.fin (Quantity.p.si u p)) (.fin (Quantity.T.si u t))).out = .ok r) :
    (XSteam.Cv_ph .ideal u (.fin p) (.fin h)).out = (XSteam.Cv_pt .ideal u (.fin p) (.fin t)).out := by
  have e1 := C05_exact u (.t_ph (.fin p) (.fin h)) (by simp [Call.Defective])
  have e2 := C05_exact u (.Cv_ph (.fin p) (.fin h)) (by simp [Call.Defective])
  have e3 := C05_exact u (.Cv_pt (.fin p) (.fin t)) (by simp [Call.Defective])
  simp only [Call.lawful, Call.run, Call.toSI, Call.fromSI, Quantity.toSI_fin, pure_bind] at e1 e2 e3
  rw [e1] at ht
  obtain ⟨l, y, ey, ht'⟩ := out_bind ht
  rw [Quantity.fromSI_fin_inv ht'] at ey
  rw [e2, e3]
  exact out_congr _ (C51_Cv_ph .ideal _ _ _ r h1 hr (by rw [ey]) hp)

/-- C51: the speed of sound at (p, h) and (p, t) in every unit system -/
theorem C51_w_ph_units (u : UnitSystem) (p h t : ℝ) (r : ℤ) (h1 : r = 1 ∨ r = 2 ∨ r = 5)
    (hr : (RegionSelection.region_ph .ideal (.fin (Quantity.p.si u p)) (.fin (Quantity.h.si u h))).out = .ok r)
    (ht : (XSteam.t_ph .ideal u (.fin p) (.fin h)).out = .ok (.fin t))
    (hp : (RegionSelection.region_pT .ideal (.fin (Quantity.p.si u p)) (.fin (Quantity.T.si u t))).out = .ok r) :
    (XSteam.w_ph .ideal u (.fin p) (.fin h)).out = (XSteam.w_pt .ideal u (.fin p) (.fin t)).out := by
  have e1 := C05_exact u (.t_ph (.fin p) (.fin h)) (by simp [Call.Defective])
  have e2 := C05_exact u (.w_ph (.fin p) (.fin h)) (by simp [Call.Defective])
  have e3 := C05_exact u (.w_pt (.fin p) (.fin t)) (by simp [Call.Defective])
  simp only [Call.lawful, Call.run, Call.toSI, Call.fromSI, Quantity.toSI_fin, pure_bind] at e1 e2 e3
  rw [e1] at ht
  obtain ⟨l, y, ey, ht'⟩ := out_bind ht
  rw [Quantity.fromSI_fin_inv ht'] at ey
  rw [e2, e3]
  exact out_congr _ (C51_w_ph .ideal _ _ _ r h1 hr (by rw [ey]) hp)

/-- C51: specific volume at (p, s) and (p, t) in every unit system -/
theorem C51_v_ps_units (u : UnitSystem) (p s t : ℝ) (r : ℤ) (h1 : r = 1 ∨ r = 2 ∨ r = 5)
    (hr : (RegionSelection.region_ps .ideal (.fin (Quantity.p.si u p)) (.fin (Quantity.s.si u s))).out = .ok r)
    (ht : (XSteam.t_ps .ideal u (.fin p) (.fin s)).out = .ok (.fin t))
    (hp : (RegionSelection.region_pT .ideal (.fin (Quantity.p.si u p)) (.fin (Quantity.T.si u t))).out = .ok r) :
    (XSteam.v_ps .ideal u (.fin p) (.fin s)).out = (XSteam.v_pt .ideal u (.fin p) (.fin t)).out := by
  have e1 := C05_exact u (.t_ps (.fin p) (.fin s)) (by simp [Call.Defective])
  have e2 := C05_exact u (.v_ps (.fin p) (.fin s)) (by simp [Call.Defective])
  have e3 := C05_exact u (.v_pt (.fin p) (.fin t)) (by simp [Call.Defective])
  simp only [Call.lawful, Call.run, Call.toSI, Call.fromSI, Quantity.toSI_fin, pure_bind] at e1 e2 e3
  rw [e1] at ht
  obtain ⟨l, y, ey, ht'⟩ := out_bind ht
  rw [Quantity.fromSI_fin_inv ht'] at ey
  rw [e2, e3]
  exact out_congr _ (C51_v_ps .ideal _ _ _ r h1 hr (by rw [ey]) hp)

/-- C51: enthalpy at (p, s) and (p, t) in every unit system -/
theorem C51_h_ps_units (u : UnitSystem) (p s t : ℝ) (r : ℤ) (h1 : r = 1 ∨ r = 2 ∨ r = 5)
    (hr : (RegionSelection.region_ps .ideal (.fin (Quantity.p.si u p)) (.fin (Quantity.s.si u s))).out = .ok r)
    (ht : (XSteam.t_ps .ideal u (.fin p) (.fin s)).out = .ok (.fin t))
    (hp : (RegionSelection.region_pT .ideal (.fin (Quantity.p.si u p)) (.fin (Quantity.T.si u t))).out = .ok r) :
    (XSteam.h_ps .ideal u (.fin p) (.fin s)).out = (XSteam.h_pt .ideal u (.fin p) (.fin t)).out := by
  have e1 := C05_exact u (.t_ps (.fin p) (.fin s)) (by simp [Call.Defective])
  have e2 := C05_exact u (.h_ps (.fin p) (.fin s)) (by simp [Call.Defective])
  have e3 := C05_exact u (.h_pt (.fin p) (.fin t)) (by simp [Call.Defective])
  simp only [Call.lawful, Call.run, Call.toSI, Call.fromSI, Quantity.toSI_fin, pure_bind] at e1 e2 e3
  rw [e1] at ht
  obtain ⟨l, y, ey, ht'⟩ := out_bind ht
  rw [Quantity.fromSI_fin_inv ht'] at ey
  rw [e2, e3]
  exact out_congr _ (C51_h_ps .ideal _ _ _ r h1 hr (by rw [ey]) hp)

/-- C51: internal energy at (p, s) and (p, t) in every unit system -/
theorem C51_u_ps_units (u : UnitSystem) (p s t : ℝ) (r : ℤ) (h1 : r = 1 ∨ r = 2 ∨ r = 5)
    (hr : (RegionSelection.region_ps .ideal (.fin (Quantity.p.si u p)) (.fin (Quantity.s.si u s))).out = .ok r)
    (ht : (XSteam.t_ps .ideal u (.fin p) (.fin s)).out = .ok (.fin t))
    (hp : (RegionSelection.region_pT .ideal (.fin (Quantity.p.si u p)) (.fin (Quantity.T.si u t))).out = .ok r) :
    (XSteam.u_ps .ideal u (.fin p) (.fin s)).out = (XSteam.u_pt .ideal u (.fin p) (.fin t)).out := by
  have e1 := C05_exact u (.t_ps (.fin p) (.fin s)) (by simp [Call.Defective])
  have e2 := C05_exact u (.u_ps (.fin p) (.fin s)) (by simp [Call.Defective])
  have e3 := C05_exact u (.u_pt (.fin p) (.fin t)) (by simp [Call.Defective])
  simp only [Call.lawful, Call.run, Call.toSI, Call.fromSI, Quantity.toSI_fin, pure_bind] at e1 e2 e3
  rw [e1] at ht
  obtain ⟨l, y, ey, ht'⟩ := out_bind ht
  rw [Quantity.fromSI_fin_inv ht'] at ey
  rw [e2, e3]
  exact out_congr _ (C51_u_ps .ideal _ _ _ r h1 hr (by rw [ey]) hp)

/-- C51: isobaric heat capacity at (p, s) and (p, t) in every unit system -/
theorem C51_Cp_ps_units (u : UnitSystem) (p s t : ℝ) (r : ℤ) (h1 : r = 1 ∨ r = 2 ∨ r = 5)
    (hr : (RegionSelection.region_ps .ideal (.fin (Quantity.p.si u p)) (.fin (Quantity.s.si u s))).out = .ok r)
    (ht : (XSteam.t_ps .ideal u (.fin p) (.fin s)).out = .ok (.fin t))
    (hp : (RegionSelection.region_pT .ideal (.fin (Quantity.p.si u p)) (.fin (Quantity.T.si u t))).out = .ok r) :
    (XSteam.Cp_ps .ideal u (.fin p) (.fin s)).out = (XSteam.Cp_pt .ideal u (.fin p) (.fin t)).out := by
  have e1 := C05_exact u (.t_ps (.fin p) (.fin s)) (by simp [Call.Defective])
  have e2 := C05_exact u (.Cp_ps (.fin p) (.fin s)) (by simp [Call.Defective])
  have e3 := C05_exact u (.Cp_pt (.fin p) (.fin t)) (by simp [Call.Defective])
  simp only [Call.lawful, Call.run, Call.toSI, Call.fromSI, Quantity.toSI_fin, pure_bind] at e1 e2 e3
  rw [e1] at ht
  obtain ⟨l, y, ey, ht'⟩ := out_bind ht
  rw [Quantity.fromSI_fin_inv ht'] at ey
  rw [e2, e3]
  exact out_congr _ (C51_Cp_ps .ideal _ _ _ r h1 hr (by rw [ey]) hp)

/-- C51: isochoric heat capacity at (p, s) and (p, t) in every unit system -/
theorem C51_Cv_ps_units (u : UnitSystem) (p s t : ℝ) (r : ℤ) (h1 : r = 1 ∨ r = 2 ∨ r = 5)
    (hr : (RegionSelection.region_ps .ideal (.fin (Quantity.p.si u p)) (.fin (Quantity.s.si u s))).out = .ok r)
    (ht : (XSteam.t_ps .ideal u (.fin p) (.fin s)).out = .ok (.fin t))
    (hp : (RegionSelection.region_pT .ideal (.fin (Quantity.p.si u p)) (.fin (Quantity.T.si u t))).out = .ok r) :
    (XSteam.Cv_ps .ideal u (.fin p) (.fin s)).out = (XSteam.Cv_pt .ideal u (.fin p) (.fin t)).out := by
  have e1 := C05_exact u (.t_ps (.fin p) (.fin s)) (by simp [Call.Defective])
  have e2 := C05_exact u (.Cv_ps (.fin p) (.fin s)) (by simp [Call.Defective])
  have e3 := C05_exact u (.Cv_pt (.fin p) (.fin t)) (by simp [Call.Defective])
  simp only [Call.lawful, Call.run, Call.toSI, Call.fromSI, Quantity.toSI_fin, pure_bind] at e1 e2 e3
  rw [e1] at ht
  obtain ⟨l, y, ey, ht'⟩ := out_bind ht
  rw [Quantity.fromSI_fin_inv ht'] at ey
  rw [e2, e3]
  exact out_congr _ (C51_Cv_ps .ideal _ _ _ r h1 hr (by rw [ey]) hp)

/-- C51: the speed of sound at (p, s) and (p, t) in every unit system -/
theorem C51_w_ps_units (u : UnitSystem) (p s t : ℝ) (r : ℤ) (h1 : r = 1 ∨ r = 2 ∨ r = 5)
    (hr : (RegionSelection.region_ps .ideal (.fin (Quantity.p.si u p)) (.fin (Quantity.s.si u s))).out = .ok r)
    (ht : (XSteam.t_ps .ideal u (.fin p) (.fin s)).out = .ok (.fin t))
    (hp : (RegionSelection.region_pT .ideal (.fin (Quantity.p.si u p)) (.fin (Quantity.T.si u t))).out = .ok r) :
    (XSteam.w_ps .ideal u (.fin p) (.fin s)).out = (XSteam.w_pt .ideal u (.fin p) (.fin t)).out := by
  have e1 := C05_exact u (.t_ps (.fin p) (.fin s)) (by simp [Call.Defective])
  have e2 := C05_exact u (.w_ps (.fin p) (.fin s)) (by simp [Call.Defective])
  have e3 := C05_exact u (.w_pt (.fin p) (.fin t)) (by simp [Call.Defective])
  simp only [Call.lawful, Call.run, Call.toSI, Call.fromSI, Quantity.toSI_fin, pure_bind] at e1 e2 e3
  rw [e1] at ht
  obtain ⟨l, y, ey, ht'⟩ := out_bind ht
  rw [Quantity.fromSI_fin_inv ht'] at ey
  rw [e2, e3]
  exact out_congr _ (C51_w_ps .ideal _ _ _ r h1 hr (by rw [ey]) hp)

end PyX
