import Verif.Props.Guards
import Verif.Props.RegionCodes
import Verif.Spec.Ice

/-!
# C13, C16, C17, C30, C34: the branches of the API
-/

namespace PyX

open Classical Py

set_option linter.unusedSimpArgs false

theorem bind_ok {α β : Type} (l : List LogRec) (a : α) (f : α → Py β) :
    ((⟨l, .ok a⟩ : Py α) >>= f) = Py.prepend l (f a) := rfl

/-- a run that returns a value goes through a run that returns a value -/
theorem out_bind {α β : Type} {x : Py α} {f : α → Py β} {b : β} (h : (x >>= f).out = .ok b) :
    ∃ l a, x = ⟨l, .ok a⟩ ∧ (f a).out = .ok b := by
  rcases x with ⟨l, o⟩
  cases o with
  | ok a =>
    refine ⟨l, a, rfl, ?_⟩
    rw [bind_ok] at h
    generalize f a = y at h
    rcases y with ⟨k, o⟩
    cases o <;> exact h
  | raise e => cases h
  | diverge => cases h

theorem out_prepend {α : Type} {x : Py α} {b : α} (l : List LogRec) (h : x.out = .ok b) :
    (Py.prepend l x).out = .ok b := by
  rcases x with ⟨k, o⟩
  subst h; rfl

theorem out_bind_of {α β : Type} {x : Py α} {f : α → Py β} {a : α} {b : β} (h : x.out = .ok a)
    (h' : (f a).out = .ok b) : (x >>= f).out = .ok b := by
  rcases x with ⟨l, o⟩
  subst h
  exact out_prepend l h'

theorem Refused.tail {x : Py Num} (h : Refused x) (l : List LogRec) :
    (Py.prepend l x).out = .ok .nan ∧ Warned (Py.prepend l x).logs := by
  obtain ⟨m, rfl⟩ := h
  exact ⟨rfl, _, List.mem_append_right _ (List.mem_singleton_self _), rfl⟩

theorem Sound.bind_known {α β : Type} [AllFin β] {B : Prop} {l : List LogRec} {a : α} {f : α → Py β}
    (h : Sound B (f a)) : Sound B ((⟨l, .ok a⟩ : Py α) >>= f) :=
  Post.bind (h.mono (fun _ _ h => h.imp_right (And.imp_right Noted.right)) (fun _ h => h) id)

/-! ## C13 -/

/-- the single-phase functions of pressure and temperature -/
def Call.ofPT : Call → Option (Num × Num)
  | .h_pt p t | .v_pt p t | .s_pt p t | .u_pt p t | .Cp_pt p t | .Cv_pt p t | .w_pt p t
  | .my_pt p t => some (p, t)
  | _ => none

/-- C13: where the point is on the saturation line or outside all regions, the single-phase functions of
(p, T) return NaN after a warning; any floating point arithmetic -/
theorem C13_refused (F : FP) (u : UnitSystem) (c : Call) (p t p' T : Num)
    (hc : c.ofPT = some (p, t)) (hp : Quantity.p.toSI F u p = pure p')
    (hT : Quantity.T.toSI F u t = pure T) (k : ℤ)
    (hk : (RegionSelection.region_pT F p' T).out = .ok k) (h04 : k = 0 ∨ k = 4) :
    (c.run F u).out = .ok .nan ∧ Warned (c.run F u).logs := by
  have hr : RegionSelection.region_pT F p' T = ⟨(RegionSelection.region_pT F p' T).logs, .ok k⟩ := by
    rw [← hk]
  generalize (RegionSelection.region_pT F p' T).logs = l at hr
  simp only [Quantity.toSI] at hp hT
  cases c <;> simp only [Call.ofPT, Option.some.injEq, Prod.mk.injEq, reduceCtorEq] at hc <;>
    obtain ⟨rfl, rfl⟩ := hc <;>
    simp only [Call.run, XSteam.h_pt, XSteam.v_pt, XSteam.s_pt, XSteam.u_pt, XSteam.Cp_pt, XSteam.Cv_pt,
      XSteam.w_pt, XSteam.my_pt, hp, hT, pure_bind, hr, bind_ok] <;>
    rcases h04 with rfl | rfl <;>
    simp only [Int.reduceEq, if_true, if_false, List.mem_cons, List.not_mem_nil, or_self, or_false] <;>
    exact (Refused.intro _).tail l

/-- C13: everywhere else they return a finite number, if they return, and for `my_pt` unless the point is
outside its own range of validity (exact arithmetic) -/
theorem C13_number (u : UnitSystem) (c : Call) (p t : ℝ) (p' T : Num)
    (hc : c.ofPT = some (.fin p, .fin t)) (hp : Quantity.p.toSI .ideal u (.fin p) = pure p')
    (hT : Quantity.T.toSI .ideal u (.fin t) = pure T) (k : ℤ)
    (hk : (RegionSelection.region_pT .ideal p' T).out = .ok k) (h04 : k = 1 ∨ k = 2 ∨ k = 3 ∨ k = 5)
    (hmy : ∀ p t, c ≠ .my_pt p t) (r : Num) (h : (c.run .ideal u).out = .ok r) :
    ∃ x : ℝ, r = .fin x := by
  have hr : RegionSelection.region_pT .ideal p' T =
      ⟨(RegionSelection.region_pT .ideal p' T).logs, .ok k⟩ := by rw [← hk]
  generalize (RegionSelection.region_pT .ideal p' T).logs = l at hr
  obtain ⟨p'', rfl⟩ : ∃ x : ℝ, p' = .fin x := by
    have : Sound False (Quantity.p.toSI .ideal u (.fin p)) := UnitConverter.toSIunit_p.sound u p
    rw [hp] at this
    exact this.resolve_right And.left
  obtain ⟨T', rfl⟩ : ∃ x : ℝ, T = .fin x := by
    have : Sound False (Quantity.T.toSI .ideal u (.fin t)) := UnitConverter.toSIunit_T.sound u t
    rw [hT] at this
    exact this.resolve_right And.left
  simp only [Quantity.toSI] at hp hT
  have key : Sound False (c.run .ideal u) := by
    cases c <;> simp only [Call.ofPT, Option.some.injEq, Prod.mk.injEq, reduceCtorEq] at hc <;>
      obtain ⟨rfl, rfl⟩ := hc <;>
      simp only [Call.run, XSteam.h_pt, XSteam.v_pt, XSteam.s_pt, XSteam.u_pt, XSteam.Cp_pt,
        XSteam.Cv_pt, XSteam.w_pt, hp, hT, pure_bind, hr]
    case my_pt => exact absurd rfl (hmy _ _)
    all_goals
      refine Sound.bind_known ?_
      rcases h04 with rfl | rfl | rfl | rfl <;> simp only [Int.reduceEq, if_true, if_false] <;> sound_walk
  have := key.elim h
  simpa [AllFin.ok] using this

/-! ## C16 -/

/-- the vapour fractions -/
def Call.isFraction : Call → Prop
  | .x_ph _ _ | .x_ps _ _ | .vx_ph _ _ | .vx_ps _ _ => True
  | _ => False

theorem fraction_post {F : FP} (hF : F.Sane) {u : UnitSystem} {c : FP → UnitSystem → Num → Py Num}
    (hc : c ∈ fractionConverters) (x : Num) :
    Post (c F u x) (fun _ r => ∃ y : ℝ, r = .fin y ∧ 0 ≤ y ∧ y ≤ 1) (fun _ => True) True := by
  obtain ⟨h1, h2⟩ := C03_fraction F hF u x c hc
  by_cases h : ∃ r : ℝ, x = .fin r ∧ 0 ≤ r ∧ r ≤ 1
  · rw [h1 h]; exact h
  · have := (h2 h).1
    simp only [Post, this]

/-- C16: a vapour fraction (by mass or by volume) is a number between 0 and 1, or NaN after a warning -/
theorem C16_fraction (F : FP) (hF : F.Sane) (u : UnitSystem) (c : Call) (hc : c.isFraction) (r : Num)
    (hr : (c.run F u).out = .ok r) :
    (r = .nan ∧ Warned (c.run F u).logs) ∨ ∃ y : ℝ, r = .fin y ∧ 0 ≤ y ∧ y ≤ 1 := by
  have hx : ∀ x, Post (UnitConverter.fromSIunit_x F u x) (fun _ r => ∃ y : ℝ, r = .fin y ∧ 0 ≤ y ∧ y ≤ 1)
      (fun _ => True) True := fraction_post hF (by simp [fractionConverters])
  have hvx : ∀ x, Post (UnitConverter.fromSIunit_vx F u x)
      (fun _ r => ∃ y : ℝ, r = .fin y ∧ 0 ≤ y ∧ y ≤ 1) (fun _ => True) True :=
    fraction_post hF (by simp [fractionConverters])
  have key : Post (c.run F u) (fun l r => (r = .nan ∧ Warned l) ∨ ∃ y : ℝ, r = .fin y ∧ 0 ≤ y ∧ y ≤ 1)
      (fun _ => True) True := by
    have hw : ∀ (m : String) (l k : List LogRec), Post (warn m >>= fun _ => (pure .nan : Py Num))
        (fun l' r => (r = .nan ∧ Warned (l ++ (k ++ l'))) ∨ ∃ y : ℝ, r = .fin y ∧ 0 ≤ y ∧ y ≤ 1)
        (fun _ => True) True := fun m l k =>
      Or.inl ⟨rfl, _, List.mem_append_right _ (List.mem_append_right _ (List.mem_singleton_self _)), rfl⟩
    cases c <;> simp only [Call.isFraction] at hc <;>
      simp only [Call.run, XSteam.x_ph, XSteam.x_ps, XSteam.vx_ph, XSteam.vx_ps] <;>
      (refine Post.bind (Post.any (fun _ _ => Post.bind (Post.any (fun _ _ => ?_) (fun _ => trivial)
        trivial)) (fun _ => trivial) trivial)) <;>
      (apply Post.ite <;> intro _) <;>
      first
        | exact hw _ _ _
        | skip
    all_goals
      repeat' (with_reducible first
        | exact (hx _).mono (fun _ _ h => .inr h) (fun _ h => h) id
        | exact (hvx _).mono (fun _ _ h => .inr h) (fun _ h => h) id
        | apply Post.ite <;> intro _
        | refine Post.bind (Post.any (fun _ _ => ?_) (fun _ => trivial) trivial))
  exact key.elim hr

/-- where `y` lies on the way from `a` to `b`, 0 before `a`, 1 after `b` -/
noncomputable def fractionOf (a b y : ℝ) : ℝ := max 0 (min 1 ((y - a) / (b - a)))

theorem fractionOf_low {a b y : ℝ} (hab : a < b) (h : y < a) : fractionOf a b y = 0 := by
  have : (y - a) / (b - a) < 0 := div_neg_of_neg_of_pos (by linarith) (by linarith)
  rw [fractionOf, min_eq_right (by linarith), max_eq_left this.le]

theorem fractionOf_high {a b y : ℝ} (hab : a < b) (h : b < y) : fractionOf a b y = 1 := by
  have : 1 ≤ (y - a) / (b - a) := by rw [le_div_iff₀ (by linarith)]; linarith
  rw [fractionOf, min_eq_left this, max_eq_right zero_le_one]

theorem fractionOf_mid {a b y : ℝ} (hab : a < b) (h1 : a ≤ y) (h2 : y ≤ b) :
    fractionOf a b y = (y - a) / (b - a) ∧ 0 ≤ (y - a) / (b - a) ∧ (y - a) / (b - a) ≤ 1 := by
  have h3 : (y - a) / (b - a) ≤ 1 := by rw [div_le_one (by linarith)]; linarith
  have h4 : 0 ≤ (y - a) / (b - a) := div_nonneg (by linarith) (by linarith)
  exact ⟨by rw [fractionOf, min_eq_right h3, max_eq_right h4], h4, h3⟩

theorem fractionOf_mem {a b y : ℝ} : 0 ≤ fractionOf a b y ∧ fractionOf a b y ≤ 1 :=
  ⟨le_max_left _ _, max_le zero_le_one (min_le_left _ _)⟩

/-- the vapour fraction grows with the enthalpy -/
theorem fractionOf_mono {a b y z : ℝ} (hab : a < b) (h : y ≤ z) : fractionOf a b y ≤ fractionOf a b z :=
  max_le_max le_rfl (min_le_min le_rfl (by gcongr))

theorem x4_ph_exact {p h hL hV : ℝ} (eL : (Region4.h4L_p .ideal (.fin p)).out = .ok (.fin hL))
    (eV : (Region4.h4V_p .ideal (.fin p)).out = .ok (.fin hV)) (hlt : hL < hV) :
    (Region4.x4_ph .ideal (.fin p) (.fin h)).out = .ok (.fin (fractionOf hL hV h)) := by
  unfold Region4.x4_ph
  refine out_bind_of eV (out_bind_of eL ?_)
  simp only [bind_pure, gt_num, fin_lt, sub_ideal, ofInt_eq]
  split
  · rename_i c
    rw [fractionOf_high hlt c]; simp [pure, Py.ret]
  · rename_i c1
    split
    · rename_i c
      rw [fractionOf_low hlt c]; simp [pure, Py.ret]
    · rename_i c2
      rw [(fractionOf_mid hlt (not_lt.1 c2) (not_lt.1 c1)).1, div_ideal (by linarith)]; rfl

/-- C16: the vapour fraction at (p, h) in exact arithmetic, from the saturated enthalpies of the library (SI
units): 0 up to `hL_p`, 1 from `hV_p` on, linear in between -/
theorem C16_x_ph (u : UnitSystem) (p h : Num) (p' h' hL hV : ℝ)
    (hp : Quantity.p.toSI .ideal u p = pure (.fin p')) (hh : Quantity.h.toSI .ideal u h = pure (.fin h'))
    (hr : 0.000611657 < p' ∧ p' < 22.06395)
    (hhL : (XSteam.hL_p .ideal .bare (.fin p')).out = .ok (.fin hL))
    (hhV : (XSteam.hV_p .ideal .bare (.fin p')).out = .ok (.fin hV)) (hlt : hL < hV) :
    (XSteam.x_ph .ideal u p h).out = .ok (.fin (fractionOf hL hV h')) := by
  have e1 : FP.ideal.lit 0.000611657 = .fin 0.000611657 := by rw [lit_ideal]; norm_num
  have e2 : FP.ideal.lit 22.06395 = .fin 22.06395 := by rw [lit_ideal]; norm_num
  have hg : Num.fin p' > FP.ideal.lit 0.000611657 ∧ Num.fin p' < FP.ideal.lit 22.06395 := by
    rw [e1, e2, gt_num, fin_lt, fin_lt]; exact hr
  have hb : UnitConverter.toSIunit_p .ideal .bare (.fin p') = pure (.fin p') := rfl
  simp only [XSteam.hL_p, XSteam.hV_p, hb, pure_bind, if_pos hg] at hhL hhV
  obtain ⟨l1, a1, eL, hL'⟩ := out_bind hhL
  obtain ⟨l2, a2, eV, hV'⟩ := out_bind hhV
  obtain rfl : a1 = .fin hL := Outcome.ok.inj hL'
  obtain rfl : a2 = .fin hV := Outcome.ok.inj hV'
  simp only [Quantity.toSI] at hp hh
  simp only [XSteam.x_ph, hp, hh, pure_bind, if_pos hg]
  refine out_bind_of (x4_ph_exact (by rw [eL]) (by rw [eV]) hlt) ?_
  rw [(C03_fraction .ideal FP.ideal_sane u (.fin _) UnitConverter.fromSIunit_x
    (by simp [fractionConverters])).1 ⟨_, rfl, fractionOf_mem⟩]
  rfl

theorem C16_x_ps (u : UnitSystem) (p s : Num) (p' s' sL sV : ℝ)
    (hp : Quantity.p.toSI .ideal u p = pure (.fin p')) (hs : Quantity.s.toSI .ideal u s = pure (.fin s'))
    (hr : 0.000611657 < p' ∧ p' < 22.06395)
    (hsL : (XSteam.sL_p .ideal .bare (.fin p')).out = .ok (.fin sL))
    (hsV : (XSteam.sV_p .ideal .bare (.fin p')).out = .ok (.fin sV)) (hlt : sL < sV) :
    (XSteam.x_ps .ideal u p s).out = .ok (.fin (fractionOf sL sV s')) := by
  have e1 : FP.ideal.lit 0.000611657 = .fin 0.000611657 := by rw [lit_ideal]; norm_num
  have e2 : FP.ideal.lit 22.06395 = .fin 22.06395 := by rw [lit_ideal]; norm_num
  have hg : Num.fin p' > FP.ideal.lit 0.000611657 ∧ Num.fin p' < FP.ideal.lit 22.06395 := by
    rw [e1, e2, gt_num, fin_lt, fin_lt]; exact hr
  have hb : UnitConverter.toSIunit_p .ideal .bare (.fin p') = pure (.fin p') := rfl
  have hf : ∀ x, UnitConverter.fromSIunit_s .ideal .bare x = pure x := fun x => rfl
  simp only [Quantity.toSI] at hp hs
  simp only [XSteam.sL_p, XSteam.sV_p, hb, hf, pure_bind, bind_pure, if_pos hg] at hsL hsV
  simp only [XSteam.x_ps, hp, hs, pure_bind, if_pos hg]
  refine out_bind_of (a := .fin (fractionOf sL sV s')) ?_ ?_
  · have fin : ∀ (l : List LogRec), ((if Num.fin s' < Num.fin sL then (pure (Num.ofInt 0) : Py Num)
        else if Num.fin s' > Num.fin sV then pure (Num.ofInt 1)
        else FP.ideal.div (FP.ideal.sub (.fin s') (.fin sL)) (FP.ideal.sub (.fin sV) (.fin sL)))).out =
        .ok (.fin (fractionOf sL sV s')) := by
      intro _
      simp only [gt_num, fin_lt, sub_ideal, ofInt_eq]
      split
      · rename_i c
        rw [fractionOf_low hlt c]; simp [pure, Py.ret]
      · rename_i c1
        split
        · rename_i c
          rw [fractionOf_high hlt c]; simp [pure, Py.ret]
        · rename_i c2
          rw [(fractionOf_mid hlt (not_lt.1 c1) (not_lt.1 c2)).1, div_ideal (by linarith)]; rfl
    unfold Region4.x4_ps
    by_cases c : Num.fin p' < FP.ideal.lit 16.529
    · rw [if_pos c] at hsL hsV
      simp only [if_pos c, bind_assoc, pure_bind, bind_pure]
      obtain ⟨l1, t, e1, e2⟩ := out_bind hsV
      obtain ⟨l2, t2, e3, e4⟩ := out_bind hsL
      obtain rfl : t = t2 := by rw [e1] at e3; cases e3; rfl
      exact out_bind_of (by rw [e1]) (out_bind_of e2 (out_bind_of (by rw [e1]) (out_bind_of e4 (fin []))))
    · rw [if_neg c] at hsL hsV
      simp only [if_neg c, bind_assoc, pure_bind, bind_pure]
      obtain ⟨l1, a1, e1, hsV⟩ := out_bind hsV
      obtain ⟨l2, a2, e2, hsV⟩ := out_bind hsV
      obtain ⟨l3, a3, e3, hsV⟩ := out_bind hsV
      obtain ⟨l4, a4, e4, hsV⟩ := out_bind hsV
      obtain ⟨m1, b1, f1, hsL⟩ := out_bind hsL
      obtain ⟨m2, b2, f2, hsL⟩ := out_bind hsL
      obtain ⟨m3, b3, f3, hsL⟩ := out_bind hsL
      obtain ⟨m4, b4, f4, hsL⟩ := out_bind hsL
      refine out_bind_of (by rw [e1]) <| out_bind_of (by rw [e2]) <| out_bind_of (by rw [e3]) <|
        out_bind_of (by rw [e4]) <| out_bind_of hsV <| out_bind_of (by rw [f1]) <|
        out_bind_of (by rw [f2]) <| out_bind_of (by rw [f3]) <| out_bind_of (by rw [f4]) <|
        out_bind_of hsL (fin [])
  rw [(C03_fraction .ideal FP.ideal_sane u (.fin _) UnitConverter.fromSIunit_x
    (by simp [fractionConverters])).1 ⟨_, rfl, fractionOf_mem⟩]
  rfl

/-! ## C17 -/

/-- the specific volume a density is the reciprocal of -/
def Call.volume : Call → Option Call
  | .rhoV_p p => some (.vV_p p)
  | .rhoL_p p => some (.vL_p p)
  | .rhoV_t t => some (.vV_t t)
  | .rhoL_t t => some (.vL_t t)
  | .rho_pt p t => some (.v_pt p t)
  | .rho_ph p h => some (.v_ph p h)
  | .rho_ps p s => some (.v_ps p s)
  | _ => none

/-- C17: each density is the (rounded) reciprocal of the specific volume at the same arguments in the same
units; NaN where the volume is NaN; an exception where the volume raises one or is 0 -/
theorem C17_reciprocal (F : FP) (u : UnitSystem) (c v : Call) (h : c.volume = some v) :
    (c.run F u).logs = (v.run F u).logs ∧
    match (v.run F u).out with
    | .ok .nan => (c.run F u).out = .ok .nan
    | .ok (.inf _) => (c.run F u).out = .ok (.fin 0)
    | .ok (.fin x) => (c.run F u).out = if x = 0 then .raise .zeroDivision else .ok (F.rnd (1 / x))
    | .raise e => (c.run F u).out = .raise e
    | .diverge => (c.run F u).out = .diverge := by
  have e : c.run F u = v.run F u >>= F.div (.ofInt 1) := by
    cases c <;> simp only [Call.volume, Option.some.injEq, reduceCtorEq] at h <;> subst h <;> rfl
  rw [e]
  rcases v.run F u with ⟨l, o⟩
  cases o with
  | ok a =>
    rw [bind_ok]
    cases a with
    | nan => exact ⟨List.append_nil l, rfl⟩
    | inf n => exact ⟨List.append_nil l, rfl⟩
    | fin x =>
      by_cases hx : x = 0
      · simp [FP.div, Num.ofInt, hx, Py.prepend, Py.raise]
      · simp [FP.div, Num.ofInt, hx, Py.prepend, pure, Py.ret]
  | raise e => exact ⟨rfl, rfl⟩
  | diverge => exact ⟨rfl, rfl⟩

/-! ## C30 -/

theorem not_lt_of_fin_le {a b : ℝ} {T : Num} (h : a ≤ b) (hT : .fin b ≤ T) : ¬ T < .fin a := by
  cases T with
  | nan => exact not_nan_lt _
  | fin t => rw [fin_le] at hT; rw [fin_lt]; linarith
  | inf n =>
    cases n
    · exact fun h => Bool.noConfusion h
    · rcases hT with hT | hT
      · exact Bool.noConfusion hT
      · exact fun _ => hT

/-- literals are ordered like the decimals they are written as -/
theorem lit_le {F : FP} (hF : F.Sane) {q r : ℚ} (hq : 1e-100 ≤ q) (hqr : q ≤ r) (hr : r ≤ 1e100)
    {T : Num} (hT : F.lit r ≤ T) : ¬ T < F.lit q := by
  have hq0 : (0 : ℚ) < q := lt_of_lt_of_le (by norm_num) hq
  have hq' : (1e-100 : ℝ) ≤ q := by
    have : ((1e-100 : ℚ) : ℝ) ≤ q := by exact_mod_cast hq
    norm_num at this ⊢; exact this
  have hr' : (r : ℝ) ≤ 1e100 := by
    have : (r : ℝ) ≤ ((1e100 : ℚ) : ℝ) := by exact_mod_cast hr
    norm_num at this ⊢; exact this
  have hqr' : (q : ℝ) ≤ r := by exact_mod_cast hqr
  have h0 : (0 : ℝ) < q := by exact_mod_cast hq0
  obtain ⟨a, ha, -⟩ := hF.normal q (by rwa [abs_of_pos h0]) (by rw [abs_of_pos h0]; linarith)
  obtain ⟨b, hb, -⟩ := hF.normal r (by rw [abs_of_pos (by linarith)]; linarith)
    (by rwa [abs_of_pos (by linarith)])
  have hab : a ≤ b := hF.mono q r a b hqr' ha hb
  rw [FP.lit, hb] at hT
  rw [FP.lit, ha]
  exact not_lt_of_fin_le hab hT

theorem lit_int {F : FP} (hF : F.Sane) {q : ℚ} (n : ℤ) (hn : |n| ≤ 2 ^ 53) (h : q = n) :
    F.lit q = .ofInt n := by
  rw [FP.lit, h, Rat.cast_intCast, hF.int_exact n hn]; rfl

/-- C30: with a hint, `pmelt_t` follows the curve of that ice inside its range and refuses outside -/
theorem C30_hint (F : FP) (hF : F.Sane) (u : UnitSystem) (t T : Num) (i : Ice)
    (hT : Quantity.T.toSI F u t = pure T) :
    (i.Covers F T → XSteam.pmelt_t F u t (.int i.code) = i.curve F T >>= Quantity.p.fromSI F u) ∧
    (¬ i.Covers F T → Refused (XSteam.pmelt_t F u t (.int i.code))) := by
  have h355 : F.lit 355 = .ofInt 355 := lit_int hF 355 (by norm_num) (by norm_num)
  have h751 : F.lit 751 = .ofInt 751 := lit_int hF 751 (by norm_num) (by norm_num)
  simp only [Quantity.toSI] at hT
  constructor <;> intro h <;> cases i <;>
    simp only [Ice.Covers, Ice.lo, Ice.hi, h355, h751] at h <;>
    simp only [XSteam.pmelt_t, hT, pure_bind, PyVal.isNone, PyVal.isInt, Ice.code, reduceCtorEq, if_false,
      IAPWS_R14.TYPE_ICE_Ih, IAPWS_R14.TYPE_ICE_III, IAPWS_R14.TYPE_ICE_V, IAPWS_R14.TYPE_ICE_VI,
      IAPWS_R14.TYPE_ICE_VII, PyVal.int.injEq, Int.reduceEq, if_true, ge_num, h, not_false_eq_true, and_self,
      Ice.curve, Quantity.fromSI] <;>
    first | rfl | exact .intro _

/-- C30: a hint that is no ice type is a `ValueError` at every temperature -/
theorem C30_unknown (F : FP) (u : UnitSystem) (t T : Num) (hint : PyVal)
    (hT : Quantity.T.toSI F u t = pure T) (hn : hint ≠ .none) (hi : ∀ i : Ice, hint ≠ .int i.code) :
    (XSteam.pmelt_t F u t hint).out = .raise .value ∧
      (XSteam.pmelt_t F u t hint).logs.map (·.level) = [.error] := by
  simp only [Quantity.toSI] at hT
  have h1 := hi .Ih
  have h3 := hi .III
  have h5 := hi .V
  have h6 := hi .VI
  have h7 := hi .VII
  simp only [Ice.code] at h1 h3 h5 h6 h7
  simp only [XSteam.pmelt_t, hT, pure_bind, PyVal.isNone, PyVal.isInt, IAPWS_R14.TYPE_ICE_Ih,
    IAPWS_R14.TYPE_ICE_III, IAPWS_R14.TYPE_ICE_V, IAPWS_R14.TYPE_ICE_VI, IAPWS_R14.TYPE_ICE_VII, hn, h1,
    h3, h5, h6, h7, if_false]
  exact ⟨rfl, rfl⟩

/-- C30: without a hint the temperature decides; where two ice types are possible the answer is NaN and an
error; outside all ranges it is NaN and a warning -/
theorem C30_auto (F : FP) (hF : F.Sane) (u : UnitSystem) (t T : Num)
    (hT : Quantity.T.toSI F u t = pure T) :
    (Ice.III.Covers F T → ∃ m, XSteam.pmelt_t F u t .none = ⟨[⟨.error, m⟩], .ok .nan⟩) ∧
    (∀ i ∈ Ice.identified, i.Covers F T → ∃ m,
      XSteam.pmelt_t F u t .none = (logDebug m >>= fun _ => i.curve F T >>= Quantity.p.fromSI F u)) ∧
    ((∀ i ∈ Ice.III :: Ice.identified, ¬ i.Covers F T) → Refused (XSteam.pmelt_t F u t .none)) := by
  have h355 : F.lit 355 = .ofInt 355 := lit_int hF 355 (by norm_num) (by norm_num)
  have h751 : F.lit 751 = .ofInt 751 := lit_int hF 751 (by norm_num) (by norm_num)
  simp only [Quantity.toSI] at hT
  refine ⟨fun h => ?_, fun i hi h => ?_, fun h => ?_⟩
  · simp only [Ice.Covers, Ice.lo, Ice.hi] at h
    simp only [XSteam.pmelt_t, hT, pure_bind, PyVal.isNone, if_true, ge_num, h, and_self]
    exact ⟨_, rfl⟩
  · simp only [Ice.identified, List.mem_cons, List.not_mem_nil, or_false] at hi
    rcases hi with rfl | rfl | rfl <;> simp only [Ice.Covers, Ice.lo, Ice.hi] at h
    · have h1 := lit_le hF (q := 256.164) (by norm_num) (by norm_num) (by norm_num) h.1
      simp only [XSteam.pmelt_t, hT, pure_bind, PyVal.isNone, if_true, ge_num, h, h1, and_self, and_false,
        if_false]
      exact ⟨_, rfl⟩
    · have h1 := lit_le hF (q := 256.164) (by norm_num) (by norm_num) (by norm_num) h.1
      have h2 := lit_le hF (q := 273.31) (by norm_num) (by norm_num) (by norm_num) h.1
      rw [h355] at h
      simp only [XSteam.pmelt_t, hT, pure_bind, PyVal.isNone, if_true, ge_num, h, h1, h2, and_self, and_false,
        if_false]
      exact ⟨_, rfl⟩
    · have h1 := lit_le hF (q := 256.164) (by norm_num) (by norm_num) (by norm_num) h.1
      have h2 := lit_le hF (q := 273.31) (by norm_num) (by norm_num) (by norm_num) h.1
      have h3 := lit_le hF (q := 355) (by norm_num) (by norm_num) (by norm_num) h.1
      rw [h355, h751] at h
      rw [h355] at h3
      simp only [XSteam.pmelt_t, hT, pure_bind, PyVal.isNone, if_true, ge_num, h, h1, h2, h3, and_self,
        and_false, if_false]
      exact ⟨_, rfl⟩
  · simp only [Ice.identified, List.forall_mem_cons, Ice.Covers, Ice.lo, Ice.hi, h355, h751] at h
    obtain ⟨h1, h2, h3, h4, -⟩ := h
    simp only [XSteam.pmelt_t, hT, pure_bind, PyVal.isNone, if_true, ge_num, h1, h2, h3, h4, if_false]
    exact .intro _

end PyX
