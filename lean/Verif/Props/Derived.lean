import Verif.Props.ApiPotential
import Verif.Props.Flow
import Verif.Props.UnitLaw

/-!
# C14, C15, C37, C38, C40: functions derived from the saturated states
-/

namespace PyX

open Classical Py Num Spec.Sat

private theorem inf_div {s : Bool} {q : ℚ} (h : q ≠ 0) :
    FP.ideal.div (.inf s) (FP.ideal.lit q) = pure (.inf (s != decide ((q : ℝ) < 0))) := by
  rw [lit_ideal]
  have : (q : ℝ) ≠ 0 := by exact_mod_cast h
  simp [FP.div, this]
private theorem inf_div10 {s : Bool} : FP.ideal.div (.inf s) (Num.ofInt 10) = pure (.inf (s != decide (((10 : ℤ) : ℝ) < 0))) := by
  rw [ofInt_eq]; simp [FP.div]
private theorem inf_mul {s : Bool} {q : ℚ} (h : q ≠ 0) :
    FP.ideal.mul (.inf s) (FP.ideal.lit q) = .inf (s != decide ((q : ℝ) < 0)) := by
  rw [lit_ideal]
  have : (q : ℝ) ≠ 0 := by exact_mod_cast h
  simp [FP.mul, this]
private theorem inf_mul10 {s : Bool} : FP.ideal.mul (.inf s) (Num.ofInt 10) = .inf (s != decide (((10 : ℤ) : ℝ) < 0)) := by
  rw [ofInt_eq]; simp [FP.mul]

/-- infinities stay infinite under conversion -/
theorem Quantity.fromSI_inf (q : Quantity) (u : UnitSystem) (s : Bool) :
    ∃ n, q.fromSI .ideal u (.inf s) = pure (.inf n) := by
  cases q <;> cases u <;> first
    | exact ⟨s, rfl⟩
    | exact ⟨_, inf_div10⟩
    | exact ⟨_, inf_div (by norm_num)⟩
    | exact ⟨_, congrArg pure inf_mul10⟩
    | exact ⟨_, congrArg pure (inf_mul (by norm_num))⟩
    | skip
  refine ⟨s, ?_⟩
  show (FP.ideal.div (.ofInt 9) (.ofInt 5) >>= fun r =>
    pure (FP.ideal.add (FP.ideal.mul (.inf s) r) (.ofInt 32))) = _
  rw [ofInt_eq 9, ofInt_eq 5, div_ideal (by norm_num), pure_bind]
  have : FP.ideal.mul (.inf s) (.fin (((9 : ℤ) : ℝ) / ((5 : ℤ) : ℝ))) = .inf s := by
    have h : ¬ ((9 : ℝ) / 5 < 0) := by norm_num
    simp [FP.mul, h]
  rw [this]
  rfl

/-- a finite result in user units was finite in SI units -/
theorem Quantity.fromSI_fin_inv {q : Quantity} {u : UnitSystem} {y : Num} {a : ℝ}
    (h : (q.fromSI .ideal u y).out = .ok (.fin a)) : y = .fin (q.si u a) := by
  cases y with
  | nan =>
    obtain ⟨y, hy, hn⟩ := (C02_total .ideal FP.ideal_sane q u .nan).2
    rw [hy, hn rfl] at h
    cases h
  | inf s =>
    obtain ⟨n, hn⟩ := q.fromSI_inf u s
    rw [hn] at h
    cases h
  | fin x =>
    rw [q.fromSI_fin] at h
    have : q.user u x = a := Num.fin.inj (Outcome.ok.inj h)
    rw [← this, q.si_user]

/-! ## The saturated states at (p) -/

private theorem g1 : FP.ideal.lit 0.000611657 = .fin 0.000611657 := by rw [lit_ideal]; norm_num
private theorem g2 : FP.ideal.lit 22.06395 = .fin 22.06395 := by rw [lit_ideal]; norm_num
private theorem g3 : FP.ideal.lit 22.064 = .fin 22.064 := by rw [lit_ideal]; norm_num
private theorem g4 : FP.ideal.lit 16.529 = .fin 16.529 := by rw [lit_ideal]; norm_num
private theorem g5 : FP.ideal.lit 647.096 = .fin 647.096 := by rw [lit_ideal]; norm_num
private theorem g6 : FP.ideal.lit 273.15 = .fin 273.15 := by rw [lit_ideal]; norm_num
private theorem i0 : Num.ofInt 0 = .fin 0 := by rw [ofInt_eq]; norm_num
private theorem i1 : Num.ofInt 1 = .fin 1 := by rw [ofInt_eq]; norm_num

theorem user_mix (q : Quantity) (u : UnitSystem) (x a b : ℝ) :
    q.user u (x * q.si u a + (1 - x) * q.si u b) = x * a + (1 - x) * b := by
  have := (q.scale_pos u).ne'
  simp only [Quantity.si, Quantity.user]; field_simp; ring

theorem x_ok {u : UnitSystem} {x : ℝ} (h0 : 0 ≤ x) (h1 : x ≤ 1) :
    UnitConverter.toSIunit_x .ideal u (.fin x) = pure (.fin x) :=
  (C03_fraction .ideal FP.ideal_sane u (.fin x) UnitConverter.toSIunit_x (by simp [fractionConverters])).1
    ⟨x, rfl, h0, h1⟩

/-! ## C14 -/

/-- C14: between the saturated enthalpies the library returns, in user units -/
theorem C14_h_px (u : UnitSystem) (p x hL hV : ℝ) (h0 : 0 ≤ x) (h1 : x ≤ 1)
    (hp0 : 0.000611657 < Quantity.p.si u p) (hp1 : Quantity.p.si u p < 22.06395)
    (eL : (XSteam.hL_p .ideal u (.fin p)).out = .ok (.fin hL))
    (eV : (XSteam.hV_p .ideal u (.fin p)).out = .ok (.fin hV)) :
    (XSteam.h_px .ideal u (.fin p) (.fin x)).out = .ok (.fin (hL + x * (hV - hL))) := by
  unfold XSteam.hL_p at eL
  unfold XSteam.hV_p at eV
  simp only [si, pure_bind, g1, g2, gt_num, fin_lt, if_pos (And.intro hp0 hp1)] at eL eV
  obtain ⟨l, a, ea, ea'⟩ := out_bind eL
  obtain ⟨m, b, eb, eb'⟩ := out_bind eV
  obtain rfl := Quantity.fromSI_fin_inv (q := .h) ea'
  obtain rfl := Quantity.fromSI_fin_inv (q := .h) eb'
  unfold XSteam.h_px
  have hg : ¬ (1 < x ∨ x < 0 ∨ 22.064 ≤ Quantity.p.si u p) := by
    rintro (h | h | h) <;> linarith
  simp only [si, pure_bind, x_ok h0 h1, g3, gt_num, ge_num, i0, i1, fin_lt, fin_le, if_neg hg]
  refine out_bind_of (by rw [ea]) (out_bind_of (by rw [eb]) ?_)
  simp only [sub_ideal, mul_ideal, add_ideal, si]
  have := user_mix .h u x hV hL
  rw [show Quantity.h.si u hL + x * (Quantity.h.si u hV - Quantity.h.si u hL) =
    x * Quantity.h.si u hV + (1 - x) * Quantity.h.si u hL by ring, this,
    show hL + x * (hV - hL) = x * hV + (1 - x) * hL by ring]
  rfl

/-- C14, on the temperature side -/
theorem C14_h_tx (u : UnitSystem) (t x hL hV : ℝ) (h0 : 0 ≤ x) (h1 : x ≤ 1)
    (ht0 : 273.15 < Quantity.T.si u t) (ht1 : Quantity.T.si u t < 647.096)
    (eL : (XSteam.hL_t .ideal u (.fin t)).out = .ok (.fin hL))
    (eV : (XSteam.hV_t .ideal u (.fin t)).out = .ok (.fin hV)) :
    (XSteam.h_tx .ideal u (.fin t) (.fin x)).out = .ok (.fin (hL + x * (hV - hL))) := by
  obtain ⟨a0, a1, a2⟩ := theta_box ht0 ht1
  have e4 := p4_T_eq a0 a1 (by linarith)
  unfold XSteam.hL_t at eL
  unfold XSteam.hV_t at eV
  simp only [si, pure_bind, g5, g6, gt_num, fin_lt, if_pos (And.intro ht0 ht1), e4] at eL eV
  obtain ⟨l, a, ea, ea'⟩ := out_bind eL
  obtain ⟨m, b, eb, eb'⟩ := out_bind eV
  obtain rfl := Quantity.fromSI_fin_inv (q := .h) ea'
  obtain rfl := Quantity.fromSI_fin_inv (q := .h) eb'
  unfold XSteam.h_tx
  have hg : ¬ (1 < x ∨ x < 0 ∨ 647.096 ≤ Quantity.T.si u t) := by
    rintro (h | h | h) <;> linarith
  simp only [si, pure_bind, x_ok h0 h1, g5, gt_num, ge_num, i0, i1, fin_lt, fin_le, if_neg hg, e4]
  refine out_bind_of (by rw [ea]) (out_bind_of (by rw [eb]) ?_)
  simp only [sub_ideal, mul_ideal, add_ideal, si]
  have := user_mix .h u x hV hL
  rw [show Quantity.h.si u hL + x * (Quantity.h.si u hV - Quantity.h.si u hL) =
    x * Quantity.h.si u hV + (1 - x) * Quantity.h.si u hL by ring, this,
    show hL + x * (hV - hL) = x * hV + (1 - x) * hL by ring]
  rfl

/-- C14: a vapour fraction outside `[0,1]`, NaN included, raises `ValueError` in every sane arithmetic -/
theorem C14_bad_fraction (F : FP) (hF : F.Sane) (u : UnitSystem) (p x : Num)
    (hx : ¬ ∃ r : ℝ, x = .fin r ∧ 0 ≤ r ∧ r ≤ 1) :
    (XSteam.h_px F u p x).out = .raise .value ∧ (XSteam.h_tx F u p x).out = .raise .value := by
  have hr := ((C03_fraction F hF u x UnitConverter.toSIunit_x (by simp [fractionConverters])).2 hx).1
  have key : ∀ f : Num → Py Num, (UnitConverter.toSIunit_x F u x >>= f).out = .raise .value := by
    intro f
    generalize UnitConverter.toSIunit_x F u x = z at hr
    rcases z with ⟨l, o⟩
    subst hr
    rfl
  obtain ⟨y, hy, -⟩ := (C02_total F hF .p u p).1
  obtain ⟨z, hz, -⟩ := (C02_total F hF .T u p).1
  simp only [Quantity.toSI] at hy hz
  unfold XSteam.h_px XSteam.h_tx
  rw [hy, hz, pure_bind, pure_bind]
  exact ⟨key _, key _⟩

/-! below 16.529 MPa the saturated states are states of regions 1 and 2 -/

theorem dom_sat {p : ℝ} (h0 : 0.000611657 < p) (h1 : p < 22.06395) : Dom1 p (tsat p) ∧ Dom2 p (tsat p) := by
  obtain ⟨a, b⟩ := tsat_range h0 h1
  have hT : 0 < tsat p := by linarith
  have hp : 0 < p := by linarith
  refine ⟨⟨hp.ne', hT.ne', ?_, ?_⟩, ⟨hp, hT.ne', ?_⟩⟩
  · have : p / 16.53 < 22.06395 / 16.53 := div_lt_div_of_pos_right h1 (by norm_num)
    norm_num at this ⊢
    intro h'; linarith
  · have : 1386 / 647.096 < 1386 / tsat p := div_lt_div_of_pos_left (by norm_num) hT b
    norm_num at this ⊢
    intro h'; linarith
  · have : 540 / 647.096 < 540 / tsat p := div_lt_div_of_pos_left (by norm_num) hT b
    norm_num at this ⊢
    intro h'; linarith

theorem h4L_p_low {p : ℝ} (h0 : 0.000611657 < p) (h1 : p < 16.529) :
    Region4.h4L_p .ideal (.fin p) = pure (.fin (gamma1.h p (tsat p))) := by
  have h2 : p < 22.06395 := by linarith
  unfold Region4.h4L_p
  simp only [g1, g2, g4, gt_num, fin_lt, if_pos (And.intro h0 h2), T4_p_eq h0 h2, if_pos h1, bind_pure, pure_bind,
    h1_pT_eq (dom_sat h0 h2).1]

theorem h4V_p_low {p : ℝ} (h0 : 0.000611657 < p) (h1 : p < 16.529) :
    Region4.h4V_p .ideal (.fin p) = pure (.fin (gamma2.h p (tsat p))) := by
  have h2 : p < 22.06395 := by linarith
  unfold Region4.h4V_p
  simp only [g1, g2, g4, gt_num, fin_lt, if_pos (And.intro h0 h2), T4_p_eq h0 h2, if_pos h1, bind_pure, pure_bind,
    h2_pT_eq (dom_sat h0 h2).2]

/-- C14: below 16.529 MPa `hL_p`, `hV_p` and `h_px` all return, without a log record -/
theorem C14_h_px_low (u : UnitSystem) (p x : ℝ) (h0 : 0 ≤ x) (h1 : x ≤ 1)
    (hp0 : 0.000611657 < Quantity.p.si u p) (hp1 : Quantity.p.si u p < 16.529) :
    ∃ hL hV, XSteam.hL_p .ideal u (.fin p) = pure (.fin hL) ∧ XSteam.hV_p .ideal u (.fin p) = pure (.fin hV) ∧
      XSteam.h_px .ideal u (.fin p) (.fin x) = pure (.fin (hL + x * (hV - hL))) := by
  have hp2 : Quantity.p.si u p < 22.06395 := by linarith
  have hg : ¬ (1 < x ∨ x < 0 ∨ 22.064 ≤ Quantity.p.si u p) := by
    rintro (h | h | h) <;> linarith
  unfold XSteam.hL_p XSteam.hV_p XSteam.h_px
  simp only [si, pure_bind, g1, g2, gt_num, fin_lt, if_pos (And.intro hp0 hp2), h4L_p_low hp0 hp1, h4V_p_low hp0 hp1,
    x_ok h0 h1, g3, ge_num, i0, i1, fin_le, if_neg hg, sub_ideal, mul_ideal, add_ideal]
  refine ⟨_, _, rfl, rfl, ?_⟩
  congr 2
  simp only [Quantity.user]
  ring

/-- at 1 bar and x = 0.5 -/
example : ∃ hL hV, XSteam.hL_p .ideal .mks (.fin 1) = pure (.fin hL) ∧ XSteam.hV_p .ideal .mks (.fin 1) = pure (.fin hV) ∧
      XSteam.h_px .ideal .mks (.fin 1) (.fin 0.5) = pure (.fin (hL + 0.5 * (hV - hL))) :=
  C14_h_px_low .mks 1 0.5 (by norm_num) (by norm_num) (by norm_num [Quantity.si, Quantity.scale, Quantity.offset])
    (by norm_num [Quantity.si, Quantity.scale, Quantity.offset])

/-! ## C15 -/

theorem mix_const {F : FP} (hF : F.Sane) (x : ℝ) :
    F.add (.ofInt (-99999)) (F.mul (.fin x) (F.sub (.ofInt (-99999)) (.ofInt (-99999)))) = .fin (-99999) := by
  have z : F.rnd 0 = .fin 0 := by have := hF.int_exact 0 (by norm_num); simpa using this
  have m : F.rnd (-99999) = .fin (-99999) := by have := hF.int_exact (-99999) (by norm_num); simpa using this
  simp [Num.ofInt, FP.sub, FP.mul, FP.add, z, m]

/-- C15: where the saturated enthalpies do not exist but the pressure is below 22.064 MPa, `h_px` returns the
converted constant -99999, without any log record, in every sane arithmetic.  This includes all pressures
up to the triple point, NaN, and 22.06395 up to 22.064. -/
theorem C15_h_px (F : FP) (hF : F.Sane) (u : UnitSystem) (p y : Num) (x : ℝ) (h0 : 0 ≤ x) (h1 : x ≤ 1)
    (hy : Quantity.p.toSI F u p = pure y) (hout : ¬ (F.lit 0.000611657 < y ∧ y < F.lit 22.06395))
    (hmax : ¬ F.lit 22.064 ≤ y) :
    XSteam.h_px F u p (.fin x) = Quantity.h.fromSI F u (.fin (-99999)) := by
  have hx := (C03_fraction F hF u (.fin x) UnitConverter.toSIunit_x (by simp [fractionConverters])).1 ⟨x, rfl, h0, h1⟩
  simp only [Quantity.toSI] at hy
  have hg : ¬ ((Num.fin 1 < .fin x) ∨ (Num.fin x < .fin 0) ∨ F.lit 22.064 ≤ y) := by
    simp only [fin_lt]
    rintro (h | h | h)
    · linarith
    · linarith
    · exact hmax h
  unfold XSteam.h_px
  simp only [hy, pure_bind, hx, gt_num, ge_num, i0, i1, if_neg hg]
  unfold Region4.h4L_p Region4.h4V_p
  simp only [gt_num, if_neg hout, pure_bind, mix_const hF]
  rfl

theorem psat_triple : psat 273.15 < 0.000611657 := by
  have a0 : theta 273.15 < 273.1507 := by norm_num [theta, n9, n10]
  have a2 : (273.15 : ℝ) < theta 273.15 := theta_gt (by norm_num [n10])
  have h : eq29 0.15726 273.1507 < 0 := by norm_num [eq29, n1, n2, n3, n4, n5, n6, n7, n8]
  have h := (eq29_mono (β := 0.15726) (by norm_num) (by linarith) a0 (by norm_num)).trans h
  rw [eq29_β] at h
  have r := root_lt (satC_pos _) (by norm_num) h
  have hb := betaOf_pos (θ := theta 273.15) (by linarith) (by linarith)
  have := pow_lt_pow_left₀ r hb.le (n := 4) (by norm_num)
  rw [psat, betaOf]; norm_num at this ⊢; linarith

/-- C15: `h_tx` returns the same constant for temperatures from 165 K to 0 °C (exact arithmetic) -/
theorem C15_h_tx (u : UnitSystem) (t x : ℝ) (h0 : 0 ≤ x) (h1 : x ≤ 1) (ht0 : 165 ≤ Quantity.T.si u t)
    (ht1 : Quantity.T.si u t ≤ 273.15) :
    XSteam.h_tx .ideal u (.fin t) (.fin x) = pure (.fin (Quantity.h.user u (-99999))) := by
  have hn : Quantity.T.si u t < n10 := by norm_num [n10]; norm_num at ht1; linarith
  have hp : psat (Quantity.T.si u t) < 0.000611657 := by
    rcases ht1.eq_or_lt with h | h
    · rw [h]; exact psat_triple
    · exact (psat_mono ht0 h (by norm_num)).trans psat_triple
  have e4 := p4_T_eq hn (by linarith [theta_gt hn]) (theta_le (by linarith))
  have hg : ¬ (1 < x ∨ x < 0 ∨ 647.096 ≤ Quantity.T.si u t) := by
    rintro (h | h | h) <;> linarith
  have hout : ¬ (0.000611657 < psat (Quantity.T.si u t) ∧ psat (Quantity.T.si u t) < 22.06395) := fun h => by linarith
  unfold XSteam.h_tx
  simp only [si, pure_bind, x_ok h0 h1, g5, gt_num, ge_num, i0, i1, fin_lt, fin_le, if_neg hg, e4]
  unfold Region4.h4L_p Region4.h4V_p
  simp only [g1, g2, gt_num, fin_lt, if_neg hout, pure_bind, mix_const FP.ideal_sane, si]

/-- the enthalpy of a wet mixture at 0 °C is reported as -99999 kJ/kg -/
example : XSteam.h_tx .ideal .mks (.fin 0) (.fin 0.5) = pure (.fin (-99999)) := by
  have := C15_h_tx .mks 0 0.5 (by norm_num) (by norm_num) (by norm_num [Quantity.si, Quantity.scale, Quantity.offset])
    (by norm_num [Quantity.si, Quantity.scale, Quantity.offset])
  rw [this]
  norm_num [Quantity.user, Quantity.scale, Quantity.offset]

/-! ## C38 -/

theorem mix_between {x a b : ℝ} (h0 : 0 ≤ x) (h1 : x ≤ 1) :
    min a b ≤ x * a + (1 - x) * b ∧ x * a + (1 - x) * b ≤ max a b := by
  have a1 := min_le_left a b
  have a2 := min_le_right a b
  have a3 := le_max_left a b
  have a4 := le_max_right a b
  constructor <;> nlinarith

theorem mix_out (q : Quantity) (u : UnitSystem) (x a b : ℝ) :
    (q.fromSI .ideal u (FP.ideal.add (FP.ideal.mul (.fin x) (.fin (q.si u a)))
      (FP.ideal.mul (FP.ideal.sub (.ofInt 1) (.fin x)) (.fin (q.si u b))))).out = .ok (.fin (x * a + (1 - x) * b)) := by
  simp only [i1, mul_ideal, sub_ideal, add_ideal, q.fromSI_fin, user_mix]
  rfl

/-- what a vapour fraction returned by `x_ph` says about the kernel -/
theorem x_of_x_ph {u : UnitSystem} {p h x : ℝ} (hp0 : 0.000611657 < Quantity.p.si u p)
    (hp1 : Quantity.p.si u p < 22.06395) (hx : (XSteam.x_ph .ideal u (.fin p) (.fin h)).out = .ok (.fin x)) :
    ∃ l, Region4.x4_ph .ideal (.fin (Quantity.p.si u p)) (.fin (Quantity.h.si u h)) = ⟨l, .ok (.fin x)⟩ ∧
      0 ≤ x ∧ x ≤ 1 := by
  unfold XSteam.x_ph at hx
  simp only [si, pure_bind, g1, g2, gt_num, fin_lt, if_pos (And.intro hp0 hp1)] at hx
  obtain ⟨l, y, ey, ey'⟩ := out_bind hx
  obtain ⟨c1, c2⟩ := C03_fraction .ideal FP.ideal_sane u y UnitConverter.fromSIunit_x (by simp [fractionConverters])
  by_cases hy : ∃ r : ℝ, y = .fin r ∧ 0 ≤ r ∧ r ≤ 1
  · rw [c1 hy] at ey'
    obtain ⟨r, rfl, r0, r1⟩ := hy
    obtain rfl : r = x := Num.fin.inj (Outcome.ok.inj ey')
    exact ⟨l, ey, r0, r1⟩
  · rw [(c2 hy).1] at ey'
    cases ey'

/-- C38: `v_ph` of wet steam is the mixture of `vV_p` and `vL_p` with the vapour fraction `x_ph` -/
theorem C38_v_ph (u : UnitSystem) (p h x a b : ℝ) (hp0 : 0.000611657 < Quantity.p.si u p)
    (hp1 : Quantity.p.si u p < 22.06395)
    (hr : (RegionSelection.region_ph .ideal (.fin (Quantity.p.si u p)) (.fin (Quantity.h.si u h))).out = .ok 4)
    (hx : (XSteam.x_ph .ideal u (.fin p) (.fin h)).out = .ok (.fin x))
    (ha : (XSteam.vV_p .ideal u (.fin p)).out = .ok (.fin a)) (hb : (XSteam.vL_p .ideal u (.fin p)).out = .ok (.fin b)) :
    (XSteam.v_ph .ideal u (.fin p) (.fin h)).out = .ok (.fin (x * a + (1 - x) * b)) ∧
      min a b ≤ x * a + (1 - x) * b ∧ x * a + (1 - x) * b ≤ max a b := by
  obtain ⟨l, ex, x0, x1⟩ := x_of_x_ph hp0 hp1 hx
  refine ⟨?_, mix_between x0 x1⟩
  have hT := T4_p_eq hp0 hp1
  unfold XSteam.vV_p at ha
  unfold XSteam.vL_p at hb
  unfold XSteam.v_ph
  simp only [si, pure_bind, g1, g2, g4, gt_num, fin_lt, if_pos (And.intro hp0 hp1), hT] at ha hb ⊢
  refine out_bind_of hr ?_
  simp only [show ¬ ((4 : ℤ) = 1) by norm_num, show ¬ ((4 : ℤ) = 2) by norm_num, show ¬ ((4 : ℤ) = 3) by norm_num, if_false,
    if_true]
  refine out_bind_of (by rw [ex]) ?_
  by_cases hc : Quantity.p.si u p < 16.529
  · simp only [if_pos hc] at ha hb ⊢
    obtain ⟨l1, y, ey, ey'⟩ := out_bind ha
    obtain ⟨l2, z, ez, ez'⟩ := out_bind hb
    obtain rfl := Quantity.fromSI_fin_inv (q := .v) ey'
    obtain rfl := Quantity.fromSI_fin_inv (q := .v) ez'
    refine out_bind_of (congrArg Py.out ey) (out_bind_of (congrArg Py.out ez) ?_)
    exact mix_out .v u x a b
  · simp only [if_neg hc] at ha hb ⊢
    obtain ⟨l1, hV, eV, ha⟩ := out_bind ha
    obtain ⟨l2, hL, eL, hb⟩ := out_bind hb
    obtain ⟨l3, y, ey, ey'⟩ := out_bind ha
    obtain ⟨l4, z, ez, ez'⟩ := out_bind hb
    obtain rfl := Quantity.fromSI_fin_inv (q := .v) ey'
    obtain rfl := Quantity.fromSI_fin_inv (q := .v) ez'
    refine out_bind_of (congrArg Py.out eV) (out_bind_of (congrArg Py.out ey) (out_bind_of (congrArg Py.out eL)
      (out_bind_of (congrArg Py.out ez) ?_)))
    exact mix_out .v u x a b

/-- C38: `u_ph` of wet steam is the mixture of `uV_p` and `uL_p` with the vapour fraction `x_ph` -/
theorem C38_u_ph (u : UnitSystem) (p h x a b : ℝ) (hp0 : 0.000611657 < Quantity.p.si u p)
    (hp1 : Quantity.p.si u p < 22.06395)
    (hr : (RegionSelection.region_ph .ideal (.fin (Quantity.p.si u p)) (.fin (Quantity.h.si u h))).out = .ok 4)
    (hx : (XSteam.x_ph .ideal u (.fin p) (.fin h)).out = .ok (.fin x))
    (ha : (XSteam.uV_p .ideal u (.fin p)).out = .ok (.fin a)) (hb : (XSteam.uL_p .ideal u (.fin p)).out = .ok (.fin b)) :
    (XSteam.u_ph .ideal u (.fin p) (.fin h)).out = .ok (.fin (x * a + (1 - x) * b)) ∧
      min a b ≤ x * a + (1 - x) * b ∧ x * a + (1 - x) * b ≤ max a b := by
  obtain ⟨l, ex, x0, x1⟩ := x_of_x_ph hp0 hp1 hx
  refine ⟨?_, mix_between x0 x1⟩
  have hT := T4_p_eq hp0 hp1
  unfold XSteam.uV_p at ha
  unfold XSteam.uL_p at hb
  unfold XSteam.u_ph
  simp only [si, pure_bind, g1, g2, g4, gt_num, fin_lt, if_pos (And.intro hp0 hp1), hT] at ha hb ⊢
  refine out_bind_of hr ?_
  simp only [show ¬ ((4 : ℤ) = 1) by norm_num, show ¬ ((4 : ℤ) = 2) by norm_num, show ¬ ((4 : ℤ) = 3) by norm_num, if_false,
    if_true]
  refine out_bind_of (by rw [ex]) ?_
  by_cases hc : Quantity.p.si u p < 16.529
  · simp only [if_pos hc] at ha hb ⊢
    obtain ⟨l1, y, ey, ey'⟩ := out_bind ha
    obtain ⟨l2, z, ez, ez'⟩ := out_bind hb
    obtain rfl := Quantity.fromSI_fin_inv (q := .u) ey'
    obtain rfl := Quantity.fromSI_fin_inv (q := .u) ez'
    refine out_bind_of (congrArg Py.out ey) (out_bind_of (congrArg Py.out ez) ?_)
    exact mix_out .u u x a b
  · simp only [if_neg hc] at ha hb ⊢
    obtain ⟨l1, hV, eV, ha⟩ := out_bind ha
    obtain ⟨l2, hL, eL, hb⟩ := out_bind hb
    obtain ⟨l3, vV, evV, ha⟩ := out_bind ha
    obtain ⟨l4, vL, evL, hb⟩ := out_bind hb
    obtain ⟨l5, rV, erV, ha⟩ := out_bind ha
    obtain ⟨l6, rL, erL, hb⟩ := out_bind hb
    obtain ⟨l7, y, ey, ey'⟩ := out_bind ha
    obtain ⟨l8, z, ez, ez'⟩ := out_bind hb
    obtain rfl := Quantity.fromSI_fin_inv (q := .u) ey'
    obtain rfl := Quantity.fromSI_fin_inv (q := .u) ez'
    refine out_bind_of (congrArg Py.out eV) (out_bind_of (congrArg Py.out evV) (out_bind_of (congrArg Py.out erV)
      (out_bind_of (congrArg Py.out ey) (out_bind_of (congrArg Py.out eL) (out_bind_of (congrArg Py.out evL)
      (out_bind_of (congrArg Py.out erL) (out_bind_of (congrArg Py.out ez) ?_)))))))
    exact mix_out .u u x a b

/-- C38: `s_ph` of wet steam is the mixture of `sV_p` and `sL_p` with the vapour fraction `x_ph` -/
theorem C38_s_ph (u : UnitSystem) (p h x a b : ℝ) (hp0 : 0.000611657 < Quantity.p.si u p)
    (hp1 : Quantity.p.si u p < 22.06395)
    (hr : (RegionSelection.region_ph .ideal (.fin (Quantity.p.si u p)) (.fin (Quantity.h.si u h))).out = .ok 4)
    (hx : (XSteam.x_ph .ideal u (.fin p) (.fin h)).out = .ok (.fin x))
    (ha : (XSteam.sV_p .ideal u (.fin p)).out = .ok (.fin a)) (hb : (XSteam.sL_p .ideal u (.fin p)).out = .ok (.fin b)) :
    (XSteam.s_ph .ideal u (.fin p) (.fin h)).out = .ok (.fin (x * a + (1 - x) * b)) ∧
      min a b ≤ x * a + (1 - x) * b ∧ x * a + (1 - x) * b ≤ max a b := by
  obtain ⟨l, ex, x0, x1⟩ := x_of_x_ph hp0 hp1 hx
  refine ⟨?_, mix_between x0 x1⟩
  have hT := T4_p_eq hp0 hp1
  unfold XSteam.sV_p at ha
  unfold XSteam.sL_p at hb
  unfold XSteam.s_ph
  simp only [si, pure_bind, g1, g2, g4, gt_num, fin_lt, if_pos (And.intro hp0 hp1), hT] at ha hb ⊢
  refine out_bind_of hr ?_
  simp only [show ¬ ((4 : ℤ) = 1) by norm_num, show ¬ ((4 : ℤ) = 2) by norm_num, show ¬ ((4 : ℤ) = 3) by norm_num, if_false,
    if_true]
  refine out_bind_of (by rw [ex]) ?_
  by_cases hc : Quantity.p.si u p < 16.529
  · simp only [if_pos hc] at ha hb ⊢
    obtain ⟨l1, y, ey, ey'⟩ := out_bind ha
    obtain ⟨l2, z, ez, ez'⟩ := out_bind hb
    obtain rfl := Quantity.fromSI_fin_inv (q := .s) ey'
    obtain rfl := Quantity.fromSI_fin_inv (q := .s) ez'
    refine out_bind_of (congrArg Py.out ey) (out_bind_of (congrArg Py.out ez) ?_)
    exact mix_out .s u x a b
  · simp only [if_neg hc] at ha hb ⊢
    obtain ⟨l1, hV, eV, ha⟩ := out_bind ha
    obtain ⟨l2, hL, eL, hb⟩ := out_bind hb
    obtain ⟨l3, vV, evV, ha⟩ := out_bind ha
    obtain ⟨l4, vL, evL, hb⟩ := out_bind hb
    obtain ⟨l5, rV, erV, ha⟩ := out_bind ha
    obtain ⟨l6, rL, erL, hb⟩ := out_bind hb
    obtain ⟨l7, y, ey, ey'⟩ := out_bind ha
    obtain ⟨l8, z, ez, ez'⟩ := out_bind hb
    obtain rfl := Quantity.fromSI_fin_inv (q := .s) ey'
    obtain rfl := Quantity.fromSI_fin_inv (q := .s) ez'
    refine out_bind_of (congrArg Py.out eV) (out_bind_of (congrArg Py.out evV) (out_bind_of (congrArg Py.out erV)
      (out_bind_of (congrArg Py.out ey) (out_bind_of (congrArg Py.out eL) (out_bind_of (congrArg Py.out evL)
      (out_bind_of (congrArg Py.out erL) (out_bind_of (congrArg Py.out ez) ?_)))))))
    exact mix_out .s u x a b

/-! ## C37 -/

/-- C37: the Prandtl number is `1000 cp η / λ` of the SI values, in every unit system -/
theorem C37_prandtl (u : UnitSystem) (p t : ℝ) (cp my tc : ℝ)
    (hcp : (XSteam.Cp_pt .ideal u (.fin p) (.fin t)).out = .ok (.fin cp))
    (hmy : (XSteam.my_pt .ideal u (.fin p) (.fin t)).out = .ok (.fin my))
    (htc : (XSteam.tc_pt .ideal u (.fin p) (.fin t)).out = .ok (.fin tc)) (h0 : Quantity.tc.si u tc ≠ 0) :
    (XSteam.pr_pt .ideal u (.fin p) (.fin t)).out =
      .ok (.fin (1000 * Quantity.Cp.si u cp * Quantity.my.si u my / Quantity.tc.si u tc)) := by
  unfold XSteam.pr_pt
  refine out_bind_of hcp ?_
  simp only [si, pure_bind]
  refine out_bind_of hmy ?_
  simp only [si, pure_bind]
  refine out_bind_of htc ?_
  rw [ofInt_eq]
  simp only [si, pure_bind, mul_ideal, div_ideal h0]
  show Outcome.ok _ = _
  norm_num
  ring

/-- C37: the same at (p, h) -/
theorem C37_prandtl_ph (u : UnitSystem) (p h : ℝ) (cp my tc : ℝ)
    (hcp : (XSteam.Cp_ph .ideal u (.fin p) (.fin h)).out = .ok (.fin cp))
    (hmy : (XSteam.my_ph .ideal u (.fin p) (.fin h)).out = .ok (.fin my))
    (htc : (XSteam.tc_ph .ideal u (.fin p) (.fin h)).out = .ok (.fin tc)) (h0 : Quantity.tc.si u tc ≠ 0) :
    (XSteam.pr_ph .ideal u (.fin p) (.fin h)).out =
      .ok (.fin (1000 * Quantity.Cp.si u cp * Quantity.my.si u my / Quantity.tc.si u tc)) := by
  unfold XSteam.pr_ph
  refine out_bind_of hcp ?_
  simp only [si, pure_bind]
  refine out_bind_of hmy ?_
  simp only [si, pure_bind]
  refine out_bind_of htc ?_
  rw [ofInt_eq]
  simp only [si, pure_bind, mul_ideal, div_ideal h0]
  show Outcome.ok _ = _
  norm_num
  ring

/-- C37: the Prandtl number of a physical state does not depend on the unit system -/
theorem C37_unit_free (u : UnitSystem) (p t : ℝ) :
    XSteam.pr_pt .ideal u (.fin p) (.fin t) =
      XSteam.pr_pt .ideal .bare (.fin (Quantity.p.si u p)) (.fin (Quantity.T.si u t)) := by
  have := C05_exact u (.pr_pt (.fin p) (.fin t)) (by simp [Call.Defective])
  simp only [Call.lawful, Call.run, Call.toSI, Call.fromSI, Quantity.toSI_fin, pure_bind, bind_pure] at this
  exact this

/-- C37: viscosity at (p, s) is viscosity at (p, h) of the enthalpy at (p, s), whatever units that enthalpy
was expressed in on the way -/
theorem C37_my_ps (u : UnitSystem) (p s h : ℝ) (m : Num)
    (hh : (XSteam.h_ps .ideal .bare (.fin (Quantity.p.si u p)) (.fin (Quantity.s.si u s))).out = .ok (.fin h))
    (hm : (XSteam.my_ph .ideal .bare (.fin (Quantity.p.si u p)) (.fin h)).out = .ok m) :
    (XSteam.my_ps .ideal u (.fin p) (.fin s)).out = (Quantity.my.fromSI .ideal u m).out := by
  have e1 := C05_exact u (.h_ps (.fin p) (.fin s)) (by simp [Call.Defective])
  simp only [Call.lawful, Call.run, Call.toSI, Call.fromSI, Quantity.toSI_fin, pure_bind] at e1
  have e2 := C05_exact u (.my_ph (.fin p) (.fin (Quantity.h.user u h))) (by simp [Call.Defective])
  simp only [Call.lawful, Call.run, Call.toSI, Call.fromSI, Quantity.toSI_fin, pure_bind, Quantity.si_user] at e2
  obtain ⟨y, hy, -⟩ := (C02_total .ideal FP.ideal_sane .my u m).2
  rw [hy]
  unfold XSteam.my_ps
  refine out_bind_of (a := .fin (Quantity.h.user u h)) ?_ ?_
  · rw [e1]
    refine out_bind_of hh ?_
    rw [Quantity.fromSI_fin]; rfl
  · rw [e2]
    refine out_bind_of hm ?_
    rw [hy]; rfl

/-! ## C40 -/

/-- the constants as a user of each unit system should see them: °C and bar, °F and psi, K and MPa -/
structure Constants40 (u : UnitSystem) (tc pc tt pt t0 : ℝ) : Prop where
  criticalT : XSteam.criticalTemperatur .ideal u = pure (.fin tc)
  criticalP : XSteam.criticalPressure .ideal u = pure (.fin pc)
  tripleT : XSteam.triplePointTemperatur .ideal u = pure (.fin tt)
  tripleP : XSteam.triplePointPressure .ideal u = pure (.fin pt)
  zeroT : XSteam.zeroPointTemperature .ideal u = pure (.fin t0)

theorem constants40 (u : UnitSystem) : Constants40 u (Quantity.T.user u 647.096) (Quantity.p.user u 22.06395)
    (Quantity.T.user u 273.16) (Quantity.p.user u 0.000611657) (Quantity.T.user u 0) := by
  have e1 : FP.ideal.lit Constants.CRITICAL_TEMPERATURE = .fin 647.096 := by
    rw [lit_ideal, Constants.CRITICAL_TEMPERATURE]; norm_num
  have e2 : FP.ideal.lit Constants.CRITICAL_PRESSURE = .fin 22.06395 := by
    rw [lit_ideal, Constants.CRITICAL_PRESSURE]; norm_num
  have e3 : FP.ideal.lit Constants.TRIPLE_POINT_TEMPERATURE = .fin 273.16 := by
    rw [lit_ideal, Constants.TRIPLE_POINT_TEMPERATURE]; norm_num
  have e4 : FP.ideal.lit Constants.TRIPLE_POINT_PRESSURE = .fin 0.000611657 := by
    rw [lit_ideal, Constants.TRIPLE_POINT_PRESSURE]; norm_num
  have e5 : FP.ideal.lit 0.0 = .fin 0 := by rw [lit_ideal]; norm_num
  constructor
  · rw [XSteam.criticalTemperatur, e1]; simp only [si]
  · rw [XSteam.criticalPressure, e2]; simp only [si]
  · rw [XSteam.triplePointTemperatur, e3]; simp only [si]
  · rw [XSteam.triplePointPressure, e4]; simp only [si]
  · rw [XSteam.zeroPointTemperature, e5]; simp only [si]

theorem C40_mks : Constants40 .mks 373.946 220.6395 0.01 0.00611657 (-273.15) := by
  have := constants40 .mks
  norm_num [Quantity.user, Quantity.scale, Quantity.offset] at this
  convert this using 1 <;> norm_num

theorem C40_bare : Constants40 .bare 647.096 22.06395 273.16 0.000611657 0 := by
  simpa using constants40 .bare

theorem C40_fls : Constants40 .fls 705.1028 (22.06395 / 0.00689475729) 32.018 (0.000611657 / 0.00689475729) (-459.67) := by
  have := constants40 .fls
  norm_num [Quantity.user, Quantity.scale, Quantity.offset] at this
  convert this using 1 <;> norm_num

/-- C40 (defect): the critical density is converted as if it were a pressure.  In MKS units the answer is 3220
kg/m³ instead of 322; in imperial units it differs from the density in lb/ft³ by a factor over 2000. -/
theorem C40_critical_density :
    XSteam.criticalDensity .ideal .bare = pure (.fin 322) ∧
    XSteam.criticalDensity .ideal .mks = pure (.fin 3220) ∧
    (∃ ρ, XSteam.criticalDensity .ideal .fls = pure (.fin ρ) ∧ 2000 * (322 * 0.0624279606) < ρ) := by
  have e : Num.ofInt Constants.CRITICAL_DENSITY = .fin 322 := by
    rw [ofInt_eq, Constants.CRITICAL_DENSITY]; norm_num
  unfold XSteam.criticalDensity
  simp only [e, si, Quantity.user_bare, true_and]
  refine ⟨?_, _, rfl, ?_⟩ <;> norm_num [Quantity.user, Quantity.scale, Quantity.offset]

end PyX
