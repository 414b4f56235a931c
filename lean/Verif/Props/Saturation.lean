import Verif.Lemmas.SatCurve
import Verif.Lemmas.Ideal
import Verif.Lemmas.SI
import Verif.Model.Api

/-!
# C18, C19: the saturation line
-/

namespace PyX

open Classical Py Num Spec.Sat

/-! ## The code computes them -/

private theorem z2 {a : ℝ} : FP.ideal.pow (.fin a) (.fin 2) = pure (.fin (a ^ 2)) := by
  have := pow_ideal_int (a := a) (n := 2) (Or.inr (by norm_num))
  rw [show ((2 : ℤ) : ℝ) = 2 by norm_num] at this
  rw [this]; norm_cast
private theorem z4 {a : ℝ} : FP.ideal.pow (.fin a) (.fin 4) = pure (.fin (a ^ 4)) := by
  have := pow_ideal_int (a := a) (n := 4) (Or.inr (by norm_num))
  rw [show ((4 : ℤ) : ℝ) = 4 by norm_num] at this
  rw [this]; norm_cast
private theorem hf {a : ℝ} (h : 0 ≤ a) : FP.ideal.pow (.fin a) (.fin 0.5) = pure (.fin (Real.sqrt a)) := by
  rw [pow_ideal_nonneg h (by norm_num), Real.sqrt_eq_rpow]; norm_num
private theorem i2 : Num.ofInt 2 = .fin 2 := by rw [ofInt_eq]; norm_num
private theorem i4 : Num.ofInt 4 = .fin 4 := by rw [ofInt_eq]; norm_num
private theorem l9 : FP.ideal.lit 0.23855557567849 = .fin (-n9) := by rw [lit_ideal, n9]; norm_num
private theorem l10 : FP.ideal.lit 650.17534844798 = .fin n10 := by rw [lit_ideal, n10]; norm_num
private theorem l1 : FP.ideal.lit 1167.0521452767 = .fin n1 := by rw [lit_ideal, n1]; norm_num
private theorem l2 : FP.ideal.lit 724213.16703206 = .fin (-n2) := by rw [lit_ideal, n2]; norm_num
private theorem l3 : FP.ideal.lit 17.073846940092 = .fin (-n3) := by rw [lit_ideal, n3]; norm_num
private theorem l4 : FP.ideal.lit 12020.82470247 = .fin n4 := by rw [lit_ideal, n4]; norm_num
private theorem l5 : FP.ideal.lit 3232555.0322333 = .fin (-n5) := by rw [lit_ideal, n5]; norm_num
private theorem l6 : FP.ideal.lit 14.91510861353 = .fin n6 := by rw [lit_ideal, n6]; norm_num
private theorem l7 : FP.ideal.lit 4823.2657361591 = .fin (-n7) := by rw [lit_ideal, n7]; norm_num
private theorem l8 : FP.ideal.lit 405113.40542057 = .fin n8 := by rw [lit_ideal, n8]; norm_num
private theorem lh : FP.ideal.lit 0.5 = .fin 0.5 := by rw [lit_ideal]; norm_num
private theorem lq : FP.ideal.lit 0.25 = .fin 0.25 := by rw [lit_ideal]; norm_num

theorem p4_T_eq {T : ℝ} (h : T < n10) (h0 : 0 ≤ theta T) (h1 : theta T ≤ 647.3) :
    Region4.p4_T .ideal (.fin T) = pure (.fin (psat T)) := by
  have hne : T - n10 ≠ 0 := by linarith
  have hd := denom_pos (satC_pos (theta T)) (by norm_num) (eq29_neg h0 h1)
  have hD := disc_pos (satC_pos (theta T)) (eq29_neg h0 h1)
  have et : T - -n9 / (T - n10) = theta T := by rw [theta]; ring
  have ea : theta T ^ 2 + n1 * theta T - -n2 = satA (theta T) := by rw [satA]; ring
  have eb : - -n3 * theta T ^ 2 + n4 * theta T - -n5 = satB (theta T) := by rw [satB]; ring
  have ec : n6 * theta T ^ 2 - -n7 * theta T + n8 = satC (theta T) := by rw [satC]; ring
  unfold Region4.p4_T
  simp only [l1, l2, l3, l4, l5, l6, l7, l8, l9, l10, lh, i2, i4, sub_ideal, mul_ideal, add_ideal, neg_fin,
    div_ideal hne, pure_bind, et, z2, ea, eb, ec, hf hD.le, div_ideal hd.ne', z4]
  rfl

theorem T4_p_eq {p : ℝ} (h0 : 0.000611657 < p) (h1 : p < 22.06395) :
    Region4.T4_p .ideal (.fin p) = pure (.fin (tsat p)) := by
  obtain ⟨b0, b1⟩ := quarter_range h0 h1
  have hp : 0 < p := by linarith
  rw [tsat_eq]
  unfold Region4.T4_p
  simp only [l1, l2, l3, l4, l5, l6, l7, l8, l9, l10, lh, lq, i2, i4, pow_ideal_pos hp, pure_bind]
  generalize p ^ (0.25 : ℝ) = β at b0 b1
  have hd := denom_pos (gneg b0) (by norm_num) (eq29_pos (by linarith) b1)
  have hD := disc_pos (gneg b0) (eq29_pos (by linarith) b1)
  have ea : β ^ 2 - -n3 * β + n6 = satE β := by rw [satE]; ring
  have eb : n1 * β ^ 2 + n4 * β - -n7 = satF β := by rw [satF]; ring
  have ec : - -n2 * β ^ 2 - -n5 * β + n8 = satG β := by rw [satG]; ring
  have ed : satF β ^ 2 - 4 * satE β * satG β = (-satF β) ^ 2 - 4 * -satE β * -satG β := by ring
  have hd' : -satF β - Real.sqrt ((-satF β) ^ 2 - 4 * -satE β * -satG β) ≠ 0 := by
    intro h; rw [neg_neg] at hd; linarith
  have et : 2 * satG β / (-satF β - Real.sqrt ((-satF β) ^ 2 - 4 * -satE β * -satG β)) = thetaOf β := by
    rw [thetaOf, div_eq_div_iff hd' hd.ne']; ring
  have e9 : - -n9 + n10 * thetaOf β = n9 + n10 * thetaOf β := by ring
  simp only [sub_ideal, mul_ideal, add_ideal, neg_fin, pure_bind, z2, ea, eb, ec, ed, hf hD.le, div_ideal hd', et,
    e9, hf (temp_disc_pos _).le, div_ideal (two_ne_zero (α := ℝ))]
  rfl

private theorem g1 : FP.ideal.lit 0.000611657 = .fin 0.000611657 := by rw [lit_ideal]; norm_num
private theorem g2 : FP.ideal.lit 22.06395 = .fin 22.06395 := by rw [lit_ideal]; norm_num
private theorem g3 : FP.ideal.lit 647.096 = .fin 647.096 := by rw [lit_ideal]; norm_num
private theorem g4 : FP.ideal.lit 273.1 = .fin 273.1 := by rw [lit_ideal]; norm_num

theorem theta_ok {T : ℝ} (h0 : 273.1 < T) (h1 : T < 647.096) : T < n10 ∧ 0 ≤ theta T ∧ theta T ≤ 647.3 := by
  have hn : T < n10 := by norm_num [n10]; norm_num at h1; linarith
  have := theta_gt hn
  exact ⟨hn, by linarith, theta_le (by linarith)⟩

theorem psat_t_eq (u : UnitSystem) {t : ℝ} (h0 : 273.1 < Quantity.T.si u t) (h1 : Quantity.T.si u t < 647.096) :
    XSteam.psat_t .ideal u (.fin t) = pure (.fin (Quantity.p.user u (psat (Quantity.T.si u t)))) := by
  obtain ⟨a, b, c⟩ := theta_ok h0 h1
  unfold XSteam.psat_t
  simp only [si, pure_bind, g3, g4, gt_num, fin_lt]
  rw [if_pos ⟨h1, h0⟩, p4_T_eq a b c]
  simp only [si, pure_bind]

theorem tsat_p_eq (u : UnitSystem) {p : ℝ} (h0 : 0.000611657 < Quantity.p.si u p) (h1 : Quantity.p.si u p < 22.06395) :
    XSteam.tsat_p .ideal u (.fin p) = pure (.fin (Quantity.T.user u (tsat (Quantity.p.si u p)))) := by
  unfold XSteam.tsat_p
  simp only [si, pure_bind, g1, g2, gt_num, fin_lt]
  rw [if_pos ⟨h0, h1⟩, T4_p_eq h0 h1]
  simp only [si, pure_bind]

/-! ## C18 -/

/-- the pressure returned by `psat_t` lies on the saturation line of the standard -/
theorem C18_psat_on_line (u : UnitSystem) (t : ℝ) (h0 : 273.1 < Quantity.T.si u t)
    (h1 : Quantity.T.si u t < 647.096) :
    ∃ p, XSteam.psat_t .ideal u (.fin t) = pure (.fin p) ∧ 0 < Quantity.p.si u p ∧
      OnLine (Quantity.p.si u p) (Quantity.T.si u t) := by
  obtain ⟨_, b, c⟩ := theta_ok h0 h1
  have hb := betaOf_pos b c
  refine ⟨_, psat_t_eq u h0 h1, ?_, ?_⟩
  · rw [Quantity.si_user, psat]; positivity
  · have e := quarter hb.le
    rw [show (0.25 : ℝ) = 1 / 4 by norm_num] at e
    rw [Quantity.si_user, OnLine, psat, e, betaOf_eq b c]

/-- the temperature returned by `tsat_p` lies on the saturation line of the standard -/
theorem C18_tsat_on_line (u : UnitSystem) (p : ℝ) (h0 : 0.000611657 < Quantity.p.si u p)
    (h1 : Quantity.p.si u p < 22.06395) :
    ∃ t, XSteam.tsat_p .ideal u (.fin p) = pure (.fin t) ∧ 273.1 < Quantity.T.si u t ∧
      Quantity.T.si u t < 647.096 ∧ OnLine (Quantity.p.si u p) (Quantity.T.si u t) := by
  obtain ⟨b0, b1⟩ := quarter_range h0 h1
  have hr := tsat_range h0 h1
  refine ⟨_, tsat_p_eq u h0 h1, ?_, ?_, ?_⟩
  · rw [Quantity.si_user]; exact hr.1
  · rw [Quantity.si_user]; exact hr.2
  · rw [Quantity.si_user, OnLine, tsat_eq, theta_tempOf, show (1 / 4 : ℝ) = 0.25 by norm_num, thetaOf_eq b0 b1]

/-- `psat_t(tsat_p(p)) = p` on the whole range of `tsat_p` -/
theorem C18_psat_tsat (u : UnitSystem) (p : ℝ) (h0 : 0.000611657 < Quantity.p.si u p)
    (h1 : Quantity.p.si u p < 22.06395) :
    (XSteam.tsat_p .ideal u (.fin p) >>= XSteam.psat_t .ideal u) = pure (.fin p) := by
  have hr := tsat_range h0 h1
  rw [tsat_p_eq u h0 h1, pure_bind, psat_t_eq u (by rw [Quantity.si_user]; exact hr.1)
    (by rw [Quantity.si_user]; exact hr.2), Quantity.si_user, psat_tsat h0 h1, Quantity.user_si]

/-- `tsat_p(psat_t(t)) = t` wherever `psat_t` gives a pressure in the range of `tsat_p` -/
theorem C18_tsat_psat (u : UnitSystem) (t p : ℝ) (h0 : 273.1 < Quantity.T.si u t)
    (h1 : Quantity.T.si u t < 647.096) (hp : XSteam.psat_t .ideal u (.fin t) = pure (.fin p))
    (hp0 : 0.000611657 < Quantity.p.si u p) (hp1 : Quantity.p.si u p < 22.06395) :
    XSteam.tsat_p .ideal u (.fin p) = pure (.fin t) := by
  rw [psat_t_eq u h0 h1] at hp
  have hp : Quantity.p.user u (psat (Quantity.T.si u t)) = p := by
    exact Num.fin.inj (Outcome.ok.inj (congrArg Py.out hp))
  rw [← hp, Quantity.si_user] at hp0 hp1
  rw [← hp, tsat_p_eq u (by rwa [Quantity.si_user]) (by rwa [Quantity.si_user]), Quantity.si_user,
    tsat_psat h0 h1 hp0 hp1, Quantity.user_si]

theorem psat_range {T : ℝ} (h0 : 273.17 ≤ T) (h1 : T ≤ 647.095) : 0.000611657 < psat T ∧ psat T < 22.06395 := by
  have hn : T < n10 := by norm_num [n10]; norm_num at h1; linarith
  have hθ0 : theta 273.17 ≤ theta T := by
    rcases h0.eq_or_lt with h | h
    · rw [h]
    · exact (theta_mono h hn).le
  have hθ1 : theta T ≤ theta 647.095 := by
    rcases h1.eq_or_lt with h | h
    · rw [h]
    · exact (theta_mono h (by norm_num [n10])).le
  have a0 : 273.1705 < theta 273.17 := by norm_num [theta, n9, n10]
  have a1 : theta 647.095 < 647.17246 := by norm_num [theta, n9, n10]
  have b0 : 0 ≤ theta T := by linarith
  have b1 : theta T ≤ 647.3 := by linarith
  have l : 0.15728 < betaOf (theta T) := by
    have : 0 < eq29 0.15728 273.1705 := by norm_num [eq29, n1, n2, n3, n4, n5, n6, n7, n8]
    have h := this.trans (eq29_mono (by norm_num) (by norm_num) (lt_of_lt_of_le a0 hθ0) b1)
    rw [eq29_β] at h
    refine lt_root (satC_pos _) (eq29_neg b0 b1) (by norm_num) (by norm_num) h (betaOf_pos b0 b1) ?_
    have := betaOf_eq b0 b1
    rwa [eq29_β] at this
  have r : betaOf (theta T) < 2.167308 := by
    have : eq29 2.167308 647.17246 < 0 := by norm_num [eq29, n1, n2, n3, n4, n5, n6, n7, n8]
    have h := (eq29_mono (β := 2.167308) (by norm_num) (by linarith) (lt_of_le_of_lt hθ1 a1) (by norm_num)).trans this
    rw [eq29_β] at h
    exact root_lt (satC_pos _) (by norm_num) h
  have hb := betaOf_pos b0 b1
  constructor
  · have := pow_lt_pow_left₀ l (by norm_num) (n := 4) (by norm_num)
    rw [psat]; norm_num at this ⊢; linarith
  · have := pow_lt_pow_left₀ r hb.le (n := 4) (by norm_num)
    rw [psat]; norm_num at this ⊢; linarith

/-- `tsat_p(psat_t(t)) = t` from 273.17 K to 647.095 K -/
theorem C18_tsat_psat_range (u : UnitSystem) (t : ℝ) (h0 : 273.17 ≤ Quantity.T.si u t)
    (h1 : Quantity.T.si u t ≤ 647.095) :
    (XSteam.psat_t .ideal u (.fin t) >>= XSteam.tsat_p .ideal u) = pure (.fin t) := by
  have hr := psat_range h0 h1
  have e := psat_t_eq u (t := t) (by linarith) (by linarith)
  rw [e, pure_bind]
  exact C18_tsat_psat u t _ (by linarith) (by linarith) e (by rw [Quantity.si_user]; exact hr.1)
    (by rw [Quantity.si_user]; exact hr.2)

/-! ## C19 -/

theorem C19_psat_strictMono (u : UnitSystem) (t t' : ℝ) (h0 : 273.1 < Quantity.T.si u t) (h : t < t')
    (h1 : Quantity.T.si u t' < 647.096) :
    ∃ p p', XSteam.psat_t .ideal u (.fin t) = pure (.fin p) ∧
      XSteam.psat_t .ideal u (.fin t') = pure (.fin p') ∧ p < p' := by
  have hs := Quantity.si_strictMono .T u h
  exact ⟨_, _, psat_t_eq u h0 (hs.trans h1), psat_t_eq u (h0.trans hs) h1,
    Quantity.user_strictMono .p u (psat_mono (by linarith) hs (by linarith))⟩

theorem C19_tsat_strictMono (u : UnitSystem) (p p' : ℝ) (h0 : 0.000611657 < Quantity.p.si u p) (h : p < p')
    (h1 : Quantity.p.si u p' < 22.06395) :
    ∃ t t', XSteam.tsat_p .ideal u (.fin p) = pure (.fin t) ∧
      XSteam.tsat_p .ideal u (.fin p') = pure (.fin t') ∧ t < t' := by
  have hs := Quantity.si_strictMono .p u h
  exact ⟨_, _, tsat_p_eq u h0 (hs.trans h1), tsat_p_eq u (h0.trans hs) h1,
    Quantity.user_strictMono .T u (tsat_mono h0 hs h1)⟩

/-! the hypotheses hold at 1 bar, at 20 °C and at 70 °F -/

example : ∃ t, XSteam.tsat_p .ideal .mks (.fin 1) = pure (.fin t) ∧
    XSteam.psat_t .ideal .mks (.fin t) = pure (.fin 1) := by
  have h0 : 0.000611657 < Quantity.p.si .mks 1 := by norm_num [Quantity.si, Quantity.scale, Quantity.offset]
  have h1 : Quantity.p.si .mks 1 < 22.06395 := by norm_num [Quantity.si, Quantity.scale, Quantity.offset]
  have := C18_psat_tsat .mks 1 h0 h1
  rw [tsat_p_eq .mks h0 h1, pure_bind] at this
  exact ⟨_, tsat_p_eq .mks h0 h1, this⟩

example : ∃ p, XSteam.psat_t .ideal .fls (.fin 70) = pure (.fin p) ∧
    XSteam.tsat_p .ideal .fls (.fin p) = pure (.fin 70) := by
  have h0 : 273.17 ≤ Quantity.T.si .fls 70 := by norm_num [Quantity.si, Quantity.scale, Quantity.offset]
  have h1 : Quantity.T.si .fls 70 ≤ 647.095 := by norm_num [Quantity.si, Quantity.scale, Quantity.offset]
  have := C18_tsat_psat_range .fls 70 h0 h1
  rw [psat_t_eq .fls (by linarith) (by linarith), pure_bind] at this
  exact ⟨_, psat_t_eq .fls (by linarith) (by linarith), this⟩

end PyX
