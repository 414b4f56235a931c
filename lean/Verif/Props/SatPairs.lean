import Verif.Props.Backward3
import Verif.Props.Phases
import Verif.Lemmas.Sat3

/-!
# C81: the saturation functions of the temperature are those of the pressure
-/

namespace PyX

open Classical Py Num Spec.Sat Kron

private theorem g1 : FP.ideal.lit 0.000611657 = .fin 0.000611657 := by rw [lit_ideal]; norm_num
private theorem g2 : FP.ideal.lit 22.06395 = .fin 22.06395 := by rw [lit_ideal]; norm_num
private theorem g3 : FP.ideal.lit 647.096 = .fin 647.096 := by rw [lit_ideal]; norm_num
private theorem g4 : FP.ideal.lit 16.529 = .fin 16.529 := by rw [lit_ideal]; norm_num
private theorem g5 : FP.ideal.lit 273.15 = .fin 273.15 := by rw [lit_ideal]; norm_num
private theorem g6 : FP.ideal.lit 623.15 = .fin 623.15 := by rw [lit_ideal]; norm_num
private theorem g7 : FP.ideal.lit 22.064 = .fin 22.064 := by rw [lit_ideal]; norm_num
private theorem g8 : FP.ideal.lit 1.0 = .fin 1 := by rw [lit_ideal]; norm_num
private theorem i0 : Num.ofInt 0 = .fin 0 := by rw [ofInt_eq]; norm_num
private theorem i1 : Num.ofInt 1 = .fin 1 := by rw [ofInt_eq]; norm_num

/-- the calls that answer for one phase by its temperature, each with the call that answers by the pressure -/
noncomputable def phasePairs : List ((FP → UnitSystem → Num → Py Num) × (FP → UnitSystem → Num → Py Num)) :=
  [(XSteam.hL_t, XSteam.hL_p), (XSteam.hV_t, XSteam.hV_p), (XSteam.vL_t, XSteam.vL_p), (XSteam.vV_t, XSteam.vV_p),
   (XSteam.rhoL_t, XSteam.rhoL_p), (XSteam.rhoV_t, XSteam.rhoV_p), (XSteam.sL_t, XSteam.sL_p), (XSteam.sV_t, XSteam.sV_p),
   (XSteam.uL_t, XSteam.uL_p), (XSteam.uV_t, XSteam.uV_p), (XSteam.CpL_t, XSteam.CpL_p), (XSteam.CpV_t, XSteam.CpV_p),
   (XSteam.CvL_t, XSteam.CvL_p), (XSteam.CvV_t, XSteam.CvV_p), (XSteam.wL_t, XSteam.wL_p), (XSteam.wV_t, XSteam.wV_p),
   (XSteam.tcL_t, XSteam.tcL_p), (XSteam.tcV_t, XSteam.tcV_p), (XSteam.st_t, XSteam.st_p)]

theorem psat_62315' : psat 623.15 < 16.5292 := by
  have h := psat_le (T := 623.15) (Tk := 623.15) (β := 2.0163352) (by norm_num) (by norm_num) (by norm_num) (by norm_num)
    (by norm_num [eqQ, thQ])
  norm_num at h ⊢
  linarith

theorem psat_623149 : psat 623.149 < 16.529 := by
  have h := psat_le (T := 623.149) (Tk := 623.149) (β := 2.016329) (by norm_num) (by norm_num) (by norm_num) (by norm_num)
    (by norm_num [eqQ, thQ])
  norm_num at h ⊢
  linarith

theorem tsat_gt {p x : ℝ} (h0 : 0.000611657 < p) (h1 : p < 22.06395) (hx : psat x < p) (hx1 : x ≤ 647) : x < tsat p := by
  rcases (tsat_ge h0 h1 hx.le hx1).eq_or_lt with h | h
  · rw [h, psat_tsat h0 h1] at hx; exact absurd hx (lt_irrefl _)
  · exact h

/-- C81: for every saturation pressure below 16.529 MPa or from 16.5292 MPa, the calls by temperature answer at
`tsat_p(p)` exactly what the calls by pressure answer at `p`, logs included -/
theorem C81_pairs (u : UnitSystem) (p : ℝ) (h0 : 0.000611657 < Quantity.p.si u p) (h1 : Quantity.p.si u p < 22.06395)
    (hs : Quantity.p.si u p < 16.529 ∨ 16.5292 ≤ Quantity.p.si u p) :
    ∀ f ∈ phasePairs, (XSteam.tsat_p .ideal u (.fin p) >>= f.1 .ideal u) = f.2 .ideal u (.fin p) := by
  have hr := tsat_range h0 h1
  have ht : 273.15 < tsat (Quantity.p.si u p) := tsat_gt h0 h1 (psat_273.trans h0) (by norm_num)
  have e := psat_tsat h0 h1
  have e1 := T4_p_eq h0 h1
  have e2 : Region4.p4_T .ideal (.fin (tsat (Quantity.p.si u p))) = pure (.fin (Quantity.p.si u p)) := by
    obtain ⟨a, b, c⟩ := theta_ok hr.1 hr.2
    rw [p4_T_eq a b c, e]
  have e3 := tsat_p_eq u h0 h1
  have e4 : XSteam.psat_t .ideal u (.fin (Quantity.T.user u (tsat (Quantity.p.si u p)))) = pure (.fin p) := by
    rw [psat_t_eq u (by rw [Quantity.si_user]; exact hr.1) (by rw [Quantity.si_user]; exact hr.2), Quantity.si_user, e,
      Quantity.user_si]
  have hb : tsat (Quantity.p.si u p) ≤ 623.15 ↔ Quantity.p.si u p < 16.529 := by
    constructor
    · intro h
      rcases hs with hs | hs
      · exact hs
      · have := tsat_gt h0 h1 (psat_62315'.trans_le hs) (by norm_num); linarith
    · intro h; exact (tsat_lt h0 h1 (by norm_num) (by linarith [psat_62315])).le
  generalize hP : Quantity.p.si u p = P at *
  generalize hT : tsat P = T at *
  have vL : XSteam.vL_t .ideal u (.fin (Quantity.T.user u T)) = XSteam.vL_p .ideal u (.fin p) := by
    unfold XSteam.vL_t XSteam.vL_p
    simp only [si, pure_bind, g1, g2, g3, g4, g5, g6, gt_num, fin_lt, fin_le, Quantity.si_user, hP, e1, e2, hb, if_pos (And.intro h0 h1), if_pos (And.intro ht hr.2)]
  have vV : XSteam.vV_t .ideal u (.fin (Quantity.T.user u T)) = XSteam.vV_p .ideal u (.fin p) := by
    unfold XSteam.vV_t XSteam.vV_p
    simp only [si, pure_bind, g1, g2, g3, g4, g5, g6, gt_num, fin_lt, fin_le, Quantity.si_user, hP, e1, e2, hb, if_pos (And.intro h0 h1), if_pos (And.intro ht hr.2)]
  have fin : ∀ f ∈ phasePairs, f.1 .ideal u (.fin (Quantity.T.user u T)) = f.2 .ideal u (.fin p) := by
    simp only [phasePairs, List.forall_mem_cons]
    refine ⟨?_, ?_, vL, vV, ?_, ?_, ?_, ?_, ?_, ?_, ?_, ?_, ?_, ?_, ?_, ?_, ?_, ?_, ?_, by simp⟩
    · unfold XSteam.hL_t XSteam.hL_p
      simp only [si, pure_bind, g1, g2, g3, g5, gt_num, fin_lt, Quantity.si_user, hP, e2, if_pos (And.intro h0 h1), if_pos (And.intro ht hr.2)]
    · unfold XSteam.hV_t XSteam.hV_p
      simp only [si, pure_bind, g1, g2, g3, g5, gt_num, fin_lt, Quantity.si_user, hP, e2, if_pos (And.intro h0 h1), if_pos (And.intro ht hr.2)]
    · unfold XSteam.rhoL_t XSteam.rhoL_p; rw [vL]
    · unfold XSteam.rhoV_t XSteam.rhoV_p; rw [vV]
    · unfold XSteam.sL_t XSteam.sL_p
      simp only [si, pure_bind, g1, g2, g3, g4, g5, g6, gt_num, fin_lt, fin_le, Quantity.si_user, hP, e1, e2, hb, if_pos (And.intro h0 h1), if_pos (And.intro ht hr.2)]
    · unfold XSteam.sV_t XSteam.sV_p
      simp only [si, pure_bind, g1, g2, g3, g4, g5, g6, gt_num, fin_lt, fin_le, Quantity.si_user, hP, e1, e2, hb, if_pos (And.intro h0 h1), if_pos (And.intro ht hr.2)]
    · unfold XSteam.uL_t XSteam.uL_p
      simp only [si, pure_bind, g1, g2, g3, g4, g5, g6, gt_num, fin_lt, fin_le, Quantity.si_user, hP, e1, e2, hb, if_pos (And.intro h0 h1), if_pos (And.intro ht hr.2)]
    · unfold XSteam.uV_t XSteam.uV_p
      simp only [si, pure_bind, g1, g2, g3, g4, g5, g6, gt_num, fin_lt, fin_le, Quantity.si_user, hP, e1, e2, hb, if_pos (And.intro h0 h1), if_pos (And.intro ht hr.2)]
    · unfold XSteam.CpL_t XSteam.CpL_p
      simp only [si, pure_bind, g1, g2, g3, g4, g5, g6, gt_num, fin_lt, fin_le, Quantity.si_user, hP, e1, e2, hb, if_pos (And.intro h0 h1), if_pos (And.intro ht hr.2)]
    · unfold XSteam.CpV_t XSteam.CpV_p
      simp only [si, pure_bind, g1, g2, g3, g4, g5, g6, gt_num, fin_lt, fin_le, Quantity.si_user, hP, e1, e2, hb, if_pos (And.intro h0 h1), if_pos (And.intro ht hr.2)]
    · unfold XSteam.CvL_t XSteam.CvL_p
      simp only [si, pure_bind, g1, g2, g3, g4, g5, g6, gt_num, fin_lt, fin_le, Quantity.si_user, hP, e1, e2, hb, if_pos (And.intro h0 h1), if_pos (And.intro ht hr.2)]
    · unfold XSteam.CvV_t XSteam.CvV_p
      simp only [si, pure_bind, g1, g2, g3, g4, g5, g6, gt_num, fin_lt, fin_le, Quantity.si_user, hP, e1, e2, hb, if_pos (And.intro h0 h1), if_pos (And.intro ht hr.2)]
    · unfold XSteam.wL_t XSteam.wL_p
      simp only [si, pure_bind, g1, g2, g3, g4, g5, g6, gt_num, fin_lt, fin_le, Quantity.si_user, hP, e1, e2, hb, if_pos (And.intro h0 h1), if_pos (And.intro ht hr.2)]
    · unfold XSteam.wV_t XSteam.wV_p
      simp only [si, pure_bind, g1, g2, g3, g4, g5, g6, gt_num, fin_lt, fin_le, Quantity.si_user, hP, e1, e2, hb, if_pos (And.intro h0 h1), if_pos (And.intro ht hr.2)]
    · unfold XSteam.tcL_t XSteam.tcL_p
      simp only [e3, e4, vL, pure_bind, si, g8, i1]
    · unfold XSteam.tcV_t XSteam.tcV_p
      simp only [e3, e4, vV, pure_bind, si, g8, i1]
    · unfold XSteam.st_t XSteam.st_p
      simp only [e3, pure_bind, si]
  intro f hf
  rw [e3, pure_bind]
  exact fin f hf

/-- C81: the same starting from the temperature -/
theorem C81_by_temperature (u : UnitSystem) (t : ℝ) (h0 : 273.17 ≤ Quantity.T.si u t) (h1 : Quantity.T.si u t ≤ 647.095)
    (hs : Quantity.T.si u t ≤ 623.149 ∨ 623.1502 ≤ Quantity.T.si u t) :
    ∀ f ∈ phasePairs, (XSteam.psat_t .ideal u (.fin t) >>= f.2 .ideal u) = f.1 .ideal u (.fin t) := by
  have hr := psat_range h0 h1
  have e := psat_t_eq u (t := t) (by linarith) (by linarith)
  have e' := C18_tsat_psat_range u t h0 h1
  rw [e, pure_bind] at e'
  have hp : psat (Quantity.T.si u t) < 16.529 ∨ 16.5292 ≤ psat (Quantity.T.si u t) := by
    rcases hs with hs | hs
    · left; exact lt_of_le_of_lt (psat_mono' (by linarith) hs (by norm_num)) psat_623149
    · right
      refine le_trans ?_ (psat_mono' (by norm_num) hs (by linarith))
      have h := le_psat (T := 623.1502) (Tk := 623.1502) (β := 2.0163363) (by norm_num) (by norm_num) (by norm_num) (by norm_num) (by norm_num)
        (by norm_num [eqQ, thQ])
      norm_num at h ⊢
      linarith
  intro f hf
  have := C81_pairs u (Quantity.p.user u (psat (Quantity.T.si u t))) (by rw [Quantity.si_user]; exact hr.1)
    (by rw [Quantity.si_user]; exact hr.2) (by rw [Quantity.si_user]; exact hp) f hf
  rw [e', pure_bind] at this
  rw [e, pure_bind, this]

/-- C81: so is the enthalpy of wet steam, over the whole range -/
theorem C81_h_tx (u : UnitSystem) (p x : ℝ) (h0 : 0.000611657 < Quantity.p.si u p) (h1 : Quantity.p.si u p < 22.06395) :
    (XSteam.tsat_p .ideal u (.fin p) >>= fun t => XSteam.h_tx .ideal u t (.fin x)) = XSteam.h_px .ideal u (.fin p) (.fin x) := by
  have hr := tsat_range h0 h1
  obtain ⟨a, b, c⟩ := theta_ok hr.1 hr.2
  have e2 : Region4.p4_T .ideal (.fin (tsat (Quantity.p.si u p))) = pure (.fin (Quantity.p.si u p)) := by
    rw [p4_T_eq a b c, psat_tsat h0 h1]
  have n1 : ¬ (647.096 ≤ tsat (Quantity.p.si u p)) := not_le.2 hr.2
  have n2 : ¬ (22.064 ≤ Quantity.p.si u p) := by linarith
  rw [tsat_p_eq u h0 h1, pure_bind]
  unfold XSteam.h_tx XSteam.h_px
  simp only [si, pure_bind, g3, g7, ge_num, gt_num, fin_le, Quantity.si_user, n1, n2, e2, or_false]
  obtain ⟨c1, c2⟩ := C03_fraction .ideal FP.ideal_sane u (.fin x) UnitConverter.toSIunit_x (by simp [fractionConverters])
  by_cases hx : 0 ≤ x ∧ x ≤ 1
  · have hg : ¬ (1 < x ∨ x < 0) := by rintro (h | h) <;> linarith [hx.1, hx.2]
    simp only [c1 ⟨x, rfl, hx⟩, pure_bind, i0, i1, fin_lt, if_neg hg]
  · have := (c2 (by rintro ⟨y, hy, hy'⟩; cases hy; exact hx hy')).1
    generalize UnitConverter.toSIunit_x .ideal u (.fin x) = X at this ⊢
    obtain ⟨l, o⟩ := X
    simp only at this
    subst this
    rfl

/-! ## Where the enthalpies of the phases do not exist -/

theorem psat_2731599 : psat 273.1599 < 0.000611657 := by
  have h := psat_le (T := 273.1599) (Tk := 273.1599) (β := 0.157263) (by norm_num) (by norm_num) (by norm_num) (by norm_num)
    (by norm_num [eqQ, thQ])
  norm_num at h ⊢
  linarith

theorem psat_6470959 : 22.06395 < psat 647.0959 := by
  have h := B3.le_psat' (T := 647.0959) (Tk := 647.0959) (β := 2.1673094) (by norm_num) (by norm_num) (by norm_num) (by norm_num) (by norm_num)
    (by norm_num [eqQ, thQ])
  norm_num at h ⊢
  linarith

theorem psat_647096 : psat 647.096 < 22.0641 := by
  have h := B3.psat_le' (T := 647.096) (Tk := 647.096) (β := 2.1673102) (by norm_num) (by norm_num) (by norm_num) (by norm_num)
    (by norm_num [eqQ, thQ])
  norm_num at h ⊢
  linarith

theorem sentinel {p : ℝ} (h : ¬ (0.000611657 < p ∧ p < 22.06395)) :
    Region4.h4L_p .ideal (.fin p) = pure (.fin (-99999)) ∧ Region4.h4V_p .ideal (.fin p) = pure (.fin (-99999)) := by
  have m : Num.ofInt (-99999) = .fin (-99999) := by rw [ofInt_eq]; norm_num
  unfold Region4.h4L_p Region4.h4V_p
  simp only [g1, g2, gt_num, fin_lt, if_neg h, pure_bind, m, and_self]

/-- C81 (finding): from 0 °C to the triple point and just below the critical point, `hL_t` and `hV_t` accept the temperature
and answer -99999 kJ/kg without a log record; `h_px` and `h_tx` do the same (C15) -/
theorem C81_sentinel (u : UnitSystem) (t : ℝ) (h : (273.15 < Quantity.T.si u t ∧ Quantity.T.si u t ≤ 273.1599) ∨
      (647.0959 ≤ Quantity.T.si u t ∧ Quantity.T.si u t < 647.096)) :
    XSteam.hL_t .ideal u (.fin t) = pure (.fin (Quantity.h.user u (-99999))) ∧
      XSteam.hV_t .ideal u (.fin t) = pure (.fin (Quantity.h.user u (-99999))) := by
  have h0 : 273.15 < Quantity.T.si u t := by rcases h with h | h <;> linarith
  have h1 : Quantity.T.si u t < 647.096 := by rcases h with h | h <;> linarith
  obtain ⟨a, b, c⟩ := theta_ok (T := Quantity.T.si u t) (by linarith) h1
  have e := p4_T_eq a b c
  obtain ⟨s1, s2⟩ := sentinel (p := psat (Quantity.T.si u t)) (by
    rintro ⟨l, r⟩
    rcases h with h | h
    · have := psat_mono' (by linarith) h.2 (by norm_num); linarith [psat_2731599]
    · have := psat_mono' (by norm_num) h.1 (by linarith); linarith [psat_6470959])
  unfold XSteam.hL_t XSteam.hV_t
  simp only [si, pure_bind, g3, g5, gt_num, fin_lt, if_pos (And.intro h0 h1), e, s1, s2, and_self]

theorem v3ph_sentinel {p : ℝ} (h0 : 22.0639 < p) (h1 : p < 22.0641) : v3ph p (-99999) < -1e40 := by
  have hb : (-99999 : ℝ) < Kron.B3.h3ab p := by
    unfold Kron.B3.h3ab
    have : p ^ 2 ≤ 22.0641 ^ 2 := by gcongr
    have : 0 ≤ p ^ 3 := by positivity
    norm_num at *; linarith
  rw [v3ph, if_pos hb]
  generalize hq : p / 100 + 0.128 = q
  have q0 : 0.3486 < q := by linarith
  have q1 : q < 0.3487 := by linarith
  have q0' : 0 < q := by linarith
  obtain ⟨r, hr⟩ : ∃ r, r = q⁻¹ := ⟨_, rfl⟩
  have hr0 : 0 < r := by rw [hr]; positivity
  have hqr : r * q = 1 := by rw [hr]; exact inv_mul_cancel₀ q0'.ne'
  have r1 : r < 2.8687 := by nlinarith
  have r2 : 2.8677 < r := by nlinarith
  have z12 : q ^ (-12 : ℤ) = r ^ 12 := by rw [hr, zpow_neg, inv_pow]; norm_cast
  have z10 : q ^ (-10 : ℤ) = r ^ 10 := by rw [hr, zpow_neg, inv_pow]; norm_cast
  have z8 : q ^ (-8 : ℤ) = r ^ 8 := by rw [hr, zpow_neg, inv_pow]; norm_cast
  have z6 : q ^ (-6 : ℤ) = r ^ 6 := by rw [hr, zpow_neg, inv_pow]; norm_cast
  have z4 : q ^ (-4 : ℤ) = r ^ 4 := by rw [hr, zpow_neg, inv_pow]; norm_cast
  have z3 : q ^ (-3 : ℤ) = r ^ 3 := by rw [hr, zpow_neg, inv_pow]; norm_cast
  have z2 : q ^ (-2 : ℤ) = r ^ 2 := by rw [hr, zpow_neg, inv_pow]; norm_cast
  have z1 : q ^ (-1 : ℤ) = r ^ 1 := by rw [hr, zpow_neg, inv_pow]; norm_cast
  have a12 : r ^ 12 < 2.8687 ^ 12 := pow_lt_pow_left₀ r1 hr0.le (by norm_num)
  have b12 : 2.8677 ^ 12 < r ^ 12 := pow_lt_pow_left₀ r2 (by norm_num) (by norm_num)
  have a10 : r ^ 10 < 2.8687 ^ 10 := pow_lt_pow_left₀ r1 hr0.le (by norm_num)
  have b10 : 2.8677 ^ 10 < r ^ 10 := pow_lt_pow_left₀ r2 (by norm_num) (by norm_num)
  have a8 : r ^ 8 < 2.8687 ^ 8 := pow_lt_pow_left₀ r1 hr0.le (by norm_num)
  have b8 : 2.8677 ^ 8 < r ^ 8 := pow_lt_pow_left₀ r2 (by norm_num) (by norm_num)
  have a6 : r ^ 6 < 2.8687 ^ 6 := pow_lt_pow_left₀ r1 hr0.le (by norm_num)
  have b6 : 2.8677 ^ 6 < r ^ 6 := pow_lt_pow_left₀ r2 (by norm_num) (by norm_num)
  have a4 : r ^ 4 < 2.8687 ^ 4 := pow_lt_pow_left₀ r1 hr0.le (by norm_num)
  have b4 : 2.8677 ^ 4 < r ^ 4 := pow_lt_pow_left₀ r2 (by norm_num) (by norm_num)
  have a3 : r ^ 3 < 2.8687 ^ 3 := pow_lt_pow_left₀ r1 hr0.le (by norm_num)
  have b3 : 2.8677 ^ 3 < r ^ 3 := pow_lt_pow_left₀ r2 (by norm_num) (by norm_num)
  have a2 : r ^ 2 < 2.8687 ^ 2 := pow_lt_pow_left₀ r1 hr0.le (by norm_num)
  have b2 : 2.8677 ^ 2 < r ^ 2 := pow_lt_pow_left₀ r2 (by norm_num) (by norm_num)
  have c2 : q ^ 2 < 0.3487 ^ 2 := pow_lt_pow_left₀ q1 q0'.le (by norm_num)
  have d2 : 0.3486 ^ 2 < q ^ 2 := pow_lt_pow_left₀ q0 (by norm_num) (by norm_num)
  have c3 : q ^ 3 < 0.3487 ^ 3 := pow_lt_pow_left₀ q1 q0'.le (by norm_num)
  have d3 : 0.3486 ^ 3 < q ^ 3 := pow_lt_pow_left₀ q0 (by norm_num) (by norm_num)
  have c4 : q ^ 4 < 0.3487 ^ 4 := pow_lt_pow_left₀ q1 q0'.le (by norm_num)
  have d4 : 0.3486 ^ 4 < q ^ 4 := pow_lt_pow_left₀ q0 (by norm_num) (by norm_num)
  have c5 : q ^ 5 < 0.3487 ^ 5 := pow_lt_pow_left₀ q1 q0'.le (by norm_num)
  have d5 : 0.3486 ^ 5 < q ^ 5 := pow_lt_pow_left₀ q0 (by norm_num) (by norm_num)
  have c8 : q ^ 8 < 0.3487 ^ 8 := pow_lt_pow_left₀ q1 q0'.le (by norm_num)
  have d8 : 0.3486 ^ 8 < q ^ 8 := pow_lt_pow_left₀ q0 (by norm_num) (by norm_num)
  simp only [dpoly, Kron.V3a.table, Term.d, ff, List.map_cons, List.map_nil, List.sum_cons, List.sum_nil, Nat.cast_zero, sub_zero, one_mul, z12, z10, z8, z6, z4, z3, z2, z1]
  simp only [zpow_ofNat]
  clear z12 z10 z8 z6 z4 z3 z2 z1 hr hqr hb hq h0 h1
  norm_num
  linarith

/-- C81 (finding): just below the critical point the specific volumes are computed from that constant, without a log record:
less than -10^40 m³/kg -/
theorem C81_volume (u : UnitSystem) (t : ℝ) (h0 : 647.0959 ≤ Quantity.T.si u t) (h1 : Quantity.T.si u t < 647.096) :
    ∃ v : ℝ, XSteam.vL_t .ideal u (.fin t) = pure (.fin v) ∧ XSteam.vV_t .ideal u (.fin t) = pure (.fin v) ∧
      Quantity.v.si u v < -1e40 := by
  have hg : 273.15 < Quantity.T.si u t := by linarith
  have hn : ¬ (Quantity.T.si u t ≤ 623.15) := by linarith
  obtain ⟨a, b, c⟩ := theta_ok (T := Quantity.T.si u t) (by linarith) h1
  have e := p4_T_eq a b c
  have l := psat_mono' (by norm_num) h0 (by linarith)
  have r := psat_mono' (by linarith) h1.le (by norm_num)
  have l' := psat_6470959
  have r' := psat_647096
  obtain ⟨s1, s2⟩ := sentinel (p := psat (Quantity.T.si u t)) (by rintro ⟨_, h⟩; linarith)
  have hv := v3_ph_eq (p := psat (Quantity.T.si u t)) (h := -99999) (by linarith)
  refine ⟨Quantity.v.user u (v3ph (psat (Quantity.T.si u t)) (-99999)), ?_, ?_, ?_⟩
  · unfold XSteam.vL_t
    simp only [si, pure_bind, g3, g5, g6, gt_num, fin_lt, fin_le, if_pos (And.intro hg h1), if_neg hn, e, s1, hv]
  · unfold XSteam.vV_t
    simp only [si, pure_bind, g3, g5, g6, gt_num, fin_lt, fin_le, if_pos (And.intro hg h1), if_neg hn, e, s2, hv]
  · rw [Quantity.si_user]; exact v3ph_sentinel (by linarith) (by linarith)

/-! ## Cases: 1 bar, 200 bar, 100 °C, 0.005 °C, 373.9459 °C -/

example : ∀ f ∈ phasePairs, (XSteam.tsat_p .ideal .mks (.fin 1) >>= f.1 .ideal .mks) = f.2 .ideal .mks (.fin 1) :=
  C81_pairs .mks 1 (by norm_num [Quantity.si, Quantity.scale, Quantity.offset])
    (by norm_num [Quantity.si, Quantity.scale, Quantity.offset]) (.inl (by norm_num [Quantity.si, Quantity.scale, Quantity.offset]))

example : ∀ f ∈ phasePairs, (XSteam.tsat_p .ideal .mks (.fin 200) >>= f.1 .ideal .mks) = f.2 .ideal .mks (.fin 200) :=
  C81_pairs .mks 200 (by norm_num [Quantity.si, Quantity.scale, Quantity.offset])
    (by norm_num [Quantity.si, Quantity.scale, Quantity.offset]) (.inr (by norm_num [Quantity.si, Quantity.scale, Quantity.offset]))

example : (XSteam.psat_t .ideal .mks (.fin 100) >>= XSteam.CpV_p .ideal .mks) = XSteam.CpV_t .ideal .mks (.fin 100) :=
  C81_by_temperature .mks 100 (by norm_num [Quantity.si, Quantity.scale, Quantity.offset])
    (by norm_num [Quantity.si, Quantity.scale, Quantity.offset]) (.inl (by norm_num [Quantity.si, Quantity.scale, Quantity.offset]))
    (XSteam.CpV_t, XSteam.CpV_p) (by simp [phasePairs])

example : (XSteam.tsat_p .ideal .mks (.fin 1) >>= fun t => XSteam.h_tx .ideal .mks t (.fin 0.5)) = XSteam.h_px .ideal .mks (.fin 1) (.fin 0.5) :=
  C81_h_tx .mks 1 0.5 (by norm_num [Quantity.si, Quantity.scale, Quantity.offset])
    (by norm_num [Quantity.si, Quantity.scale, Quantity.offset])

example : XSteam.hL_t .ideal .mks (.fin 0.005) = pure (.fin (-99999)) := by
  rw [(C81_sentinel .mks 0.005 (.inl (by norm_num [Quantity.si, Quantity.scale, Quantity.offset]))).1]
  norm_num [Quantity.user, Quantity.scale, Quantity.offset]

example : ∃ v : ℝ, XSteam.vL_t .ideal .mks (.fin 373.94595) = pure (.fin v) ∧ v < -1e40 := by
  obtain ⟨v, a, -, b⟩ := C81_volume .mks 373.94595 (by norm_num [Quantity.si, Quantity.scale, Quantity.offset])
    (by norm_num [Quantity.si, Quantity.scale, Quantity.offset])
  refine ⟨v, a, ?_⟩
  simpa [Quantity.si, Quantity.scale, Quantity.offset] using b

end PyX
