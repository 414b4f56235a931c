import Verif.Lemmas.KronTerms
import Verif.Lemmas.SatCurve
import Verif.Spec.RegionPT

/-!
# Rational bounds for the saturation line and the border of region 2, as limits for the sign checker
-/

namespace PyX.Kron

open Spec.Sat Spec.PT

/-! ## The saturation equation over the rationals -/

def eqQ (β ϑ : ℚ) : ℚ :=
  β ^ 2 * ϑ ^ 2 + 1167.0521452767 * β ^ 2 * ϑ + -724213.16703206 * β ^ 2 + -17.073846940092 * β * ϑ ^ 2 +
    12020.82470247 * β * ϑ + -3232555.0322333 * β + 14.91510861353 * ϑ ^ 2 + -4823.2657361591 * ϑ + 405113.40542057

def thQ (T : ℚ) : ℚ := T + -0.23855557567849 / (T - 650.17534844798)

def b23Q (T : ℚ) : ℚ := 348.05185628969 - 1.1671859879975 * T + 0.0010192970039326 * T ^ 2

theorem eqQ_cast (β ϑ : ℚ) : ((eqQ β ϑ : ℚ) : ℝ) = eq29 β ϑ := by
  simp only [eqQ, eq29, n1, n2, n3, n4, n5, n6, n7, n8]
  push_cast
  rfl

theorem thQ_cast (T : ℚ) : ((thQ T : ℚ) : ℝ) = theta T := by
  simp only [thQ, theta, n9, n10]
  push_cast
  rfl

theorem b23Q_cast (T : ℚ) : ((b23Q T : ℚ) : ℝ) = b23 T := by
  simp only [b23Q, b23]
  push_cast
  rfl

/-! ## Bounds for the saturation pressure -/

theorem psat_mono' {T T' : ℝ} (h0 : 165 ≤ T) (h : T ≤ T') (h1 : T' ≤ 647.1) : psat T ≤ psat T' := by
  rcases h.eq_or_lt with rfl | h
  · exact le_rfl
  · exact (psat_mono h0 h h1).le

/-- between the smaller root and 2.2 the equation is negative -/
theorem le_beta {θ β : ℝ} (h0 : 0 ≤ θ) (h1 : θ ≤ 647.3) (hβ : 0 ≤ β) (hβ' : β ≤ 2.2) (h : 0 ≤ eq29 β θ) :
    β ≤ betaOf θ := by
  by_contra hc
  rw [not_le] at hc
  have e := betaOf_eq h0 h1
  have n := eq29_neg h0 h1
  have b := betaOf_pos h0 h1
  have c := satC_pos θ
  rw [eq29_β] at e h
  generalize betaOf θ = r at *
  generalize satA θ = A at *
  generalize satB θ = B at *
  generalize satC θ = C at *
  -- q(0) > 0, q(r) = 0, q(β) ≥ 0, q(2.2) < 0 with 0 < r < β ≤ 2.2
  have h2 : A * β ^ 2 + B * β + C = (β - r) * (A * β - C / r) := by
    field_simp; linear_combination β * e
  have h3 : A * 2.2 ^ 2 + B * 2.2 + C = (2.2 - r) * (A * 2.2 - C / r) := by
    field_simp; linear_combination 2.2 * e
  have q : 0 < C / r := by positivity
  rw [h2] at h
  rw [h3] at n
  have h4 : 0 ≤ A * β - C / r := nonneg_of_mul_nonneg_right h (by linarith)
  have h5 : A * 2.2 - C / r < 0 := by
    by_contra hh
    rw [not_lt] at hh
    have : 0 ≤ (2.2 - r) * (A * 2.2 - C / r) := mul_nonneg (by linarith) hh
    linarith
  have h6 : 0 < A := by
    by_contra hh
    rw [not_lt] at hh
    have : A * β ≤ 0 := mul_nonpos_of_nonpos_of_nonneg hh hβ
    linarith
  have : A * β ≤ A * 2.2 := mul_le_mul_of_nonneg_left hβ' h6.le
  linarith

theorem beta_le {θ β : ℝ} (h0 : 0 ≤ θ) (h1 : θ ≤ 647.3) (hβ : 0 ≤ β) (h : eq29 β θ ≤ 0) : betaOf θ ≤ β := by
  by_contra hc
  rw [not_le] at hc
  have e := betaOf_eq h0 h1
  have n := eq29_neg h0 h1
  have b := betaOf_pos h0 h1
  have b' := betaOf_lt h0 h1
  have c := satC_pos θ
  rw [eq29_β] at e h
  generalize betaOf θ = r at *
  generalize satA θ = A at *
  generalize satB θ = B at *
  generalize satC θ = C at *
  have h2 : A * β ^ 2 + B * β + C = (r - β) * (C / r - A * β) := by
    field_simp; linear_combination β * e
  have h3 : A * 2.2 ^ 2 + B * 2.2 + C = (2.2 - r) * (A * 2.2 - C / r) := by
    field_simp; linear_combination 2.2 * e
  have q : 0 < C / r := by positivity
  rw [h2] at h
  rw [h3] at n
  have h4 : C / r - A * β ≤ 0 := by
    by_contra hh
    rw [not_le] at hh
    have := mul_pos (sub_pos.2 hc) hh
    linarith
  have h5 : A * 2.2 - C / r < 0 := by
    by_contra hh
    rw [not_lt] at hh
    have : 0 ≤ (2.2 - r) * (A * 2.2 - C / r) := mul_nonneg (by linarith) hh
    linarith
  have h6 : 0 < A := by
    by_contra hh
    rw [not_lt] at hh
    have : A * β ≤ 0 := mul_nonpos_of_nonpos_of_nonneg hh hβ
    linarith
  have : A * β ≤ A * 2.2 := mul_le_mul_of_nonneg_left (by linarith) h6.le
  linarith

theorem psat_le {T : ℝ} {Tk β : ℚ} (h0 : 165 ≤ T) (h : T ≤ Tk) (h1 : Tk ≤ 647) (hβ : 0 ≤ β)
    (hq : eqQ β (thQ Tk) ≤ 0) : psat T ≤ (β : ℝ) ^ 4 := by
  have h1' : (Tk : ℝ) ≤ 647 := by exact_mod_cast h1
  refine (psat_mono' h0 h (by linarith)).trans ?_
  have g : (Tk : ℝ) < n10 := by norm_num [n10]; linarith
  have t0 := theta_gt g
  have t1 := theta_le (T := (Tk : ℝ)) (by linarith)
  have hq' : eq29 β (theta Tk) ≤ 0 := by
    rw [← thQ_cast, ← eqQ_cast]; exact_mod_cast hq
  have hβ' : (0 : ℝ) ≤ β := by exact_mod_cast hβ
  exact pow_le_pow_left₀ (betaOf_pos (by linarith) t1).le (beta_le (by linarith) t1 hβ' hq') 4

theorem le_psat {T : ℝ} {Tk β : ℚ} (h0 : 165 ≤ Tk) (h : (Tk : ℝ) ≤ T) (h1 : T ≤ 647) (hβ : 0 ≤ β) (hβ2 : β ≤ 2.2)
    (hq : 0 ≤ eqQ β (thQ Tk)) : (β : ℝ) ^ 4 ≤ psat T := by
  have h0' : (165 : ℝ) ≤ Tk := by exact_mod_cast h0
  refine le_trans ?_ (psat_mono' h0' h (by linarith))
  have g : (Tk : ℝ) < n10 := by norm_num [n10]; linarith
  have t0 := theta_gt g
  have t1 := theta_le (T := (Tk : ℝ)) (by linarith)
  have hq' : 0 ≤ eq29 β (theta Tk) := by
    rw [← thQ_cast, ← eqQ_cast]; exact_mod_cast hq
  have hβ' : (0 : ℝ) ≤ β := by exact_mod_cast hβ
  have hβ2' : (β : ℝ) ≤ 2.2 := by
    have : ((β : ℚ) : ℝ) ≤ ((2.2 : ℚ) : ℝ) := by exact_mod_cast hβ2
    norm_num at this ⊢; exact this
  exact pow_le_pow_left₀ hβ' (le_beta (by linarith) t1 hβ' hβ2' hq') 4

/-! ## Vapour: `x = p`, `y = 540/T - 1/2` -/

/-- where the equation of region 2 is used -/
structure Vapour (p T : ℝ) : Prop where
  p0 : 0 < p
  p1 : p ≤ 100
  T0 : 273.15 ≤ T
  T1 : T ≤ 1073.15
  sat : T ≤ 623.15 → p ≤ psat T
  border : 623.15 < T → p ≤ b23 T

def chk2 : List Lim → List ℕ → Bool
  | [], _ => true
  | _ :: _, [] => false
  | ⟨up, xn, xd, yn, yd⟩ :: ls, b :: bs =>
    up && decide (0 < yd) &&
    (if (540 / ((yn : ℚ) / yd + 1 / 2)) ≤ 623.15 then
      decide (eqQ ((b : ℚ) / 10 ^ 8) (thQ (540 / ((yn : ℚ) / yd + 1 / 2))) ≤ 0) &&
        decide (((b : ℚ) / 10 ^ 8) ^ 4 * xd ≤ xn)
    else decide (b23Q (540 / ((yn : ℚ) / yd + 1 / 2)) * xd ≤ xn) && decide (16.53 * (xd : ℚ) ≤ xn)) && chk2 ls bs

theorem psat_350 : psat 623.15 ≤ 16.53 := by
  have h := psat_le (T := 623.15) (Tk := 623.15) (β := 2.01635) (by norm_num) (by norm_num) (by norm_num) (by norm_num)
    (by norm_num [eqQ, thQ])
  norm_num at h ⊢
  linarith

theorem b23_mono {T T' : ℝ} (h0 : 600 ≤ T) (h : T ≤ T') : b23 T ≤ b23 T' := by
  simp only [b23]; nlinarith

theorem chk2_sound {ls : List Lim} {bs : List ℕ} (h : chk2 ls bs = true) {p T : ℝ} (hv : Vapour p T) :
    ∀ l ∈ ls, l.Holds p (540 / T - 1 / 2) := by
  obtain ⟨p0, p1, T0, T1, sat, border⟩ := hv
  have hT : 0 < T := by linarith
  induction ls generalizing bs with
  | nil => intro l hl; cases hl
  | cons l ls ih =>
    cases bs with
    | nil => simp [chk2] at h
    | cons b bs =>
    obtain ⟨up, xn, xd, yn, yd⟩ := l
    simp only [chk2, Bool.and_eq_true, decide_eq_true_eq] at h
    obtain ⟨⟨⟨hup, hyd⟩, hc⟩, hr⟩ := h
    intro l hl
    rcases List.mem_cons.1 hl with rfl | hl
    swap
    · exact ih hr l hl
    refine ⟨fun _ hy => ?_, fun hh => ?_⟩
    swap
    · simp only at hh; rw [hup] at hh; cases hh
    simp only at hy ⊢
    have hyd' : (0 : ℝ) < yd := by exact_mod_cast hyd
    have hxd : (0 : ℝ) ≤ xd := Nat.cast_nonneg _
    have hTk : T ≤ ((540 / ((yn : ℚ) / yd + 1 / 2) : ℚ) : ℝ) := by
      push_cast
      have : (yn : ℝ) / yd + 1 / 2 ≤ 540 / T := by
        have := (div_le_iff₀ hyd').2 hy
        linarith
      rw [le_div_iff₀ (by positivity)]
      have h3 := mul_le_mul_of_nonneg_right this hT.le
      rw [div_mul_cancel₀ _ hT.ne'] at h3
      linarith
    split_ifs at hc with hcase
    · simp only [Bool.and_eq_true, decide_eq_true_eq] at hc
      obtain ⟨c1, c2⟩ := hc
      have c2' : ((b : ℝ) / 10 ^ 8) ^ 4 * xd ≤ xn := by
        have : (((((b : ℚ) / 10 ^ 8) ^ 4 * xd : ℚ)) : ℝ) ≤ ((xn : ℚ) : ℝ) := Rat.cast_le.2 c2
        push_cast at this; exact this
      have hcase' : ((540 / ((yn : ℚ) / yd + 1 / 2) : ℚ) : ℝ) ≤ 623.15 := by
        have : ((540 / ((yn : ℚ) / yd + 1 / 2) : ℚ) : ℝ) ≤ ((623.15 : ℚ) : ℝ) := by exact_mod_cast hcase
        norm_num at this ⊢; exact this
      have h4 := psat_le (T := T) (by linarith) hTk (hcase.trans (by norm_num)) (by positivity) c1
      push_cast at h4
      have := sat (hTk.trans hcase')
      calc p * xd ≤ ((b : ℝ) / 10 ^ 8) ^ 4 * xd := by gcongr; exact this.trans h4
        _ ≤ xn := c2'
    · simp only [Bool.and_eq_true, decide_eq_true_eq] at hc
      obtain ⟨c1, c2⟩ := hc
      have c2' : 16.53 * (xd : ℝ) ≤ xn := by
        have : (((16.53 : ℚ) * xd : ℚ) : ℝ) ≤ ((xn : ℚ) : ℝ) := by exact_mod_cast c2
        push_cast at this; norm_num at this ⊢; linarith
      have c1' : b23 ((540 / ((yn : ℚ) / yd + 1 / 2) : ℚ) : ℝ) * xd ≤ xn := by
        rw [← b23Q_cast]; exact_mod_cast c1
      rcases le_or_gt T 623.15 with hlow | hhigh
      · have := sat hlow
        have h5 := psat_mono' (by linarith) hlow (by norm_num)
        have h6 := psat_350
        calc p * xd ≤ 16.53 * xd := by gcongr; linarith
          _ ≤ xn := c2'
      · have := border hhigh
        have h5 := b23_mono (by linarith) hTk
        calc p * xd ≤ b23 ((540 / ((yn : ℚ) / yd + 1 / 2) : ℚ) : ℝ) * xd := by gcongr; linarith
          _ ≤ xn := c1'

/-! ## Liquid: `x = 7.1 - p/16.53`, `y = 1386/T - 1.222` -/

/-- where the equation of region 1 is used -/
structure Liquid (p T : ℝ) : Prop where
  p1 : p ≤ 100
  T0 : 273.15 ≤ T
  T1 : T ≤ 623.2
  sat : psat T ≤ p

def chk1 : List Lim → List ℕ → Bool
  | [], _ => true
  | _ :: _, [] => false
  | ⟨up, xn, xd, yn, yd⟩ :: ls, b :: bs =>
    !up && decide (0 < yd) && decide (165 ≤ 1386 / ((yn : ℚ) / yd + 1.222)) &&
    decide ((b : ℚ) / 10 ^ 8 ≤ 2.2) && decide (0 ≤ eqQ ((b : ℚ) / 10 ^ 8) (thQ (1386 / ((yn : ℚ) / yd + 1.222)))) &&
    decide ((7.1 - ((b : ℚ) / 10 ^ 8) ^ 4 / 16.53) * xd ≤ xn) && chk1 ls bs

theorem chk1_sound {ls : List Lim} {bs : List ℕ} (h : chk1 ls bs = true) {p T : ℝ} (hv : Liquid p T) :
    ∀ l ∈ ls, l.Holds (7.1 - p / 16.53) (1386 / T - 1.222) := by
  obtain ⟨p1, T0, T1, sat⟩ := hv
  have hT : 0 < T := by linarith
  induction ls generalizing bs with
  | nil => intro l hl; cases hl
  | cons l ls ih =>
    cases bs with
    | nil => simp [chk1] at h
    | cons b bs =>
    obtain ⟨up, xn, xd, yn, yd⟩ := l
    simp only [chk1, Bool.and_eq_true, decide_eq_true_eq, Bool.not_eq_true'] at h
    obtain ⟨⟨⟨⟨⟨⟨hup, hyd⟩, hlo⟩, hb⟩, hc⟩, hx⟩, hr⟩ := h
    intro l hl
    rcases List.mem_cons.1 hl with rfl | hl
    swap
    · exact ih hr l hl
    refine ⟨fun hh => ?_, fun _ hy => ?_⟩
    · simp only at hh; rw [hup] at hh; cases hh
    simp only at hy ⊢
    have hyd' : (0 : ℝ) < yd := by exact_mod_cast hyd
    have hxd : (0 : ℝ) ≤ xd := Nat.cast_nonneg _
    have hTk : ((1386 / ((yn : ℚ) / yd + 1.222) : ℚ) : ℝ) ≤ T := by
      push_cast
      have h2 : 1386 / T ≤ (yn : ℝ) / yd + 1.222 := by
        have := (le_div_iff₀ hyd').2 hy
        linarith
      have h3 : (0 : ℝ) < (yn : ℝ) / yd + 1.222 := by positivity
      rw [div_le_iff₀ hT] at h2
      rw [div_le_iff₀ h3]
      linarith
    have h4 := le_psat hlo hTk (by linarith) (by positivity) hb hc
    push_cast at h4
    have hx' : (7.1 - ((b : ℝ) / 10 ^ 8) ^ 4 / 16.53) * xd ≤ xn := by
      have : (((7.1 - ((b : ℚ) / 10 ^ 8) ^ 4 / 16.53) * xd : ℚ) : ℝ) ≤ ((xn : ℚ) : ℝ) := by exact_mod_cast hx
      push_cast at this; norm_num at this ⊢; linarith
    refine le_trans ?_ hx'
    gcongr
    exact h4.trans sat

end PyX.Kron
