import Verif.Props.Monotone
import Verif.Lemmas.BarsHigh
import Verif.Lemmas.UnivNat

/-!
# Liquid lies above the saturation line in the plane of enthalpy and entropy

At constant pressure the enthalpy is a convex function of the entropy, whose slope is the temperature. It lies above each of its tangents, and
the tangents move up with the pressure. So it is enough to compare finitely many tangents, taken a little above the saturation pressure,
with the equation for the saturation line, which depends on the entropy only.
-/

namespace PyX.Kron

open Spec Spec.Sat Spec.PT Spec.IF97 PyX Univ

variable {p T : ℝ}

theorem gibbs1 (h : Liquid p T) : Gibbs gamma1.pot gamma1.v gamma1.s gamma1.h gamma1.u gamma1.cp p T :=
  (at1 h).gibbs (by norm_num [gamma1]) (by linarith [h.T0])

theorem s1_mono {T' : ℝ} (h : Liquid p T) (h' : Liquid p T') (hT : T ≤ T') : gamma1.s p T ≤ gamma1.s p T' := by
  rcases hT.eq_or_lt with rfl | hT
  · exact le_rfl
  · exact (s1_lt h h' hT).le

/-- enthalpy lies above the tangent with slope `T'` -/
theorem tangent {T' : ℝ} (h : Liquid p T) (h' : Liquid p T') : gamma1.pot p T' + T' * gamma1.s p T ≤ gamma1.h p T := by
  rw [(gibbs1 h).enthalpy]
  rcases lt_trichotomy T T' with hT | rfl | hT
  · obtain ⟨c, hc, e⟩ := exists_hasDerivAt_eq_slope (fun x => gamma1.pot p x) (fun x => -gamma1.s p x) hT
      (fun x hx => (gibbs1 (h.isobar h' hx.1 hx.2)).entropy.continuousAt.continuousWithinAt)
      (fun x hx => (gibbs1 (h.isobar h' hx.1.le hx.2.le)).entropy)
    have := s1_mono h (h.isobar h' hc.1.le hc.2.le) hc.1.le
    rw [eq_div_iff (by linarith)] at e
    nlinarith
  · exact le_rfl
  · obtain ⟨c, hc, e⟩ := exists_hasDerivAt_eq_slope (fun x => gamma1.pot p x) (fun x => -gamma1.s p x) hT
      (fun x hx => (gibbs1 (h'.isobar h hx.1 hx.2)).entropy.continuousAt.continuousWithinAt)
      (fun x hx => (gibbs1 (h'.isobar h hx.1.le hx.2.le)).entropy)
    have := s1_mono (h'.isobar h hc.1.le hc.2.le) h hc.2.le
    rw [eq_div_iff (by linarith)] at e
    nlinarith

theorem pot_mono {p' : ℝ} (h : Liquid p T) (h' : Liquid p' T) (hp : p ≤ p') : gamma1.pot p T ≤ gamma1.pot p' T := by
  rcases hp.eq_or_lt with rfl | hp
  · exact le_rfl
  · refine (Gamma.lt_of_deriv (f := fun p => gamma1.pot p T) hp (fun x a b => (gibbs1 (h.isotherm h' a b)).volume) fun x a b => ?_).le
    have hx := h.isotherm h' a b
    have hT := h.T0
    have hR := Gamma.R_pos
    have hg := (R1.signs hx).1
    have hps : gamma1.ps = 16.53 := rfl
    have hTs : gamma1.Ts = 1386 := rfl
    have : 0 < gamma1.v x T := by
      rw [Gamma.v, hps, hTs]
      have : 0 < T := by linarith
      positivity
    linarith

/-- `γ + 4 - c/10⁸` for the liquid, up to a factor -/
def eGl (c : ℕ) : E := .sub (.mono ((2000000000000000000000000000000000000000, 0, 17) :: B1.Fp) B1.Fn 32 59)
  (.mono [(Nat.mul c 5000000000000000000000000000000, 0, 17)] [] 32 59)

theorem pot_of_eGl {c : ℕ} (hv : Liquid p T) (h : 0 < (eGl c).eval (7.1 - p / 16.53) (B1.z T)) :
    R * T * (c / 10 ^ 8 - 4) < gamma1.pot p T := by
  have z0 := B1.z_pos hv
  have x0 := B1.x_pos hv
  have hh := sameZ_eq B1.same_F x0.ne' z0.ne'
  have e : (B1.z T)⁻¹ = 1386 / T - 1.222 := inv_inv _
  rw [e] at hh
  simp only [eGl, E.eval, evalN_cons', evalN_nil', Nat.mul_eq] at h
  rw [add_sub_assoc, hh] at h
  push_cast at h
  have h2 : 0 < 500000000000000000000000000000000000000 * (B1.z T ^ 17 *
      (4 + dpoly region1 0 0 (7.1 - p / 16.53) (1386 / T - 1.222) - c / 10 ^ 8)) := by
    refine h.trans_eq ?_
    ring
  have h3 := pos_of_mul_pos_right (pos_of_mul_pos_right h2 (by norm_num)) (by positivity)
  have hT := hv.T0
  have hR := Gamma.R_pos
  have hg : gamma1.pot p T = R * T * dpoly region1 0 0 (7.1 - p / 16.53) (1386 / T - 1.222) := by
    simp only [Gamma.pot, gamma1]
  rw [hg]
  have : 0 < R * T := mul_pos hR (by linarith)
  exact mul_lt_mul_of_pos_left (by linarith) this

/-- `c/10⁸ - s/R` for the liquid, up to a factor -/
def eSl (c : ℕ) : E := .sub (.mono [(Nat.mul c 5000000000000000000000000000000000, 0, 17)] [] 32 59) B1.eS

theorem s1_of_eSl {c : ℕ} (hv : Liquid p T) (h : 0 < (eSl c).eval (7.1 - p / 16.53) (B1.z T)) : gamma1.s p T / R < c / 10 ^ 8 := by
  have z0 := B1.z_pos hv
  simp only [eSl, E.eval, B1.eS_eval hv, evalN_cons', evalN_nil', Nat.mul_eq] at h
  push_cast at h
  have h2 : 0 < 500000000000000000000000000000000000000000 * (B1.z T ^ 17 * (c / 10 ^ 8 - gamma1.s p T / R)) := by
    refine h.trans_eq ?_
    ring
  have := pos_of_mul_pos_right (pos_of_mul_pos_right h2 (by norm_num)) (by positivity)
  linarith

/-- the terms of the equation for the saturated liquid, `h/100 = Σ n (1.09 - s/3.8)^I (s/3.8 + 0.0000366)^J`, times `5·10²⁰`, with positive
coefficients -/
def hsP : List (ℕ × ℕ × ℕ) :=
  [(2823455129494514500000, 0, 14), (5195350503749716000, 0, 36), (74977860707079870000000, 1, 3), (3872839636617625000000, 1, 16),
    (36413886113941105000000, 3, 4), (5241774380283786000000, 3, 36), (2418446679182041500000000, 4, 16), (13165756864489225000000, 7, 1),
    (165313642088597350000000, 8, 4), (274823602576343900000000000, 14, 22), (28200173296702140000000000, 16, 10),
    (48786079447499560000000000000, 20, 28), (1472422643967311500000000, 22, 8), (7094068829465941, 28, 0), (42807012918027290000000, 32, 6),
    (557128069004829250000000, 32, 8)]

/-- and with negative ones -/
def hsM : List (ℕ × ℕ × ℕ) :=
  [(223961264722884200, 2, 0), (190357211975852700000000, 2, 5), (124799576438434000000000, 4, 4), (963887277161274000000000, 4, 24),
    (9832067364673015000000000, 5, 18), (3362185772554262500000000, 5, 24), (30422786853848655000000, 12, 2), (28506400202649615000000, 12,
    4), (5647627768825910000000, 14, 1), (189976069241423950000000000, 20, 12), (309373498803122850000, 24, 3)]

/-- the same with the slope `t/100` -/
def tanM (t : ℕ) : List (ℕ × ℕ × ℕ) := (Nat.mul 190000000000000000 t, 0, 1) :: hsM

/-- a tangent: temperature in 10⁻² K; bounds for the fourth root of the saturation pressure in 10⁻⁸; pressure in 10⁻⁵ MPa; smallest entropy,
in 10⁻⁸ and shifted by 38000; bounds for `γ + 4` and for `s/R`, in 10⁻⁸, with the rectangles on which they are verified; half the lengths of
segments up to the next tangent -/
structure Tan where
  t : ℕ
  b0 : ℕ
  b1 : ℕ
  P : ℕ
  S : ℕ
  g : ℕ
  rg : Rect
  e : ℕ
  rs : Rect
  l : List ℕ

def Tan.Tk (c : Tan) : ℚ := c.t / 100
def Tan.pk (c : Tan) : ℚ := c.P / 100000

def Tan.sat (c : Tan) : Bool :=
  decide (27315 ≤ c.t) && decide (c.t ≤ 62310) && decide (c.P ≤ 10000000) &&
  decide ((c.b0 : ℚ) / 10 ^ 8 ≤ 2.2) && decide (0 ≤ eqQ (c.b0 / 10 ^ 8) (thQ c.Tk)) && decide (c.pk - 1 / 10 ≤ ((c.b0 : ℚ) / 10 ^ 8) ^ 4) &&
  decide (eqQ (c.b1 / 10 ^ 8) (thQ c.Tk) ≤ 0) && decide (((c.b1 : ℚ) / 10 ^ 8) ^ 4 ≤ c.pk)

noncomputable def Tan.tan (c : Tan) : Bool := c.rg.covers1 c.pk c.pk c.Tk c.Tk && c.rg.leaf 5 9 (eGl c.g)

noncomputable def Tan.ent (c d : Tan) : Bool :=
  decide (((d.b1 : ℚ) / 10 ^ 8) ^ 4 ≤ c.pk) && decide (461526 * d.e + 38000000000 ≤ d.S * 1000000) &&
  d.rs.covers1 c.pk d.pk d.Tk d.Tk && d.rs.leaf 5 9 (eSl d.e)

def Tan.line (c d : Tan) : Bool :=
  ncover hsP (tanM c.t) 380000000 48 414238000 24092 (Nat.mul (Nat.mul 230763000000000000000000000 c.t) c.g)
    (Nat.mul 92312154000000000000000000000000000 c.t) 1000000000000000000 c.S c.l d.S

noncomputable def Tan.ok : Tan → List Tan → Bool
  | c, [] => c.sat
  | c, d :: l => c.sat && (c.tan && (Tan.ent c d && (Tan.line c d && Tan.ok d l)))

def Tan.last : Tan → List Tan → Tan
  | c, [] => c
  | _, d :: l => Tan.last d l

theorem Tan.ok_append {c : Tan} {l m : List Tan} (h : Tan.ok c l = true) (h' : Tan.ok (Tan.last c l) m = true) : Tan.ok c (l ++ m) = true := by
  induction l generalizing c with
  | nil => exact h'
  | cons d l ih =>
    simp only [Tan.ok, Bool.and_eq_true, List.cons_append] at h ⊢
    exact ⟨h.1, h.2.1, h.2.2.1, h.2.2.2.1, ih h.2.2.2.2 h'⟩

theorem Tan.last_append (c : Tan) (l m : List Tan) : Tan.last c (l ++ m) = Tan.last (Tan.last c l) m := by
  induction l generalizing c with
  | nil => rfl
  | cons d l ih => exact ih d

theorem Tan.sat_sound {c : Tan} (h : c.sat = true) :
    (273.15 : ℝ) ≤ c.Tk ∧ (c.Tk : ℝ) ≤ 623.1 ∧ (c.pk : ℝ) - 0.1 ≤ psat c.Tk ∧ psat c.Tk ≤ ((c.b1 : ℝ) / 10 ^ 8) ^ 4 ∧ psat c.Tk ≤ c.pk ∧ (c.pk : ℝ) ≤ 100 := by
  simp only [Tan.sat, Bool.and_eq_true, decide_eq_true_eq] at h
  obtain ⟨⟨⟨⟨⟨⟨⟨a1, a2⟩, a0⟩, a3⟩, a4⟩, a5⟩, a6⟩, a7⟩ := h
  have b1 : (27315 : ℝ) ≤ c.t := by exact_mod_cast a1
  have b2 : (c.t : ℝ) ≤ 62310 := by exact_mod_cast a2
  have b0 : (c.P : ℝ) ≤ 10000000 := by exact_mod_cast a0
  have q1 : (27315 : ℚ) ≤ c.t := by exact_mod_cast a1
  have q2 : (c.t : ℚ) ≤ 62310 := by exact_mod_cast a2
  have eT : (c.Tk : ℝ) = c.t / 100 := by simp [Tan.Tk]
  have ep : (c.pk : ℝ) = c.P / 100000 := by simp [Tan.pk]
  have c1 : (273.15 : ℝ) ≤ c.Tk := by rw [eT]; norm_num; linarith
  have c2 : (c.Tk : ℝ) ≤ 623.1 := by rw [eT]; norm_num; linarith
  have l := le_psat (T := (c.Tk : ℝ)) (Tk := c.Tk) (β := c.b0 / 10 ^ 8) (by simp only [Tan.Tk]; linarith) le_rfl (by linarith) (by positivity) a3 a4
  have u := psat_le (T := (c.Tk : ℝ)) (Tk := c.Tk) (β := c.b1 / 10 ^ 8) (by linarith) le_rfl (by simp only [Tan.Tk]; linarith) (by positivity) a6
  have a5' := (Rat.cast_le (K := ℝ)).2 a5
  have a7' := (Rat.cast_le (K := ℝ)).2 a7
  push_cast at l u a5' a7'
  refine ⟨c1, c2, ?_, u, u.trans a7', by rw [ep]; linarith⟩
  norm_num at a5' l ⊢
  linarith

/-- **the state lies above the line**, if its pressure exceeds the saturation pressure by 0.1 MPa -/
theorem Tan.sound {c : Tan} {l : List Tan} (h : Tan.ok c l = true) (hv : Liquid p T) (hp : psat T + 0.1 ≤ p) (h0 : (c.pk : ℝ) ≤ p)
    (h1 : (c.S : ℝ) ≤ 10 ^ 8 * gamma1.s p T + 38000) (h2 : 10 ^ 8 * gamma1.s p T + 38000 < (Tan.last c l).S) :
    100 * (nsum hsP (1.09 - gamma1.s p T / 3.8) (gamma1.s p T / 3.8 + 0.0000366) -
      nsum hsM (1.09 - gamma1.s p T / 3.8) (gamma1.s p T / 3.8 + 0.0000366)) < 500000000000000000000 * gamma1.h p T := by
  induction l generalizing c with
  | nil =>
    simp only [Tan.last] at h2
    linarith
  | cons d l ih =>
    simp only [Tan.ok, Bool.and_eq_true] at h
    obtain ⟨a1, a2, a3, a4, a5⟩ := h
    obtain ⟨s1, s2, s3, s4, s5, s6⟩ := Tan.sat_sound a1
    have ds := Tan.sat_sound (c := d) (by
      cases l with
      | nil => exact a5
      | cons _ _ => simp only [Tan.ok, Bool.and_eq_true] at a5; exact a5.1)
    obtain ⟨d1, d2, d3, d4, d5, d6⟩ := ds
    simp only [Tan.ent, Bool.and_eq_true, decide_eq_true_eq] at a3
    obtain ⟨⟨⟨e1, e2⟩, e3⟩, e4⟩ := a3
    rcases lt_or_ge (10 ^ 8 * gamma1.s p T + 38000) (d.S : ℝ) with hs | hs
    · simp only [Tan.tan, Bool.and_eq_true] at a2
      have hc : Liquid p c.Tk := ⟨hv.p1, s1, by linarith, by linarith⟩
      have hc' : Liquid c.pk c.Tk := ⟨s6, s1, by linarith, s5⟩
      have g := pot_of_eGl hc' (Rect.sound1 a2.1 hc' (by norm_num) (by norm_num) a2.2 le_rfl le_rfl le_rfl le_rfl)
      have t := tangent hv hc
      have m := pot_mono hc' hc h0
      have ey : (380000000 : ℕ) * (gamma1.s p T / 3.8 + 0.0001) = 10 ^ 8 * gamma1.s p T + 38000 := by push_cast; ring
      have cv := ncover_sound (y := gamma1.s p T / 3.8 + 0.0001) (by norm_num) (by decide) (by rfl) a4 (by rw [ey]; exact h1) (by rw [ey]; exact hs)
      have x1 : ((414238000 : ℕ) : ℝ) / (380000000 : ℕ) - (gamma1.s p T / 3.8 + 0.0001) = 1.09 - gamma1.s p T / 3.8 := by
        push_cast; ring
      have x2 : gamma1.s p T / 3.8 + 0.0001 - ((24092 : ℕ) : ℝ) / (380000000 : ℕ) = gamma1.s p T / 3.8 + 0.0000366 := by
        push_cast; ring
      rw [x1, x2] at cv
      simp only [tanM, nsum, pow_zero, pow_one, mul_one, Nat.mul_eq] at cv
      generalize nsum hsP _ _ = W at cv ⊢
      generalize nsum hsM _ _ = W' at cv ⊢
      have eT : (c.Tk : ℝ) = c.t / 100 := by simp [Tan.Tk]
      rw [eT] at t m g
      have hR : R = 0.461526 := rfl
      rw [hR] at g
      push_cast at cv
      have g' := (g.trans_le m)
      linear_combination 1 / 10000000000000000 * cv + 500000000000000000000 * (g' + t)
    · refine ih a5 ?_ hs h2
      by_contra hlt
      rw [not_le] at hlt
      have e1' := (Rat.cast_le (K := ℝ)).2 e1
      push_cast at e1'
      have hd : Liquid p d.Tk := ⟨hv.p1, d1, by linarith, by linarith⟩
      have hT : T ≤ d.Tk := by
        by_contra hT
        rw [not_le] at hT
        have := psat_mono (by linarith [d1]) hT (by linarith [hv.T1])
        linarith
      have sm := s1_mono hv hd hT
      have b := s1_of_eSl hd (Rect.sound1 e3 hd (by norm_num) (by norm_num) e4 h0 hlt.le le_rfl le_rfl)
      have hR : R = 0.461526 := rfl
      rw [hR, div_lt_iff₀ (by norm_num)] at b
      have e2' : 461526 * (d.e : ℝ) + 38000000000 ≤ d.S * 1000000 := by exact_mod_cast e2
      linarith

end PyX.Kron
