import Verif.Lemmas.Back1
import Verif.Lemmas.Back2
import Verif.Lemmas.LogCert

/-!
# Inequalities along the saturation line and the border of region 2

The line is cut into pieces; on each piece pressure and temperature lie in a rectangle, on which `leaf` checks a
polynomial inequality, with the logarithm of the pressure replaced by its value at one end.
-/

namespace PyX.Kron

open Spec.Sat Spec.PT Spec.IF97 PyX

/-- `[a/A, (a+b)/A] × [c/C, (c+d)/C]` -/
structure Rect where
  a : ℕ
  b : ℕ
  A : ℕ
  c : ℕ
  d : ℕ
  C : ℕ

noncomputable def Rect.leaf (r : Rect) (mx my : ℕ) (e : E) : Bool :=
  and e.ok (Kron.leaf mx my e r.a r.b r.A r.c r.d r.C)

/-- the rectangle contains all points with these pressures and temperatures, in the coordinates of region 1 -/
def Rect.covers1 (r : Rect) (p0 p1 t0 t1 : ℚ) : Bool :=
  decide (0 < r.A) && decide (0 < r.C) && decide (0 < t0) && decide (t1 ≤ 1000) &&
  decide ((r.a : ℚ) / r.A ≤ 7.1 - p1 / 16.53) && decide (7.1 - p0 / 16.53 ≤ ((r.a : ℚ) + r.b) / r.A) &&
  decide ((r.c : ℚ) / r.C ≤ t0 / (1386 - 1.222 * t0)) && decide (t1 / (1386 - 1.222 * t1) ≤ ((r.c : ℚ) + r.d) / r.C)

/-- the same in the coordinates of region 2 -/
def Rect.covers2 (r : Rect) (p0 p1 t0 t1 : ℚ) : Bool :=
  decide (0 < r.A) && decide (0 < r.C) && decide (0 < t0) &&
  decide ((r.a : ℚ) / r.A ≤ p0) && decide (p1 ≤ ((r.a : ℚ) + r.b) / r.A) &&
  decide ((r.c : ℚ) / r.C ≤ 540 / t1 - 1 / 2) && decide (540 / t0 - 1 / 2 ≤ ((r.c : ℚ) + r.d) / r.C)

theorem Rect.leaf_sound {r : Rect} {mx my : ℕ} (hx : 1 ≤ mx) (hy : 1 ≤ my) {e : E} (h : r.leaf mx my e = true) (hA : 0 < r.A)
    (hC : 0 < r.C) {x y : ℝ} (x0 : (r.a : ℝ) / r.A ≤ x) (x1 : x ≤ ((r.a : ℝ) + r.b) / r.A) (y0 : (r.c : ℝ) / r.C ≤ y)
    (y1 : y ≤ ((r.c : ℝ) + r.d) / r.C) : 0 < e.eval x y := by
  simp only [Rect.leaf, Bool.and_eq_true] at h
  obtain ⟨ok, h⟩ := h
  have hA' : (0 : ℝ) < r.A := by exact_mod_cast hA
  have hC' : (0 : ℝ) < r.C := by exact_mod_cast hC
  have par : ∀ {a b : ℕ} {A x : ℝ}, 0 < A → (a : ℝ) / A ≤ x → x ≤ ((a : ℝ) + b) / A →
      ∃ s : ℝ, 0 ≤ s ∧ s ≤ 1 ∧ x = (a + b * s) / A := by
    intro a b A x hA h0 h1
    rw [div_le_iff₀ hA] at h0
    rw [le_div_iff₀ hA] at h1
    rcases Nat.eq_zero_or_pos b with rfl | hb
    · refine ⟨0, le_rfl, zero_le_one, ?_⟩
      rw [eq_div_iff hA.ne']
      simp at h1 ⊢
      linarith
    · have hb' : (0 : ℝ) < b := by exact_mod_cast hb
      refine ⟨(x * A - a) / b, div_nonneg (by linarith) hb'.le, (div_le_one hb').2 (by linarith), ?_⟩
      field_simp
      ring
  obtain ⟨s, s0, s1, rfl⟩ := par hA' x0 x1
  obtain ⟨t, t0, t1, rfl⟩ := par hC' y0 y1
  exact Kron.leaf_sound hx hy ok h s0 s1 t0 t1

variable {p T : ℝ}

theorem z_eq (hv : Liquid p T) : B1.z T = T / (1386 - 1.222 * T) := by
  have hT : 0 < T := by linarith [hv.T0]
  have := hv.T1
  have : 0 < 1386 - 1.222 * T := by linarith
  rw [B1.z, inv_eq_one_div, div_eq_div_iff (by have := B1.y_pos hv; linarith) this.ne']
  field_simp

theorem Rect.sound1 {r : Rect} {p0 p1 t0 t1 : ℚ} (hr : r.covers1 p0 p1 t0 t1 = true) (hv : Liquid p T) {mx my : ℕ} (hx : 1 ≤ mx) (hy : 1 ≤ my)
    {e : E} (h : r.leaf mx my e = true) (h1 : (p0 : ℝ) ≤ p) (h2 : p ≤ p1) (h3 : (t0 : ℝ) ≤ T) (h4 : T ≤ t1) :
    0 < e.eval (7.1 - p / 16.53) (B1.z T) := by
  simp only [Rect.covers1, Bool.and_eq_true, decide_eq_true_eq] at hr
  obtain ⟨⟨⟨⟨⟨⟨⟨hA, hC⟩, ht⟩, ht1⟩, a1⟩, a2⟩, a3⟩, a4⟩ := hr
  have c1 := (Rat.cast_le (K := ℝ)).2 a1
  have c2 := (Rat.cast_le (K := ℝ)).2 a2
  have c3 := (Rat.cast_le (K := ℝ)).2 a3
  have c4 := (Rat.cast_le (K := ℝ)).2 a4
  have c5 := (Rat.cast_lt (K := ℝ)).2 ht
  have c6 := (Rat.cast_le (K := ℝ)).2 ht1
  push_cast at c1 c2 c3 c4 c5 c6
  have hT : 0 < T := by linarith [hv.T0]
  have hT1 := hv.T1
  refine r.leaf_sound hx hy h hA hC (c1.trans ?_) (le_trans ?_ c2) (c3.trans ?_) (le_trans ?_ c4)
  · have := div_le_div_of_nonneg_right h2 (show (0 : ℝ) ≤ 16.53 by norm_num)
    linarith
  · have := div_le_div_of_nonneg_right h1 (show (0 : ℝ) ≤ 16.53 by norm_num)
    linarith
  · rw [z_eq hv]
    exact div_le_div₀ hT.le h3 (by linarith) (by linarith)
  · rw [z_eq hv]
    exact div_le_div₀ (by linarith) h4 (by linarith) (by linarith)

theorem Rect.sound2 {r : Rect} {p0 p1 t0 t1 : ℚ} (hr : r.covers2 p0 p1 t0 t1 = true) {mx my : ℕ} (hx : 1 ≤ mx) (hy : 1 ≤ my)
    {e : E} (h : r.leaf mx my e = true) (h1 : (p0 : ℝ) ≤ p) (h2 : p ≤ p1) (h3 : (t0 : ℝ) ≤ T) (h4 : T ≤ t1) :
    0 < e.eval p (540 / T - 1 / 2) := by
  simp only [Rect.covers2, Bool.and_eq_true, decide_eq_true_eq] at hr
  obtain ⟨⟨⟨⟨⟨⟨hA, hC⟩, ht⟩, a1⟩, a2⟩, a3⟩, a4⟩ := hr
  have c1 := (Rat.cast_le (K := ℝ)).2 a1
  have c2 := (Rat.cast_le (K := ℝ)).2 a2
  have c3 := (Rat.cast_le (K := ℝ)).2 a3
  have c4 := (Rat.cast_le (K := ℝ)).2 a4
  have c5 := (Rat.cast_lt (K := ℝ)).2 ht
  push_cast at c1 c2 c3 c4 c5
  have hT : 0 < T := by linarith
  refine r.leaf_sound hx hy h hA hC (c1.trans h1) (h2.trans c2) (c3.trans ?_) (le_trans ?_ c4)
  · have := div_le_div_of_nonneg_left (show (0 : ℝ) ≤ 540 by norm_num) hT h4
    linarith
  · have := div_le_div_of_nonneg_left (show (0 : ℝ) ≤ 540 by norm_num) c5 h3
    linarith

/-- a piece of the saturation line: temperatures in 10⁻² K, fourth roots of pressures in 10⁻⁸, a constant, a rectangle -/
structure Cell where
  t0 : ℕ
  t1 : ℕ
  b0 : ℕ
  b1 : ℕ
  k1 : ℕ
  k2 : ℕ
  c : ℕ
  r : Rect

def Cell.T0 (c : Cell) : ℚ := c.t0 / 100
def Cell.T1 (c : Cell) : ℚ := c.t1 / 100
def Cell.β0 (c : Cell) : ℚ := c.b0 / 10 ^ 8
def Cell.β1 (c : Cell) : ℚ := c.b1 / 10 ^ 8

def Cell.sat (c : Cell) : Bool :=
  decide (165 ≤ c.T0) && decide (c.T1 ≤ 647) && decide (0 < c.b0) && decide (0 < c.b1) && decide (c.β0 ≤ 2.2) &&
    decide (0 ≤ eqQ c.β0 (thQ c.T0)) && decide (eqQ c.β1 (thQ c.T1) ≤ 0)

theorem Cell.sat_sound {c : Cell} (h : c.sat = true) (h0 : (c.T0 : ℝ) ≤ T) (h1 : T ≤ c.T1) :
    (c.β0 : ℝ) ^ 4 ≤ psat T ∧ psat T ≤ (c.β1 : ℝ) ^ 4 := by
  simp only [Cell.sat, Bool.and_eq_true, decide_eq_true_eq] at h
  obtain ⟨⟨⟨⟨⟨⟨a1, a2⟩, a3⟩, a4⟩, a5⟩, a6⟩, a7⟩ := h
  have b0 : 0 ≤ c.β0 := by unfold Cell.β0; positivity
  have b1 : 0 ≤ c.β1 := by unfold Cell.β1; positivity
  have a1' := (Rat.cast_le (K := ℝ)).2 a1
  have a2' := (Rat.cast_le (K := ℝ)).2 a2
  push_cast at a1' a2'
  exact ⟨le_psat a1 h0 (by linarith) b0 a5 a6, psat_le (by linarith) h1 a2 b1 a7⟩

/-- consecutive pieces from `s` to `e` -/
def chain : ℕ → List Cell → ℕ → Bool
  | s, [], e => Nat.beq s e
  | s, c :: cs, e => Nat.beq c.t0 s && chain c.t1 cs e

theorem chain_sound {cs : List Cell} {s e : ℕ} (h : chain s cs e = true) (h0 : (s : ℝ) / 100 ≤ T) (h1 : T < (e : ℝ) / 100) :
    ∃ c ∈ cs, (c.T0 : ℝ) ≤ T ∧ T ≤ c.T1 := by
  induction cs generalizing s with
  | nil =>
    have := Nat.eq_of_beq_eq_true h
    subst this
    linarith
  | cons c cs ih =>
    simp only [chain, Bool.and_eq_true] at h
    have hs := Nat.eq_of_beq_eq_true h.1
    rcases le_or_gt T ((c.t1 : ℝ) / 100) with h2 | h2
    · refine ⟨c, List.mem_cons_self, ?_, ?_⟩
      · simp only [Cell.T0]; push_cast; rw [hs]; exact h0
      · simp only [Cell.T1]; push_cast; exact h2
    · obtain ⟨d, hd, h3⟩ := ih h.2 h2.le
      exact ⟨d, List.mem_cons_of_mem _ hd, h3⟩

def allOk (f : Cell → Bool) : List Cell → Bool
  | [] => true
  | c :: cs => f c && allOk f cs

theorem allOk_sound {f : Cell → Bool} {cs : List Cell} (h : allOk f cs = true) {c : Cell} (hc : c ∈ cs) : f c = true := by
  induction cs with
  | nil => cases hc
  | cons d cs ih =>
    simp only [allOk, Bool.and_eq_true] at h
    rcases List.mem_cons.1 hc with rfl | hc
    · exact h.1
    · exact ih h.2 hc

/-! ## Liquid: enthalpy against `109.6635 ln p + 40.3481 p + 834.58` -/

/-- `25·10⁹·z¹⁶·((c/100 + 40.3481 p)/2500 + 1 - (h/2500 + 1))`, up to a factor -/
def eL (c : ℕ) : E := .sub
  (.mul (.mono [(Nat.add (Nat.mul c 100000) 72353740603, 0, 0)] [(6669540930, 1, 0)] 1 0) (.mono [(312500000000000000000000000000000000000000000000, 0, 16)] [] 31 58))
  (.mul (cst 25000000000) B1.qh.n)

theorem eL_eval (hv : Liquid p T) (c : ℕ) : (eL c).eval (7.1 - p / 16.53) (B1.z T) =
    3125000000000000000000000000000000000000000000000000000 * (B1.z T ^ 16 * (c / 100 + 40.3481 * p - gamma1.h p T)) := by
  have z0 := B1.z_pos hv
  have h := B1.qh_eval hv
  have e : B1.qh.n.eval (7.1 - p / 16.53) (B1.z T) = (gamma1.h p T / 2500 + 1) * evalN B1.qh.l (7.1 - p / 16.53) (B1.z T) := by
    rw [← h, Quot.eval, div_mul_cancel₀]
    simp only [B1.qh, evalN_cons', evalN_nil']
    positivity
  simp only [eL, E.eval, eval_cst, evalN_cons', evalN_nil', Nat.add_eq, Nat.mul_eq]
  rw [e]
  simp only [B1.qh, evalN_cons', evalN_nil']
  push_cast
  ring

noncomputable def Cell.okL (c : Cell) : Bool := c.sat &&
  decide ((c.c : ℚ) / 100 ≤ 834.58 + 109.6635 * (4 * ((lnQ c.k1 c.k2 c.b0 (10 ^ 8)).1 : ℚ) / 2 ^ 48)) &&
  c.r.covers1 (c.β0 ^ 4) (c.β1 ^ 4) c.T0 c.T1 && c.r.leaf 5 9 (eL c.c)

theorem Cell.okL_sound {c : Cell} (h : c.okL = true) (hv : Liquid (psat T) T) (h0 : (c.T0 : ℝ) ≤ T) (h1 : T ≤ c.T1) :
    gamma1.h (psat T) T < 109.6635 * Real.log (psat T) + 40.3481 * psat T + 834.58 := by
  simp only [Cell.okL, Bool.and_eq_true, decide_eq_true_eq] at h
  obtain ⟨⟨⟨a1, a2⟩, a3⟩, a4⟩ := h
  obtain ⟨b1, b2⟩ := Cell.sat_sound a1 h0 h1
  have hb : 0 < c.b0 := by
    simp only [Cell.sat, Bool.and_eq_true, decide_eq_true_eq] at a1
    exact a1.1.1.1.1.2
  have hb' : (0 : ℝ) < c.b0 := by exact_mod_cast hb
  have hβ : (0 : ℝ) < c.β0 := by simp only [Cell.β0]; push_cast; positivity
  have l1 := Real.log_le_log (by positivity) b1
  have l2 := (lnQ_sound c.k1 c.k2 (a := c.b0) (A := 10 ^ 8) hb (by norm_num)).1
  have e : Real.log ((c.β0 : ℝ) ^ 4) = 4 * Real.log ((c.b0 : ℝ) / (10 ^ 8 : ℕ)) := by
    rw [Real.log_pow]
    simp only [Cell.β0]; push_cast; norm_num
  rw [e] at l1
  have a2' := (Rat.cast_le (K := ℝ)).2 a2
  push_cast at a2'
  have hl := Rect.sound1 a3 hv (by norm_num) (by norm_num) a4 (by push_cast; exact b1) (by push_cast; exact b2) h0 h1
  rw [eL_eval hv] at hl
  have z0 := B1.z_pos hv
  have := pos_of_mul_pos_right (pos_of_mul_pos_right hl (by norm_num)) (by positivity)
  generalize ((lnQ c.k1 c.k2 c.b0 (10 ^ 8)).1 : ℝ) = q at *
  have l3 : q / 2 ^ 48 ≤ Real.log ((c.b0 : ℝ) / (10 ^ 8 : ℕ)) := by rw [div_le_iff₀ (by norm_num)]; linarith
  linarith

/-! ## Vapour: enthalpy against `45.1768 ln p - 20.158 p + 2754.4` -/

/-- the denominator of `B2.qh` -/
def den2 : List Mono :=
  [(50000000000000000000000000000000000000000000000000, 0, 0), (600000000000000000000000000000000000000000000000000, 0, 1), (3000000000000000000000000000000000000000000000000000, 0, 2), (8000000000000000000000000000000000000000000000000000, 0, 3), (12000000000000000000000000000000000000000000000000000, 0, 4), (9600000000000000000000000000000000000000000000000000, 0, 5), (3200000000000000000000000000000000000000000000000000, 0, 6)]

theorem den2_pos (x : ℝ) {y : ℝ} (hy : 0 < y) : 0 < evalN den2 x y := by
  simp only [den2, evalN_cons', evalN_nil']
  push_cast
  positivity

theorem qh2_n (hv : Vapour p T) : B2.qh.n.eval p (540 / T - 1 / 2) = gamma2.h p T / 2000 * evalN den2 p (540 / T - 1 / 2) := by
  have e : B2.qh.l = den2 := rfl
  rw [← B2.qh_eval hv, Quot.eval, e, div_mul_cancel₀]
  exact (den2_pos p (B2.y_pos hv)).ne'

/-- `1000 (h + 20.158 p - c/100)`, up to a factor -/
def eV (c : ℕ) : E := .sub
  (.add (.mul (cst 2000000) B2.qh.n) (.mul (.mono [(20158, 1, 0)] [] 1 0) (.mono den2 [] 23 63)))
  (.mul (cst (Nat.mul 10 c)) (.mono den2 [] 24 63))

theorem eV_eval (hv : Vapour p T) (c : ℕ) : (eV c).eval p (540 / T - 1 / 2) =
    evalN den2 p (540 / T - 1 / 2) * (1000 * (gamma2.h p T + 20.158 * p - c / 100)) := by
  simp only [eV, E.eval, eval_cst, qh2_n hv, Nat.mul_eq]
  simp only [evalN_cons', evalN_nil']
  push_cast
  ring

noncomputable def Cell.okV (c : Cell) : Bool := c.sat &&
  decide (2754.4 + 45.1768 * (4 * ((lnQ c.k1 c.k2 c.b1 (10 ^ 8)).2 : ℚ) / 2 ^ 48) ≤ (c.c : ℚ) / 100) &&
  c.r.covers2 (c.β0 ^ 4) (c.β1 ^ 4) c.T0 c.T1 && c.r.leaf 5 9 (eV c.c)

theorem Cell.okV_sound {c : Cell} (h : c.okV = true) (hv : Vapour (psat T) T) (h0 : (c.T0 : ℝ) ≤ T) (h1 : T ≤ c.T1) :
    45.1768 * Real.log (psat T) - 20.158 * psat T + 2754.4 < gamma2.h (psat T) T := by
  simp only [Cell.okV, Bool.and_eq_true, decide_eq_true_eq] at h
  obtain ⟨⟨⟨a1, a2⟩, a3⟩, a4⟩ := h
  obtain ⟨b1, b2⟩ := Cell.sat_sound a1 h0 h1
  have hb : 0 < c.b1 := by
    simp only [Cell.sat, Bool.and_eq_true, decide_eq_true_eq] at a1
    exact a1.1.1.1.2
  have l1 := Real.log_le_log hv.p0 b2
  have l2 := (lnQ_sound c.k1 c.k2 (a := c.b1) (A := 10 ^ 8) hb (by norm_num)).2
  have e : Real.log ((c.β1 : ℝ) ^ 4) = 4 * Real.log ((c.b1 : ℝ) / (10 ^ 8 : ℕ)) := by
    rw [Real.log_pow]
    simp only [Cell.β1]; push_cast; norm_num
  rw [e] at l1
  have a2' := (Rat.cast_le (K := ℝ)).2 a2
  push_cast at a2'
  have hl := Rect.sound2 a3 (by norm_num) (by norm_num) a4 (by push_cast; exact b1) (by push_cast; exact b2) h0 h1
  rw [eV_eval hv] at hl
  have := pos_of_mul_pos_right hl (den2_pos (psat T) (B2.y_pos hv)).le
  generalize ((lnQ c.k1 c.k2 c.b1 (10 ^ 8)).2 : ℝ) = q at *
  have l3 : Real.log ((c.b1 : ℝ) / (10 ^ 8 : ℕ)) ≤ q / 2 ^ 48 := by rw [le_div_iff₀ (by norm_num)]; linarith
  linarith

/-! ## The opposite bounds -/

theorem qh1_n (hv : Liquid p T) : B1.qh.n.eval (7.1 - p / 16.53) (B1.z T) =
    (gamma1.h p T / 2500 + 1) * (312500000000000000000000000000000000000000000000 * B1.z T ^ 16) := by
  have z0 := B1.z_pos hv
  rw [← B1.qh_eval hv, Quot.eval]
  have e : evalN B1.qh.l (7.1 - p / 16.53) (B1.z T) = 312500000000000000000000000000000000000000000000 * B1.z T ^ 16 := by
    simp only [B1.qh, evalN_cons', evalN_nil']
    push_cast
    ring
  rw [e, div_mul_cancel₀]
  positivity

/-- `h - 40.3481 p - c/100 + 1000`, up to a factor -/
def eLd (c : ℕ) : E := .sub
  (.mul (cst 25000000000) B1.qh.n)
  (.mul (.mono [(Nat.add (Nat.mul c 100000) 62353740603, 0, 0)] [(6669540930, 1, 0)] 1 0) (.mono [(312500000000000000000000000000000000000000000000, 0, 16)] [] 31 58))

theorem eLd_eval (hv : Liquid p T) (c : ℕ) : (eLd c).eval (7.1 - p / 16.53) (B1.z T) =
    3125000000000000000000000000000000000000000000000000000 * (B1.z T ^ 16 * (gamma1.h p T - 40.3481 * p - c / 100 + 1000)) := by
  simp only [eLd, E.eval, eval_cst, qh1_n hv, evalN_cons', evalN_nil', Nat.add_eq, Nat.mul_eq]
  push_cast
  ring

noncomputable def Cell.okLd (c : Cell) : Bool := c.sat &&
  decide (1634.58 + 109.6635 * (4 * ((lnQ c.k1 c.k2 c.b1 (10 ^ 8)).2 : ℚ) / 2 ^ 48) ≤ (c.c : ℚ) / 100) &&
  c.r.covers1 (c.β0 ^ 4) (c.β1 ^ 4) c.T0 c.T1 && c.r.leaf 5 9 (eLd c.c)

theorem Cell.okLd_sound {c : Cell} (h : c.okLd = true) (hv : Liquid (psat T) T) (hp : 0 < psat T) (h0 : (c.T0 : ℝ) ≤ T) (h1 : T ≤ c.T1) :
    109.6635 * Real.log (psat T) + 40.3481 * psat T + 634.58 < gamma1.h (psat T) T := by
  simp only [Cell.okLd, Bool.and_eq_true, decide_eq_true_eq] at h
  obtain ⟨⟨⟨a1, a2⟩, a3⟩, a4⟩ := h
  obtain ⟨b1, b2⟩ := Cell.sat_sound a1 h0 h1
  have hb : 0 < c.b1 := by
    simp only [Cell.sat, Bool.and_eq_true, decide_eq_true_eq] at a1
    exact a1.1.1.1.2
  have l1 := Real.log_le_log hp b2
  have l2 := (lnQ_sound c.k1 c.k2 (a := c.b1) (A := 10 ^ 8) hb (by norm_num)).2
  have e : Real.log ((c.β1 : ℝ) ^ 4) = 4 * Real.log ((c.b1 : ℝ) / (10 ^ 8 : ℕ)) := by
    rw [Real.log_pow]
    simp only [Cell.β1]; push_cast; norm_num
  rw [e] at l1
  have a2' := (Rat.cast_le (K := ℝ)).2 a2
  push_cast at a2'
  have hl := Rect.sound1 a3 hv (by norm_num) (by norm_num) a4 (by push_cast; exact b1) (by push_cast; exact b2) h0 h1
  rw [eLd_eval hv] at hl
  have z0 := B1.z_pos hv
  have := pos_of_mul_pos_right (pos_of_mul_pos_right hl (by norm_num)) (by positivity)
  generalize ((lnQ c.k1 c.k2 c.b1 (10 ^ 8)).2 : ℝ) = q at *
  have l3 : Real.log ((c.b1 : ℝ) / (10 ^ 8 : ℕ)) ≤ q / 2 ^ 48 := by rw [le_div_iff₀ (by norm_num)]; linarith
  linarith

/-- `1000 (c/100 - h - 20.158 p)`, up to a factor -/
def eVu (c : ℕ) : E := .sub
  (.mul (cst (Nat.mul 10 c)) (.mono den2 [] 24 63))
  (.add (.mul (cst 2000000) B2.qh.n) (.mul (.mono [(20158, 1, 0)] [] 1 0) (.mono den2 [] 23 63)))

theorem eVu_eval (hv : Vapour p T) (c : ℕ) : (eVu c).eval p (540 / T - 1 / 2) =
    evalN den2 p (540 / T - 1 / 2) * (1000 * (c / 100 - gamma2.h p T - 20.158 * p)) := by
  simp only [eVu, E.eval, eval_cst, qh2_n hv, Nat.mul_eq]
  simp only [evalN_cons', evalN_nil']
  push_cast
  ring

noncomputable def Cell.okVu (c : Cell) : Bool := c.sat &&
  decide ((c.c : ℚ) / 100 ≤ 2854.4 + 45.1768 * (4 * ((lnQ c.k1 c.k2 c.b0 (10 ^ 8)).1 : ℚ) / 2 ^ 48)) &&
  c.r.covers2 (c.β0 ^ 4) (c.β1 ^ 4) c.T0 c.T1 && c.r.leaf 5 9 (eVu c.c)

theorem Cell.okVu_sound {c : Cell} (h : c.okVu = true) (hv : Vapour (psat T) T) (h0 : (c.T0 : ℝ) ≤ T) (h1 : T ≤ c.T1) :
    gamma2.h (psat T) T < 45.1768 * Real.log (psat T) - 20.158 * psat T + 2854.4 := by
  simp only [Cell.okVu, Bool.and_eq_true, decide_eq_true_eq] at h
  obtain ⟨⟨⟨a1, a2⟩, a3⟩, a4⟩ := h
  obtain ⟨b1, b2⟩ := Cell.sat_sound a1 h0 h1
  have hb : 0 < c.b0 := by
    simp only [Cell.sat, Bool.and_eq_true, decide_eq_true_eq] at a1
    exact a1.1.1.1.1.2
  have hb' : (0 : ℝ) < c.b0 := by exact_mod_cast hb
  have hβ : (0 : ℝ) < c.β0 := by simp only [Cell.β0]; push_cast; positivity
  have l1 := Real.log_le_log (by positivity) b1
  have l2 := (lnQ_sound c.k1 c.k2 (a := c.b0) (A := 10 ^ 8) hb (by norm_num)).1
  have e : Real.log ((c.β0 : ℝ) ^ 4) = 4 * Real.log ((c.b0 : ℝ) / (10 ^ 8 : ℕ)) := by
    rw [Real.log_pow]
    simp only [Cell.β0]; push_cast; norm_num
  rw [e] at l1
  have a2' := (Rat.cast_le (K := ℝ)).2 a2
  push_cast at a2'
  have hl := Rect.sound2 a3 (by norm_num) (by norm_num) a4 (by push_cast; exact b1) (by push_cast; exact b2) h0 h1
  rw [eVu_eval hv] at hl
  have := pos_of_mul_pos_right hl (den2_pos (psat T) (B2.y_pos hv)).le
  generalize ((lnQ c.k1 c.k2 c.b0 (10 ^ 8)).1 : ℝ) = q at *
  have l3 : q / 2 ^ 48 ≤ Real.log ((c.b0 : ℝ) / (10 ^ 8 : ℕ)) := by rw [div_le_iff₀ (by norm_num)]; linarith
  linarith

/-! ## Entropies -/

/-- `8.66 - s/R` for the liquid, up to a factor -/
def eS1 : E := .sub (.mono [(4330000000000000000000000000000000000000000, 0, 17)] [] 32 59) B1.eS

theorem eS1_eval (hv : Liquid p T) : eS1.eval (7.1 - p / 16.53) (B1.z T) =
    500000000000000000000000000000000000000000 * (B1.z T ^ 17 * (8.66 - gamma1.s p T / R)) := by
  simp only [eS1, E.eval, B1.eS_eval hv, evalN_cons', evalN_nil']
  push_cast
  ring

noncomputable def Cell.okS1 (c : Cell) : Bool := c.sat && c.r.covers1 (c.β0 ^ 4) (c.β1 ^ 4) c.T0 c.T1 && c.r.leaf 5 9 eS1

theorem Cell.okS1_sound {c : Cell} (h : c.okS1 = true) (hv : Liquid (psat T) T) (h0 : (c.T0 : ℝ) ≤ T) (h1 : T ≤ c.T1) :
    gamma1.s (psat T) T < 4 := by
  simp only [Cell.okS1, Bool.and_eq_true] at h
  obtain ⟨⟨a1, a3⟩, a4⟩ := h
  obtain ⟨b1, b2⟩ := Cell.sat_sound a1 h0 h1
  have hl := Rect.sound1 a3 hv (by norm_num) (by norm_num) a4 (by push_cast; exact b1) (by push_cast; exact b2) h0 h1
  rw [eS1_eval hv] at hl
  have z0 := B1.z_pos hv
  have h8 := pos_of_mul_pos_right (pos_of_mul_pos_right hl (by norm_num)) (by positivity)
  have h9 : gamma1.s (psat T) T / R < 8.66 := by linarith
  rw [div_lt_iff₀ Gamma.R_pos] at h9
  norm_num [R] at h9 ⊢
  linarith

/-- `s/R + ln p - 11.8 - 0.0185 p` for the vapour, up to a factor -/
def eS2 : E := .sub B2.eS (.mul (.mul (cst 200000000000000000000000000000000000000) (.mono [(118000, 0, 0), (185, 1, 0)] [] 1 0)) (.mono B2.l5 [] 23 63))

theorem eS2_eval (hv : Vapour p T) : eS2.eval p (540 / T - 1 / 2) = 2000000000000000000000000000000000000000000 *
    ((2 * (540 / T - 1 / 2) + 1) ^ 5 * (gamma2.s p T / R + Real.log p - 11.8 - 0.0185 * p)) := by
  simp only [eS2, E.eval, B2.eS_eval hv, eval_cst, evalN_cons', evalN_nil', B2.l5_eq]
  push_cast
  ring

theorem s2_of_eS2 (hv : Vapour p T) (h : 0 < eS2.eval p (540 / T - 1 / 2)) : 4 < gamma2.s p T := by
  have y0 := B2.y_pos hv
  have p0 := hv.p0
  rw [eS2_eval hv] at h
  have h8 := pos_of_mul_pos_right (pos_of_mul_pos_right h (by norm_num)) (by positivity)
  -- the tangent of the logarithm at 54
  have l1 : Real.log p ≤ Real.log 54 + (p / 54 - 1) := by
    have := Real.log_le_sub_one_of_pos (show 0 < p / 54 by positivity)
    rw [Real.log_div (by positivity) (by norm_num)] at this
    linarith
  have l2 := (lnQ_sound 0 6 (a := 54) (A := 1) (by norm_num) (by norm_num)).2
  have l3 : (lnQ 0 6 54 1).2 ≤ 1122900000000000 := by decide +kernel
  have l3' : ((lnQ 0 6 54 1).2 : ℝ) ≤ 1122900000000000 := by exact_mod_cast l3
  push_cast at l2
  norm_num at l2
  have h9 : 8.7 < gamma2.s p T / R := by linarith [hv.p1]
  rw [lt_div_iff₀ Gamma.R_pos] at h9
  norm_num [R] at h9 ⊢
  linarith

noncomputable def Cell.okS2 (c : Cell) : Bool := c.sat && c.r.covers2 (c.β0 ^ 4) (c.β1 ^ 4) c.T0 c.T1 && c.r.leaf 5 9 eS2

theorem Cell.okS2_sound {c : Cell} (h : c.okS2 = true) (hv : Vapour (psat T) T) (h0 : (c.T0 : ℝ) ≤ T) (h1 : T ≤ c.T1) :
    4 < gamma2.s (psat T) T := by
  simp only [Cell.okS2, Bool.and_eq_true] at h
  obtain ⟨⟨a1, a3⟩, a4⟩ := h
  obtain ⟨b1, b2⟩ := Cell.sat_sound a1 h0 h1
  exact s2_of_eS2 hv (Rect.sound2 a3 (by norm_num) (by norm_num) a4 (by push_cast; exact b1) (by push_cast; exact b2) h0 h1)

/-! ## The isotherm 623.15 K and the border of region 2 -/

/-- pressures in 10⁻² MPa, temperatures in 10⁻² K -/
structure Bar where
  p0 : ℕ
  p1 : ℕ
  t0 : ℕ
  t1 : ℕ
  r : Rect

def Bar.P0 (c : Bar) : ℚ := c.p0 / 100
def Bar.P1 (c : Bar) : ℚ := c.p1 / 100
def Bar.T0 (c : Bar) : ℚ := c.t0 / 100
def Bar.T1 (c : Bar) : ℚ := c.t1 / 100

/-- `1.8 - (h/2500 + 1)` for the liquid, up to a factor -/
def eH1 : E := .sub (.mono [(562500000000000000000000000000000000000000000000, 0, 16)] [] 32 58) B1.qh.n

theorem h1_of_eH1 (hv : Liquid p T) (h : 0 < eH1.eval (7.1 - p / 16.53) (B1.z T)) : gamma1.h p T < 2000 := by
  have z0 := B1.z_pos hv
  have e : B1.qh.n.eval (7.1 - p / 16.53) (B1.z T) = (gamma1.h p T / 2500 + 1) * evalN B1.qh.l (7.1 - p / 16.53) (B1.z T) := by
    rw [← B1.qh_eval hv, Quot.eval, div_mul_cancel₀]
    simp only [B1.qh, evalN_cons', evalN_nil']
    positivity
  simp only [eH1, E.eval, evalN_cons', evalN_nil'] at h
  rw [e] at h
  simp only [B1.qh, evalN_cons', evalN_nil'] at h
  push_cast at h
  have h2 : 0 < 312500000000000000000000000000000000000000000000 * (B1.z T ^ 16 * (0.8 - gamma1.h p T / 2500)) := by
    refine h.trans_eq ?_
    ring
  have := pos_of_mul_pos_right (pos_of_mul_pos_right h2 (by norm_num)) (by positivity)
  linarith

theorem s1_of_eS1 (hv : Liquid p T) (h : 0 < eS1.eval (7.1 - p / 16.53) (B1.z T)) : gamma1.s p T < 4 := by
  rw [eS1_eval hv] at h
  have z0 := B1.z_pos hv
  have h8 := pos_of_mul_pos_right (pos_of_mul_pos_right h (by norm_num)) (by positivity)
  have h9 : gamma1.s p T / R < 8.66 := by linarith
  rw [div_lt_iff₀ Gamma.R_pos] at h9
  norm_num [R] at h9 ⊢
  linarith

/-- consecutive pressures -/
def chainP : ℕ → List Bar → ℕ → Bool
  | s, [], e => Nat.beq s e
  | s, c :: cs, e => Nat.beq c.p0 s && chainP c.p1 cs e

/-- a polynomial inequality on the isotherm `t/100` K, liquid -/
noncomputable def barsL (t : ℕ) (e : E) : List Bar → Bool
  | [] => true
  | c :: cs => Nat.beq c.t0 t && Nat.beq c.t1 t && c.r.covers1 c.P0 c.P1 c.T0 c.T1 && c.r.leaf 6 9 e && barsL t e cs

theorem barsL_sound {t : ℕ} {e : E} {cs : List Bar} {s n : ℕ} (hc : chainP s cs n = true) (h : barsL t e cs = true) (hv : Liquid p T)
    (hT : T = (t : ℝ) / 100) (h0 : (s : ℝ) / 100 ≤ p) (h1 : p < (n : ℝ) / 100) : 0 < e.eval (7.1 - p / 16.53) (B1.z T) := by
  induction cs generalizing s with
  | nil =>
    have := Nat.eq_of_beq_eq_true hc
    subst this
    linarith
  | cons c cs ih =>
    simp only [chainP, Bool.and_eq_true] at hc
    simp only [barsL, Bool.and_eq_true] at h
    obtain ⟨⟨⟨⟨a1, a2⟩, a3⟩, a4⟩, a5⟩ := h
    have hs := Nat.eq_of_beq_eq_true hc.1
    have e1 := Nat.eq_of_beq_eq_true a1
    have e2 := Nat.eq_of_beq_eq_true a2
    rcases le_or_gt p ((c.p1 : ℝ) / 100) with h2 | h2
    · refine Rect.sound1 a3 hv (by norm_num) (by norm_num) a4 ?_ ?_ ?_ ?_
      · simp only [Bar.P0]; push_cast; rw [hs]; exact h0
      · simp only [Bar.P1]; push_cast; exact h2
      · simp only [Bar.T0, e1]; push_cast; exact hT.ge
      · simp only [Bar.T1, e2]; push_cast; exact hT.le
    · exact ih hc.2 a5 h2.le

/-- a polynomial inequality on the isotherm `t/100` K, vapour -/
noncomputable def barsI (t : ℕ) (e : E) : List Bar → Bool
  | [] => true
  | c :: cs => Nat.beq c.t0 t && Nat.beq c.t1 t && c.r.covers2 c.P0 c.P1 c.T0 c.T1 && c.r.leaf 6 9 e && barsI t e cs

theorem barsI_sound {t : ℕ} {e : E} {cs : List Bar} {s n : ℕ} (hc : chainP s cs n = true) (h : barsI t e cs = true)
    (hT : T = (t : ℝ) / 100) (h0 : (s : ℝ) / 100 ≤ p) (h1 : p < (n : ℝ) / 100) : 0 < e.eval p (540 / T - 1 / 2) := by
  induction cs generalizing s with
  | nil =>
    have := Nat.eq_of_beq_eq_true hc
    subst this
    linarith
  | cons c cs ih =>
    simp only [chainP, Bool.and_eq_true] at hc
    simp only [barsI, Bool.and_eq_true] at h
    obtain ⟨⟨⟨⟨a1, a2⟩, a3⟩, a4⟩, a5⟩ := h
    have hs := Nat.eq_of_beq_eq_true hc.1
    have e1 := Nat.eq_of_beq_eq_true a1
    have e2 := Nat.eq_of_beq_eq_true a2
    rcases le_or_gt p ((c.p1 : ℝ) / 100) with h2 | h2
    · refine Rect.sound2 a3 (by norm_num) (by norm_num) a4 ?_ ?_ ?_ ?_
      · simp only [Bar.P0]; push_cast; rw [hs]; exact h0
      · simp only [Bar.P1]; push_cast; exact h2
      · simp only [Bar.T0, e1]; push_cast; exact hT.ge
      · simp only [Bar.T1, e2]; push_cast; exact hT.le
    · exact ih hc.2 a5 h2.le

/-- consecutive temperatures -/
def chainT : ℕ → List Bar → ℕ → Bool
  | s, [], e => Nat.beq s e
  | s, c :: cs, e => Nat.beq c.t0 s && chainT c.t1 cs e

/-- a polynomial inequality along the border of region 2 -/
noncomputable def barsV (e : E) : List Bar → Bool
  | [] => true
  | c :: cs => Nat.ble 60000 c.t0 && decide (c.P0 ≤ b23Q c.T0 - 0.03) && decide (b23Q c.T1 + 0.03 ≤ c.P1) &&
    c.r.covers2 c.P0 c.P1 c.T0 c.T1 && c.r.leaf 6 9 e && barsV e cs

theorem barsV_sound {e : E} {cs : List Bar} {s n : ℕ} (hc : chainT s cs n = true) (h : barsV e cs = true)
    (h0 : (s : ℝ) / 100 ≤ T) (h1 : T < (n : ℝ) / 100) (h2 : b23 T - 0.03 ≤ p) (h3 : p ≤ b23 T + 0.03) :
    0 < e.eval p (540 / T - 1 / 2) := by
  induction cs generalizing s with
  | nil =>
    have := Nat.eq_of_beq_eq_true hc
    subst this
    linarith
  | cons c cs ih =>
    simp only [chainT, Bool.and_eq_true] at hc
    simp only [barsV, Bool.and_eq_true, decide_eq_true_eq] at h
    obtain ⟨⟨⟨⟨⟨a0, a1⟩, a2⟩, a3⟩, a4⟩, a5⟩ := h
    have hs := Nat.eq_of_beq_eq_true hc.1
    have b1 := (Rat.cast_le (K := ℝ)).2 a1
    have b2 := (Rat.cast_le (K := ℝ)).2 a2
    push_cast at b1 b2
    rw [b23Q_cast] at b1 b2
    have h60 : (60000 : ℝ) ≤ c.t0 := by exact_mod_cast Nat.le_of_ble_eq_true a0
    have hT0 : (600 : ℝ) ≤ c.T0 := by simp only [Bar.T0]; push_cast; linarith
    rcases le_or_gt T ((c.t1 : ℝ) / 100) with h4 | h4
    · have hT0' : (c.T0 : ℝ) ≤ T := by simp only [Bar.T0]; push_cast; rw [hs]; exact h0
      have hT1' : T ≤ c.T1 := by simp only [Bar.T1]; push_cast; exact h4
      refine Rect.sound2 a3 (by norm_num) (by norm_num) a4 ?_ ?_ hT0' hT1'
      · have := b23_mono hT0 hT0'
        linarith
      · have := b23_mono (hT0.trans hT0') hT1'
        linarith
    · exact ih hc.2 a5 h4.le

/-- `h/2000 - 1` for the vapour, up to a factor -/
def eH2 : E := .sub B2.qh.n (.mono den2 [] 24 63)

theorem h2_of_eH2 (hv : Vapour p T) (h : 0 < eH2.eval p (540 / T - 1 / 2)) : 2000 < gamma2.h p T := by
  simp only [eH2, E.eval, qh2_n hv] at h
  simp only [evalN_nil'] at h
  have d := den2_pos p (B2.y_pos hv)
  have h2 : 0 < evalN den2 p (540 / T - 1 / 2) * (gamma2.h p T / 2000 - 1) := by
    refine h.trans_eq ?_
    ring
  have := pos_of_mul_pos_right h2 d.le
  linarith

/-! ## The isotherms 273.15 K and 1073.15 K -/

/-- `0.963 p + 2.2 - h` for the liquid, up to a factor -/
def eG : E := .sub
  (.mul (.mono [(26152205690, 0, 0)] [(159183900, 1, 0)] 1 0) (.mono [(312500000000000000000000000000000000000000000000, 0, 16)] [] 31 58))
  (.mul (cst 25000000000) B1.qh.n)

theorem h1_of_eG (hv : Liquid p T) (h : 0 < eG.eval (7.1 - p / 16.53) (B1.z T)) : gamma1.h p T < 0.963 * p + 2.2 := by
  have z0 := B1.z_pos hv
  simp only [eG, E.eval, eval_cst, qh1_n hv, evalN_cons', evalN_nil'] at h
  push_cast at h
  have h2 : 0 < 3125000000000000000000000000000000000000000000000000000 * (B1.z T ^ 16 * (0.963 * p + 2.2 - gamma1.h p T)) := by
    refine h.trans_eq ?_
    ring
  have := pos_of_mul_pos_right (pos_of_mul_pos_right h2 (by norm_num)) (by positivity)
  linarith

/-- `h/2000 - 2` for the vapour, up to a factor -/
def eTop : E := .sub B2.qh.n (.mul (cst 2) (.mono den2 [] 24 63))

theorem h2_of_eTop (hv : Vapour p T) (h : 0 < eTop.eval p (540 / T - 1 / 2)) : 4000 < gamma2.h p T := by
  simp only [eTop, E.eval, eval_cst, qh2_n hv] at h
  simp only [evalN_nil'] at h
  push_cast at h
  have h2 : 0 < evalN den2 p (540 / T - 1 / 2) * (gamma2.h p T / 2000 - 2) := by
    refine h.trans_eq ?_
    ring
  have := pos_of_mul_pos_right h2 (den2_pos p (B2.y_pos hv)).le
  linarith

/-- `4160.7352 - 4.5256 p - 0.0069876 p² - h` for the vapour, up to a factor -/
def eQh : E := .sub (.mul (.mono [(41607352000, 0, 0)] [(45256000, 1, 0), (69876, 2, 0)] 2 0) (.mono den2 [] 22 63)) (.mul (cst 20000000000) B2.qh.n)

theorem h2_of_eQh (hv : Vapour p T) (h : 0 < eQh.eval p (540 / T - 1 / 2)) :
    gamma2.h p T < 4160.7352 - 4.5256 * p - 0.0069876 * p ^ 2 := by
  simp only [eQh, E.eval, eval_cst, qh2_n hv] at h
  simp only [evalN_cons', evalN_nil'] at h
  push_cast at h
  have h2 : 0 < evalN den2 p (540 / T - 1 / 2) * (10000000 * (4160.7352 - 4.5256 * p - 0.0069876 * p ^ 2 - gamma2.h p T)) := by
    refine h.trans_eq ?_
    ring
  have := pos_of_mul_pos_right h2 (den2_pos p (B2.y_pos hv)).le
  linarith

/-- `18.4297295 - 0.00731155 p - 0.00001395 p² - s/R - ln p` for the vapour, up to a factor -/
def eQs : E := .sub (.mul (.mul (cst 2000000000000000000000000000000000) (.mono [(18429729500, 0, 0)] [(7311550, 1, 0), (13950, 2, 0)] 2 0))
  (.mono B2.l5 [] 22 63)) B2.eS

theorem s2_of_eQs (hv : Vapour p T) (h : 0 < eQs.eval p (540 / T - 1 / 2)) :
    gamma2.s p T / R + Real.log p < 18.4297295 - 0.00731155 * p - 0.00001395 * p ^ 2 := by
  have y0 := B2.y_pos hv
  simp only [eQs, E.eval, B2.eS_eval hv, eval_cst, evalN_cons', evalN_nil', B2.l5_eq] at h
  push_cast at h
  have h2 : 0 < 2000000000000000000000000000000000000000000 * ((2 * (540 / T - 1 / 2) + 1) ^ 5 *
      (18.4297295 - 0.00731155 * p - 0.00001395 * p ^ 2 - gamma2.s p T / R - Real.log p)) := by
    refine h.trans_eq ?_
    ring
  have := pos_of_mul_pos_right (pos_of_mul_pos_right h2 (by norm_num)) (by positivity)
  linarith

/-- `19 - s/R - ln p` for the vapour, up to a factor -/
def eS19 : E := .sub (.mul (cst 38000000000000000000000000000000000000000000) (.mono B2.l5 [] 24 63)) B2.eS

theorem s2_of_eS19 (hv : Vapour p T) (h : 0 < eS19.eval p (540 / T - 1 / 2)) : gamma2.s p T / R + Real.log p < 19 := by
  have y0 := B2.y_pos hv
  simp only [eS19, E.eval, B2.eS_eval hv, eval_cst, evalN_nil', B2.l5_eq] at h
  push_cast at h
  have h2 : 0 < 2000000000000000000000000000000000000000000 * ((2 * (540 / T - 1 / 2) + 1) ^ 5 *
      (19 - gamma2.s p T / R - Real.log p)) := by
    refine h.trans_eq ?_
    ring
  have := pos_of_mul_pos_right (pos_of_mul_pos_right h2 (by norm_num)) (by positivity)
  linarith

end PyX.Kron
