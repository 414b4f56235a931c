import Verif.Lemmas.HsCells

/-!
# Liquid at 100 MPa: bounds for volume and heat capacity
-/

namespace PyX.Kron

open Spec Spec.Sat Spec.PT Spec.IF97 PyX

variable {T : ℝ}

/-- `γ_π - 0.02326 (y + 1.222)`, up to a factor -/
def eVtop : E := .sub R1.e_v (.mono [(14211860000000000000000000000000000000, 0, 41), (11630000000000000000000000000000000000, 0, 42)] [] 31 58)

/-- `13 - τ² γ_ττ`, up to a factor -/
def eCtop : E := .sub (.mono [(6500000000000000000000000000000000000000000000, 0, 43)] [] 32 60)
  (.mul (.mono [(1493284, 0, 0), (2444000, 0, 1), (1000000, 0, 2)] [] 0 2) R1.e_cp)

/-- consecutive rectangles of the widths `w/100` from `s/100` on -/
noncomputable def topOk (e : E) : ℕ → List ℕ → ℕ → Bool
  | s, [], n => Nat.beq s n
  | s, w :: l, n => Rect.leaf ⟨1736300, 0, 1653000, s, w, 100⟩ 10 24 e && topOk e (Nat.add s w) l n

theorem topOk_sound {e : E} {l : List ℕ} {s n : ℕ} (h : topOk e s l n = true) {y : ℝ} (h0 : (s : ℝ) / 100 ≤ y) (h1 : y < n / 100) :
    0 < e.eval (7.1 - 100 / 16.53) y := by
  induction l generalizing s with
  | nil =>
    have := Nat.eq_of_beq_eq_true h
    subst this
    linarith
  | cons w l ih =>
    simp only [topOk, Bool.and_eq_true, Nat.add_eq] at h
    rcases le_or_gt y ((s + w) / 100) with h2 | h2
    · exact Rect.leaf_sound (by norm_num) (by norm_num) h.1 (by norm_num) (by norm_num) (by norm_num) (by norm_num) (by push_cast; linarith)
        (by push_cast; linarith)
    · exact ih h.2 (by push_cast; linarith)

theorem eVtop_ok : topOk eVtop 100 [20, 20, 20, 20, 20, 20, 20, 20, 20, 20, 20, 20, 20, 20, 20] 400 = true := by decide +kernel
theorem eCtop_ok : topOk eCtop 100 [20, 20, 20, 20, 20, 20, 20, 20, 20, 20, 20, 20, 20, 20, 20] 400 = true := by decide +kernel

theorem ytop (h0 : 273.15 ≤ T) (h1 : T ≤ 623.2) : 1 ≤ 1386 / T - 1.222 ∧ 1386 / T - 1.222 < 4 := by
  have hT : 0 < T := by linarith
  have a : 1386 / 623.2 ≤ 1386 / T := div_le_div_of_nonneg_left (by norm_num) hT h1
  have b : 1386 / T ≤ 1386 / 273.15 := div_le_div_of_nonneg_left (by norm_num) (by norm_num) h0
  norm_num at a b ⊢
  constructor <;> linarith

theorem v_top (h0 : 273.15 ≤ T) (h1 : T ≤ 623.2) : 0.0009 < gamma1.v 100 T := by
  obtain ⟨y0, y1⟩ := ytop h0 h1
  have hT : 0 < T := by linarith
  have h := topOk_sound eVtop_ok (y := 1386 / T - 1.222) (by norm_num at y0 ⊢; linarith) (by norm_num at y1 ⊢; linarith)
  simp only [eVtop, E.eval, evalN_cons', evalN_nil'] at h
  rw [R1.v_eq (by norm_num) (by linarith)] at h
  push_cast at h
  have h2 : 0 < 500000000000000000000000000000000000000 * ((1386 / T - 1.222) ^ 41 * (gamma1.gp (100 / 16.53) (1386 / T) - 0.02326 * (1386 / T))) := by
    refine h.trans_eq ?_
    ring
  have h3 := pos_of_mul_pos_right (pos_of_mul_pos_right h2 (by norm_num)) (by positivity)
  have hg : gamma1.v 100 T = R * T * gamma1.gp (100 / 16.53) (1386 / T) / (1000 * 16.53) := rfl
  rw [hg, R, lt_div_iff₀ (by norm_num)]
  have e : T * (1386 / T) = 1386 := by field_simp
  nlinarith

theorem cp_top (h0 : 273.15 ≤ T) (h1 : T ≤ 623.2) : gamma1.cp 100 T < 6 := by
  obtain ⟨y0, y1⟩ := ytop h0 h1
  have hT : 0 < T := by linarith
  have h := topOk_sound eCtop_ok (y := 1386 / T - 1.222) (by norm_num at y0 ⊢; linarith) (by norm_num at y1 ⊢; linarith)
  simp only [eCtop, E.eval, evalN_cons', evalN_nil'] at h
  rw [R1.cp_eq (by norm_num) (by linarith)] at h
  push_cast at h
  have h2 : 0 < 500000000000000000000000000000000000000000000 * ((1386 / T - 1.222) ^ 43 *
      (13 + (1386 / T) ^ 2 * gamma1.gtt (100 / 16.53) (1386 / T))) := by
    refine h.trans_eq ?_
    ring
  have h3 := pos_of_mul_pos_right (pos_of_mul_pos_right h2 (by norm_num)) (by positivity)
  have hg : gamma1.cp 100 T = -R * ((1386 / T) ^ 2 * gamma1.gtt (100 / 16.53) (1386 / T)) := by
    simp only [Gamma.cp, gamma1]
    ring
  rw [hg, R]
  linarith

end PyX.Kron
