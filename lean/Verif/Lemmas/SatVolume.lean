import Verif.Lemmas.BarsHigh
import Verif.Lemmas.Sign2
import Verif.Props.Phases

/-!
# Volumes along the saturation line, and the sign of the entropy of the liquid
-/

namespace PyX.Kron

open Spec.Sat Spec.PT Spec.IF97 PyX

variable {p T : ℝ}

def Vp : List Mono :=
  [(303531507829370000000000000000000000, 0, 24), (9495034109209500000000000000000000000, 0, 18),
    (16264874385252500000000000000000000000, 0, 17), (10920858587707000000000000000000000000, 0, 16),
    (26419178984965000000000000000000000, 0, 14), (471843210732670000000000000000000000, 1, 20),
    (300017807930260000000000000000000000, 1, 17), (4414184533084600000000000000000000, 1, 14),
    (726949962975940000000000, 1, 0), (47519467267581000000000000000000000, 2, 21),
    (4240619697796800000000000000000000, 2, 17), (1278076921801545000000000000000, 2, 11),
    (4485056381600000000000000000000000, 3, 22), (1303424457912020000000000000000000, 3, 19),
    (286834598758480000000000000, 3, 7), (1012924921502925000000000000000000, 4, 25),
    (5093720696656400000000000000000, 7, 28), (696994849225360000000000000000, 7, 23),
    (7220023786030755000000, 20, 46), (179214339601065000, 29, 56), (1496593396679328, 31, 58)]

def Vn : List Mono :=
  [(141595400619020000000000000000000000, 0, 26), (47661393906987000000000000000000000, 1, 16),
    (166500540027991500000, 22, 48), (381868834110527500, 28, 55), (28253546601176200, 30, 57)]

theorem same_V : sameZ (-500000000000000000000000000000000000000) 1 0 0 17 region1 Vp Vn = true := by decide +kernel

/-- `0.15 - γ_π` for the liquid, up to a factor -/
def eV1 : E := .sub (.mono [(75000000000000000000000000000000000000, 0, 17)] [] 31 58) (.mono Vp Vn 31 58)

theorem v1_of_eV1 (hv : Liquid p T) (h1 : T ≤ 623.2) (h : 0 < eV1.eval (7.1 - p / 16.53) (B1.z T)) : gamma1.v p T < 0.003 := by
  have z0 := B1.z_pos hv
  have x0 := B1.x_pos hv
  have hh := sameZ_eq same_V x0.ne' z0.ne'
  have e : (B1.z T)⁻¹ = 1386 / T - 1.222 := inv_inv _
  rw [e] at hh
  simp only [eV1, E.eval, evalN_cons', evalN_nil'] at h
  rw [hh] at h
  push_cast at h
  have h2 : 0 < 500000000000000000000000000000000000000 * (B1.z T ^ 17 * (0.15 + dpoly region1 1 0 (7.1 - p / 16.53) (1386 / T - 1.222))) := by
    refine h.trans_eq ?_
    ring
  have h3 := pos_of_mul_pos_right (pos_of_mul_pos_right h2 (by norm_num)) (by positivity)
  have hT := hv.T0
  have hg : gamma1.v p T = R * T * -dpoly region1 1 0 (7.1 - p / 16.53) (1386 / T - 1.222) / (1000 * 16.53) := by
    simp only [Gamma.v, gamma1]
  rw [hg, R, div_lt_iff₀ (by norm_num)]
  generalize dpoly region1 1 0 (7.1 - p / 16.53) (1386 / T - 1.222) = d at h3
  nlinarith

/-- `p γ_π - 0.4` for the vapour, up to a factor -/
def eV2 : E := .mono ((600000000000000000000000000000000000000000, 0, 0) :: R2.Gp) R2.Gn 24 58

theorem v2_of_eV2 (hv : Vapour p T) (h1 : p ≤ 16.53) (h : 0 < eV2.eval p (540 / T - 1 / 2)) : 0.003 < gamma2.v p T := by
  have e := R2.v_eq (x := p) (y := 540 / T - 1 / 2) hv.p0.ne' (B2.y_pos hv).ne'
  simp only [eV2, R2.e_v, E.eval, evalN_cons'] at h e
  rw [show 540 / T - 1 / 2 + 1 / 2 = 540 / T by ring] at e
  push_cast at h e
  have h2 : 0 < 1000000000000000000000000000000000000000000 * (p * gamma2.gp p (540 / T) - 0.4) := by
    linarith
  have h3 := pos_of_mul_pos_right h2 (by norm_num)
  have hT := hv.T0
  have hp := hv.p0
  have hg : gamma2.v p T = R * T * (p * gamma2.gp p (540 / T)) / (1000 * p) := by
    simp only [Gamma.v, gamma2, div_one]
    field_simp
  rw [hg, R, lt_div_iff₀ (by positivity)]
  generalize p * gamma2.gp p (540 / T) = d at h3
  nlinarith

noncomputable def Cell.okV1 (c : Cell) : Bool := c.sat && c.r.covers1 (c.β0 ^ 4) (c.β1 ^ 4) c.T0 c.T1 && c.r.leaf 5 9 eV1
noncomputable def Cell.okSp (c : Cell) : Bool := c.sat && c.r.covers1 (c.β0 ^ 4) (c.β1 ^ 4) c.T0 c.T1 && c.r.leaf 5 9 (eS1w 0)
noncomputable def Cell.okV2 (c : Cell) : Bool := c.sat && c.r.covers2 (c.β0 ^ 4) (c.β1 ^ 4) c.T0 c.T1 && c.r.leaf 5 9 eV2

theorem cellsS1_V1 : allOk Cell.okV1 cellsS1 = true := by decide +kernel
theorem cellsS1_Sp : allOk Cell.okSp (cellsS1.drop 1) = true := by decide +kernel
theorem cellsS2_V2 : allOk Cell.okV2 cellsS2 = true := by decide +kernel

theorem cellsS1_tail : chain 30315 (cellsS1.drop 1) 62320 = true := by decide +kernel

theorem v1_sat (h0 : 0.000611657 < p) (h1 : p < 16.5292) : gamma1.v p (tsat p) < 0.003 := by
  have h2 : p < 22.06395 := by linarith
  have hv := liquid_sat h0 h1
  have e := psat_tsat h0 h2
  obtain ⟨c, hc, c0, c1⟩ := chain_sound (T := tsat p) cellsS1_chain (by norm_num; linarith [hv.T0])
    (by have := tsat_lt h0 h2 (by norm_num) (h1.trans psat_6232); norm_num at this ⊢; linarith)
  have h := allOk_sound cellsS1_V1 hc
  simp only [Cell.okV1, Bool.and_eq_true] at h
  obtain ⟨⟨a1, a3⟩, a4⟩ := h
  obtain ⟨b1, b2⟩ := Cell.sat_sound a1 c0 c1
  rw [e] at b1 b2
  exact v1_of_eV1 hv hv.T1 (Rect.sound1 a3 hv (by norm_num) (by norm_num) a4 (by push_cast; exact b1) (by push_cast; exact b2) c0 c1)

theorem s1_sat_pos (h0 : 0.000611657 < p) (h1 : p < 16.5292) (hT : 303.15 ≤ tsat p) : 0 < gamma1.s p (tsat p) := by
  have h2 : p < 22.06395 := by linarith
  have hv := liquid_sat h0 h1
  have e := psat_tsat h0 h2
  obtain ⟨c, hc, c0, c1⟩ := chain_sound (T := tsat p) cellsS1_tail (by norm_num; linarith)
    (by have := tsat_lt h0 h2 (by norm_num) (h1.trans psat_6232); norm_num at this ⊢; linarith)
  have h := allOk_sound cellsS1_Sp hc
  simp only [Cell.okSp, Bool.and_eq_true] at h
  obtain ⟨⟨a1, a3⟩, a4⟩ := h
  obtain ⟨b1, b2⟩ := Cell.sat_sound a1 c0 c1
  rw [e] at b1 b2
  have := s1_of_eS1w hv (Rect.sound1 a3 hv (by norm_num) (by norm_num) a4 (by push_cast; exact b1) (by push_cast; exact b2) c0 c1)
  rw [lt_div_iff₀ Gamma.R_pos] at this
  simpa using this

theorem v2_sat (h0 : 0.000611657 < p) (h1 : p ≤ 16.5291) : 0.003 < gamma2.v p (tsat p) := by
  have h2 : p < 22.06395 := by linarith
  have hv := vapour_sat h0 h1
  have e := psat_tsat h0 h2
  obtain ⟨c, hc, c0, c1⟩ := chain_sound (T := tsat p) cellsS2_chain (by norm_num; linarith [hv.T0])
    (by have := tsat_lt h0 h2 (x := 623.2) (by norm_num) (by linarith [psat_6232]); norm_num at this ⊢; linarith)
  have h := allOk_sound cellsS2_V2 hc
  simp only [Cell.okV2, Bool.and_eq_true] at h
  obtain ⟨⟨a1, a3⟩, a4⟩ := h
  obtain ⟨b1, b2⟩ := Cell.sat_sound a1 c0 c1
  rw [e] at b1 b2
  exact v2_of_eV2 hv (by linarith) (Rect.sound2 a3 (by norm_num) (by norm_num) a4 (by push_cast; exact b1) (by push_cast; exact b2) c0 c1)

theorem v1_pos (hv : Liquid p T) : 0 < gamma1.v p T := by
  have := (R1.signs hv).1
  have hT := hv.T0
  have := Gamma.R_pos
  simp only [Gamma.v, show gamma1.ps = 16.53 from rfl, show gamma1.Ts = 1386 from rfl]
  positivity

end PyX.Kron
