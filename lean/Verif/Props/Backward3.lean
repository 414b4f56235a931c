import Verif.Lemmas.T3ph
import Verif.Lemmas.V3ph
import Verif.Props.Backward
import Verif.Props.Stability
import Verif.Spec.Region3

/-!
# C62 and C63: the backward equations `T(p, h)` and `v(p, h)` of region 3 undo the basic equation
-/

namespace PyX

open Classical Py Num Spec Spec.IF97 Spec.Sat Spec.PT Spec.R3

variable {p h ρ T : ℝ}

theorem p3_eq (hρ : ρ ≠ 0) (hT : T ≠ 0) : Phi3.p ρ T = Kron.p3 ρ T := by
  simp only [Phi3.p, Phi3.φδ, Kron.p3, Kron.B3.P, R]
  field_simp

theorem h3_eq (hρ : ρ ≠ 0) (hT : T ≠ 0) : Phi3.h ρ T = Kron.h3 ρ T := by
  simp only [Phi3.h, Phi3.φδ, Phi3.φτ, Kron.h3, Kron.B3.H, R]
  field_simp
  ring

theorem box_of_region3 (hr : InRegion 3 p T) : Box p T ∧ 623.15 < T ∧ b23 T < p := by
  rcases hr with ⟨h, _⟩ | ⟨h, _⟩ | ⟨h, _⟩ | ⟨h, _⟩ | ⟨h, _⟩ | ⟨_, h⟩ | ⟨h, _⟩ | ⟨h, _⟩
  iterate 5 exact absurd h (by norm_num)
  · exact ⟨h.1, h.2.1, h.2.2.1⟩
  all_goals exact absurd h (by norm_num)

theorem fluid_of_stable (hs : Stable p ρ T) (hp : Phi3.p ρ T = p) : Kron.Fluid ρ T := by
  obtain ⟨⟨b0, b1, b2, b3⟩, hT, hb⟩ := box_of_region3 hs.region
  obtain ⟨d0, d1⟩ := hs.density
  rw [p3_eq (by linarith) (by linarith)] at hp
  subst hp
  have key : T < 647.096 → Sat (psat T) T := fun h => by
    obtain ⟨a, t0, t1⟩ := theta_box b0 h
    exact psat_sat a t0 t1
  exact ⟨d0, d1, hT.le, b3, hb.le, hs.dome, fun h => (hs.side h _ (key h)).1, fun h => (hs.side h _ (key h)).2⟩

/-- the backward equation as implemented, with its two subregions -/
noncomputable def t3ph (p h : ℝ) : ℝ :=
  if h < Kron.B3.h3ab p then dpoly Kron.T3a.table 0 0 (p / 100 + 0.24) (h / 2300 - 0.615) * 760
  else dpoly Kron.T3b.table 0 0 (p / 100 + 0.298) (h / 2800 - 0.72) * 860

theorem T3_ph_eq (hp : 0 < p) : Region3.T3_ph .ideal (.fin p) (.fin h) = pure (.fin (t3ph p h)) := by
  have iI1 : Region3.T3_ph.Ii = Kron.T3a.table.map Term.I := rfl
  have iJ1 : Region3.T3_ph.Ji = Kron.T3a.table.map Term.J := rfl
  have in1 : Region3.T3_ph.ni = Kron.T3a.table.map Term.n := rfl
  have iI2 : Region3.T3_ph.Ii_2 = Kron.T3b.table.map Term.I := rfl
  have iJ2 : Region3.T3_ph.Ji_2 = Kron.T3b.table.map Term.J := rfl
  have in2 : Region3.T3_ph.ni_2 = Kron.T3b.table.map Term.n := rfl
  have q0 : ((2014.64004206875 : ℚ) : ℝ) = 2014.64004206875 := by norm_num
  have q1 : ((3.74696550136983 : ℚ) : ℝ) = 3.74696550136983 := by norm_num
  have q2 : ((2.19921901054187e-02 : ℚ) : ℝ) = 2.19921901054187e-02 := by norm_num
  have q3 : ((8.7513168600995e-05 : ℚ) : ℝ) = 8.7513168600995e-05 := by norm_num
  have q4 : ((0.24 : ℚ) : ℝ) = 0.24 := by norm_num
  have q5 : ((0.615 : ℚ) : ℝ) = 0.615 := by norm_num
  have q6 : ((0.298 : ℚ) : ℝ) = 0.298 := by norm_num
  have q7 : ((0.72 : ℚ) : ℝ) = 0.72 := by norm_num
  have sq : FP.ideal.pow (.fin p) (.fin 2) = pure (.fin (p ^ 2)) := by
    simpa using pow_ideal_int (a := p) (n := 2) (.inr (by norm_num))
  have cb : FP.ideal.pow (.fin p) (.fin 3) = pure (.fin (p ^ 3)) := by
    simpa using pow_ideal_int (a := p) (n := 3) (.inr (by norm_num))
  have e1 := backsum (N := 31) (a := p / 100 + 0.24) (b := h / 2300 - 0.615) Kron.T3a.table rfl
    (fun t ht => .inl (by positivity)) (fun t ht => .inr ((by decide : ∀ t ∈ Kron.T3a.table, 0 ≤ t.J) t ht))
  have e2 := backsum (N := 33) (a := p / 100 + 0.298) (b := h / 2800 - 0.72) Kron.T3b.table rfl
    (fun t ht => .inl (by positivity)) (fun t ht => .inr ((by decide : ∀ t ∈ Kron.T3b.table, 0 ≤ t.J) t ht))
  simp only [lit_ideal] at e1 e2
  unfold Region3.T3_ph t3ph Kron.B3.h3ab
  rw [iI1, iJ1, in1, iI2, iJ2, in2]
  simp only [ofInt_eq, Int.cast_ofNat, Int.cast_zero, lit_ideal, q0, q1, q2, q3, q4, q5, q6, q7, fin_lt, sq, cb, pure_bind, mul_ideal, add_ideal,
    sub_ideal, div_ideal (show (100 : ℝ) ≠ 0 by norm_num), div_ideal (show (2300 : ℝ) ≠ 0 by norm_num),
    div_ideal (show (2800 : ℝ) ≠ 0 by norm_num)]
  by_cases c1 : h < 2014.64004206875 + 3.74696550136983 * p - 2.19921901054187e-02 * p ^ 2 + 8.7513168600995e-05 * p ^ 3
  · simp only [if_pos c1, pure_bind, e1, mul_ideal]
  · simp only [if_neg c1, pure_bind, e2, mul_ideal]

/-- the backward equation as implemented, with its two subregions -/
noncomputable def v3ph (p h : ℝ) : ℝ :=
  if h < Kron.B3.h3ab p then dpoly Kron.V3a.table 0 0 (p / 100 + 0.128) (h / 2100 - 0.727) * 0.0028
  else dpoly Kron.V3b.table 0 0 (p / 100 + 0.0661) (h / 2800 - 0.72) * 0.0088

theorem v3_ph_eq (hp : 0 < p) : Region3.v3_ph .ideal (.fin p) (.fin h) = pure (.fin (v3ph p h)) := by
  have iI1 : Region3.v3_ph.Ii = Kron.V3a.table.map Term.I := rfl
  have iJ1 : Region3.v3_ph.Ji = Kron.V3a.table.map Term.J := rfl
  have in1 : Region3.v3_ph.ni = Kron.V3a.table.map Term.n := rfl
  have iI2 : Region3.v3_ph.Ii_2 = Kron.V3b.table.map Term.I := rfl
  have iJ2 : Region3.v3_ph.Ji_2 = Kron.V3b.table.map Term.J := rfl
  have in2 : Region3.v3_ph.ni_2 = Kron.V3b.table.map Term.n := rfl
  have q0 : ((2014.64004206875 : ℚ) : ℝ) = 2014.64004206875 := by norm_num
  have q1 : ((3.74696550136983 : ℚ) : ℝ) = 3.74696550136983 := by norm_num
  have q2 : ((2.19921901054187e-02 : ℚ) : ℝ) = 2.19921901054187e-02 := by norm_num
  have q3 : ((8.7513168600995e-05 : ℚ) : ℝ) = 8.7513168600995e-05 := by norm_num
  have q4 : ((0.128 : ℚ) : ℝ) = 0.128 := by norm_num
  have q5 : ((0.727 : ℚ) : ℝ) = 0.727 := by norm_num
  have q6 : ((0.0661 : ℚ) : ℝ) = 0.0661 := by norm_num
  have q7 : ((0.72 : ℚ) : ℝ) = 0.72 := by norm_num
  have q8 : ((0.0028 : ℚ) : ℝ) = 0.0028 := by norm_num
  have q9 : ((0.0088 : ℚ) : ℝ) = 0.0088 := by norm_num
  have sq : FP.ideal.pow (.fin p) (.fin 2) = pure (.fin (p ^ 2)) := by
    simpa using pow_ideal_int (a := p) (n := 2) (.inr (by norm_num))
  have cb : FP.ideal.pow (.fin p) (.fin 3) = pure (.fin (p ^ 3)) := by
    simpa using pow_ideal_int (a := p) (n := 3) (.inr (by norm_num))
  have e1 := backsum (N := 32) (a := p / 100 + 0.128) (b := h / 2100 - 0.727) Kron.V3a.table rfl
    (fun t ht => .inl (by positivity)) (fun t ht => .inr ((by decide : ∀ t ∈ Kron.V3a.table, 0 ≤ t.J) t ht))
  have e2 := backsum (N := 30) (a := p / 100 + 0.0661) (b := h / 2800 - 0.72) Kron.V3b.table rfl
    (fun t ht => .inl (by positivity)) (fun t ht => .inr ((by decide : ∀ t ∈ Kron.V3b.table, 0 ≤ t.J) t ht))
  simp only [lit_ideal] at e1 e2
  unfold Region3.v3_ph v3ph Kron.B3.h3ab
  rw [iI1, iJ1, in1, iI2, iJ2, in2]
  simp only [ofInt_eq, Int.cast_ofNat, Int.cast_zero, lit_ideal, q0, q1, q2, q3, q4, q5, q6, q7, q8, q9, fin_lt, sq, cb, pure_bind, mul_ideal, add_ideal,
    sub_ideal, div_ideal (show (100 : ℝ) ≠ 0 by norm_num), div_ideal (show (2100 : ℝ) ≠ 0 by norm_num),
    div_ideal (show (2800 : ℝ) ≠ 0 by norm_num)]
  by_cases c1 : h < 2014.64004206875 + 3.74696550136983 * p - 2.19921901054187e-02 * p ^ 2 + 8.7513168600995e-05 * p ^ 3
  · simp only [if_pos c1, pure_bind, e1, mul_ideal]
  · simp only [if_neg c1, pure_bind, e2, mul_ideal]

theorem t3ph_accurate (hf : Kron.Fluid ρ T) : |t3ph (Kron.p3 ρ T) (Kron.h3 ρ T) - T| ≤ 0.025 := by
  unfold t3ph
  split_ifs with h1
  · exact Kron.T3a.accurate hf h1.le
  · exact Kron.T3b.accurate hf (not_lt.1 h1)

theorem v3ph_accurate (hf : Kron.Fluid ρ T) : |v3ph (Kron.p3 ρ T) (Kron.h3 ρ T) * ρ - 1| ≤ 0.0001 := by
  unfold v3ph
  split_ifs with h1
  · exact Kron.V3a.accurate hf h1.le
  · exact Kron.V3b.accurate hf (not_lt.1 h1)

theorem stable_kernels (hs : Stable p ρ T) (hp : Region3.p3_rhoT .ideal (.fin ρ) (.fin T) = pure (.fin p)) :
    Kron.Fluid ρ T ∧ Kron.p3 ρ T = p ∧ Region3.h3_rhoT .ideal (.fin ρ) (.fin T) = pure (.fin (Kron.h3 ρ T)) := by
  have hρ : 0 < ρ := by linarith [hs.density.1]
  have hT : 0 < T := by linarith [(box_of_region3 hs.region).1.1]
  rw [p3_rhoT_eq hρ hT.ne'] at hp
  have e : Phi3.p ρ T = p := by simpa [pure_def] using hp
  exact ⟨fluid_of_stable hs e, by rw [← p3_eq hρ.ne' hT.ne', e], by rw [h3_rhoT_eq hρ hT.ne', h3_eq hρ.ne' hT.ne']⟩

/-- 1.5 times the critical density at the critical temperature: about 23.4 MPa -/
theorem stable_point : ∃ p : ℝ, Stable p 483 647.096 ∧ Region3.p3_rhoT .ideal (.fin 483) (.fin 647.096) = pure (.fin p) := by
  refine ⟨_, ?_, p3_rhoT_eq (by norm_num) (by norm_num)⟩
  have e : 20 < Phi3.p 483 647.096 ∧ Phi3.p 483 647.096 < 60 := by
    norm_num [Phi3.p, Phi3.φδ, dpoly, region3, region3Log, Term.d, ff, R]
  refine ⟨?_, by norm_num, fun h => absurd h (by norm_num), fun h => absurd h (by norm_num)⟩
  refine .inr (.inr (.inr (.inr (.inr (.inl ⟨rfl, ⟨by norm_num, by norm_num, by linarith, by linarith⟩, by norm_num, ?_, ?_⟩)))))
  · norm_num [b23]; linarith
  · norm_num

/-- below the critical temperature, twice the critical density: about 43 MPa -/
theorem stable_point_liquid : ∃ p : ℝ, Stable p 644 640 ∧ Region3.p3_rhoT .ideal (.fin 644) (.fin 640) = pure (.fin p) := by
  refine ⟨_, ?_, p3_rhoT_eq (by norm_num) (by norm_num)⟩
  have e : 30 < Phi3.p 644 640 ∧ Phi3.p 644 640 < 60 := by
    norm_num [Phi3.p, Phi3.φδ, dpoly, region3, region3Log, Term.d, ff, R]
  refine ⟨?_, by norm_num, fun _ => by norm_num, fun _ ps h => ⟨fun _ => by linarith [h.2.1], fun h => absurd h (by norm_num)⟩⟩
  refine .inr (.inr (.inr (.inr (.inr (.inl ⟨rfl, ⟨by norm_num, by norm_num, by linarith, by linarith⟩, by norm_num, ?_, ?_⟩)))))
  · norm_num [b23]; linarith
  · rintro ⟨-, ps, h, h'⟩
    linarith [h.2.1, (abs_lt.1 h').2]

/-- **C62**: the backward equation for the temperature in region 3 returns the temperature of the basic equation, to within
25 mK -/
theorem C62_T3_ph (hs : Stable p ρ T) (hp : Region3.p3_rhoT .ideal (.fin ρ) (.fin T) = pure (.fin p)) :
    ∃ h T' : ℝ, Region3.h3_rhoT .ideal (.fin ρ) (.fin T) = pure (.fin h) ∧
      Region3.T3_ph .ideal (.fin p) (.fin h) = pure (.fin T') ∧ |T' - T| ≤ 0.025 := by
  obtain ⟨f, rfl, eh⟩ := stable_kernels hs hp
  exact ⟨_, _, eh, T3_ph_eq (by linarith [f.p0]), t3ph_accurate f⟩

example : ∃ p h T' : ℝ, Region3.p3_rhoT .ideal (.fin 483) (.fin 647.096) = pure (.fin p) ∧
    Region3.h3_rhoT .ideal (.fin 483) (.fin 647.096) = pure (.fin h) ∧
    Region3.T3_ph .ideal (.fin p) (.fin h) = pure (.fin T') ∧ |T' - 647.096| ≤ 0.025 :=
  have ⟨p, hs, hp⟩ := stable_point
  have ⟨h, T', r⟩ := C62_T3_ph hs hp
  ⟨p, h, T', hp, r⟩

/-- **C63**: the backward equation for the volume in region 3 returns the volume of the basic equation, to within 0.01 % -/
theorem C63_v3_ph (hs : Stable p ρ T) (hp : Region3.p3_rhoT .ideal (.fin ρ) (.fin T) = pure (.fin p)) :
    ∃ h v : ℝ, Region3.h3_rhoT .ideal (.fin ρ) (.fin T) = pure (.fin h) ∧
      Region3.v3_ph .ideal (.fin p) (.fin h) = pure (.fin v) ∧ |v * ρ - 1| ≤ 0.0001 := by
  obtain ⟨f, rfl, eh⟩ := stable_kernels hs hp
  exact ⟨_, _, eh, v3_ph_eq (by linarith [f.p0]), v3ph_accurate f⟩

example : ∃ p h v : ℝ, Region3.p3_rhoT .ideal (.fin 483) (.fin 647.096) = pure (.fin p) ∧
    Region3.h3_rhoT .ideal (.fin 483) (.fin 647.096) = pure (.fin h) ∧
    Region3.v3_ph .ideal (.fin p) (.fin h) = pure (.fin v) ∧ |v * 483 - 1| ≤ 0.0001 :=
  have ⟨p, hs, hp⟩ := stable_point
  have ⟨h, v, r⟩ := C63_v3_ph hs hp
  ⟨p, h, v, hp, r⟩

end PyX
