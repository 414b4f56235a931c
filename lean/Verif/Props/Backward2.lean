import Verif.Lemmas.T2ps
import Verif.Props.Backward

/-!
# C55 and C58: the backward equations `T(p, h)` and `T(p, s)` of region 2 undo the basic equation
-/

namespace PyX

open Classical Py Num Spec Spec.IF97 Spec.PT

variable {p h s T : ℝ}

/-- the backward equation as implemented, with its three subregions -/
noncomputable def t2ph (p h : ℝ) : ℝ :=
  if p < 4 then dpoly Kron.T2a.table 0 0 p (h / 2000 - 2.1)
  else if p < Kron.b2bc h then dpoly Kron.T2b.table 0 0 (p - 2) (h / 2000 - 2.6)
  else dpoly Kron.T2c.table 0 0 (p + 25) (h / 2000 - 1.8)

theorem T2_ph_eq (hp : 0 < p) : Region2.T2_ph .ideal (.fin p) (.fin h) = pure (.fin (t2ph p h)) := by
  have iI1 : Region2.T2_ph.Ii = Kron.T2a.table.map Term.I := rfl
  have iJ1 : Region2.T2_ph.Ji = Kron.T2a.table.map Term.J := rfl
  have in1 : Region2.T2_ph.ni = Kron.T2a.table.map Term.n := rfl
  have iI2 : Region2.T2_ph.Ii_2 = Kron.T2b.table.map Term.I := rfl
  have iJ2 : Region2.T2_ph.Ji_2 = Kron.T2b.table.map Term.J := rfl
  have in2 : Region2.T2_ph.ni_2 = Kron.T2b.table.map Term.n := rfl
  have iI3 : Region2.T2_ph.Ii_3 = Kron.T2c.table.map Term.I := rfl
  have iJ3 : Region2.T2_ph.Ji_3 = Kron.T2c.table.map Term.J := rfl
  have in3 : Region2.T2_ph.ni_3 = Kron.T2c.table.map Term.n := rfl
  have q1 : ((2.1 : ℚ) : ℝ) = 2.1 := by norm_num
  have q2 : ((2.6 : ℚ) : ℝ) = 2.6 := by norm_num
  have q3 : ((1.8 : ℚ) : ℝ) = 1.8 := by norm_num
  have q4 : ((905.84278514723 : ℚ) : ℝ) = 905.84278514723 := by norm_num
  have q5 : ((0.67955786399241 : ℚ) : ℝ) = 0.67955786399241 := by norm_num
  have q6 : ((1.2809002730136e-04 : ℚ) : ℝ) = 1.2809002730136e-04 := by norm_num
  have sq : FP.ideal.pow (.fin h) (.fin 2) = pure (.fin (h ^ 2)) := by
    simpa using pow_ideal_int (a := h) (n := 2) (.inr (by norm_num))
  have e1 := backsum (N := 34) (a := p) (b := h / 2000 - 2.1) Kron.T2a.table rfl
    (fun t ht => .inr ((by decide : ∀ t ∈ Kron.T2a.table, 0 ≤ t.I) t ht)) (fun t ht => .inr ((by decide : ∀ t ∈ Kron.T2a.table, 0 ≤ t.J) t ht))
  have e2 := backsum (N := 38) (a := p - 2) (b := h / 2000 - 2.6) Kron.T2b.table rfl
    (fun t ht => .inr ((by decide : ∀ t ∈ Kron.T2b.table, 0 ≤ t.I) t ht)) (fun t ht => .inr ((by decide : ∀ t ∈ Kron.T2b.table, 0 ≤ t.J) t ht))
  have e3 := backsum (N := 23) (a := p + 25) (b := h / 2000 - 1.8) Kron.T2c.table rfl
    (fun t ht => .inl (by positivity)) (fun t ht => .inr ((by decide : ∀ t ∈ Kron.T2c.table, 0 ≤ t.J) t ht))
  simp only [lit_ideal] at e1 e2 e3
  unfold Region2.T2_ph t2ph Kron.b2bc
  rw [iI1, iJ1, in1, iI2, iJ2, in2, iI3, iJ3, in3]
  simp only [ofInt_eq, Int.cast_ofNat, Int.cast_zero, lit_ideal, q1, q2, q3, q4, q5, q6, fin_lt, sq, pure_bind, mul_ideal, add_ideal, sub_ideal,
    div_ideal (show (2000 : ℝ) ≠ 0 by norm_num)]
  by_cases c1 : p < 4
  · simp only [if_pos c1, pure_bind, reduceIte, e1]
  by_cases c2 : p < 905.84278514723 - 0.67955786399241 * h + 1.2809002730136e-04 * h ^ 2
  · simp only [if_neg c1, if_pos c2, pure_bind, reduceIte, e2]
    simp
  · simp only [if_neg c1, if_neg c2, pure_bind, reduceIte, e3]
    simp

theorem t2ph_accurate (hv : Kron.Vapour p T) : |t2ph p (gamma2.h p T) - T| ≤ 0.04 := by
  unfold t2ph
  split_ifs with h1 h2
  · exact (Kron.T2a.accurate hv h1.le).trans (by norm_num)
  · exact (Kron.T2b.accurate hv (not_lt.1 h1) h2.le).trans (by norm_num)
  · exact Kron.T2c.accurate hv (not_lt.1 h1) (not_lt.1 h2)

theorem t2ph_accurate' (hv : Kron.Vapour p T) (h : p < 4 ∨ p < Kron.b2bc (gamma2.h p T)) : |t2ph p (gamma2.h p T) - T| ≤ 0.03 := by
  unfold t2ph
  split_ifs with h1 h2
  · exact Kron.T2a.accurate hv h1.le
  · exact Kron.T2b.accurate hv (not_lt.1 h1) h2.le
  · exact absurd h (by simp [h1, h2])

/-- **C55**: the backward equation for the temperature in region 2 returns the temperature of the basic equation, to within
40 mK -/
theorem C55_T2_ph (hr : InRegion 2 p T) : ∃ h T' : ℝ, Region2.h2_pT .ideal (.fin p) (.fin T) = pure (.fin h) ∧
    Region2.T2_ph .ideal (.fin p) (.fin h) = pure (.fin T') ∧ |T' - T| ≤ 0.04 :=
  ⟨_, _, h2_pT_eq (dom2_of_region hr), T2_ph_eq (vapour_of_region2 hr).p0, t2ph_accurate (vapour_of_region2 hr)⟩

example : ∃ h T' : ℝ, Region2.h2_pT .ideal (.fin 10) (.fin 900) = pure (.fin h) ∧
    Region2.T2_ph .ideal (.fin 10) (.fin h) = pure (.fin T') ∧ |T' - 900| ≤ 0.04 := C55_T2_ph region2_point

/-! ## Entropy -/

/-- the loop by which a backward equation with quarters as exponents is evaluated -/
theorem backsum4 {N : ℕ} (ts : List Term) (hN : ts.length = N) {x b : ℝ} (hx : 0 < x) (hb : b ≠ 0) :
    forRange 0 N (.fin 0) (fun i S => do
      let n ← idx (ts.map Term.n) i
      let I ← idx (ts.map fun t => (t.I : ℚ) / 4) i
      let u ← FP.ideal.pow (.fin (x ^ 4)) (FP.ideal.lit I)
      let J ← idx (ts.map Term.J) i
      let v ← FP.ideal.pow (.fin b) (.fin (J : ℝ))
      pure (FP.ideal.add S (FP.ideal.mul (FP.ideal.mul (FP.ideal.lit n) u) v))) = pure (.fin (dpoly ts 0 0 x b)) := by
  have q : ∀ k : ℤ, (x ^ 4) ^ (((k : ℚ) / 4 : ℚ) : ℝ) = x ^ k := fun k => by
    rw [← Real.rpow_natCast, ← Real.rpow_mul hx.le, ← Real.rpow_intCast]
    congr 1
    push_cast
    ring
  rw [loop1 (N := N) (a := 0) (b := N) ts hN (by simp) (fun t => Term.d t 0 0 x b) 0 _ fun i hi s => ?_]
  · simp only [dpoly, zero_add]
  · simp only [Nat.add_zero, idx_map _ hi, pure_bind, lit_ideal, pow_ideal_pos (pow_pos hx 4), q, pow_ideal_int (.inl hb), mul_ideal,
      add_ideal, Term.d, ff]
    push_cast
    ring_nf

/-- the backward equation as implemented, with its three subregions; `x` is the fourth root of the pressure -/
noncomputable def t2ps (x s : ℝ) : ℝ :=
  if x ^ 4 < 4 then dpoly Kron.S2a.table 0 0 x (s / 2 - 2)
  else if s < 5.85 then dpoly Kron.S2c.table 0 0 (x ^ 4) (2 - s / 2.9251)
  else dpoly Kron.S2b.table 0 0 (x ^ 4) (10 - s / 0.7853)

theorem T2_ps_eq {x : ℝ} (hx : 0 < x) (hs : x ^ 4 < 4 → s / 2 - 2 ≠ 0) :
    Region2.T2_ps .ideal (.fin (x ^ 4)) (.fin s) = pure (.fin (t2ps x s)) := by
  have iI1 : Region2.T2_ps.Ii = Kron.S2a.table.map fun t => (t.I : ℚ) / 4 := by
    norm_num [Region2.T2_ps.Ii, Kron.S2a.table]
  have iJ1 : Region2.T2_ps.Ji = Kron.S2a.table.map Term.J := rfl
  have in1 : Region2.T2_ps.ni = Kron.S2a.table.map Term.n := rfl
  have iI2 : Region2.T2_ps.Ii_2 = Kron.S2b.table.map Term.I := rfl
  have iJ2 : Region2.T2_ps.Ji_2 = Kron.S2b.table.map Term.J := rfl
  have in2 : Region2.T2_ps.ni_2 = Kron.S2b.table.map Term.n := rfl
  have iI3 : Region2.T2_ps.Ii_3 = Kron.S2c.table.map Term.I := rfl
  have iJ3 : Region2.T2_ps.Ji_3 = Kron.S2c.table.map Term.J := rfl
  have in3 : Region2.T2_ps.ni_3 = Kron.S2c.table.map Term.n := rfl
  have q1 : ((5.85 : ℚ) : ℝ) = 5.85 := by norm_num
  have q2 : ((0.7853 : ℚ) : ℝ) = 0.7853 := by norm_num
  have q3 : ((2.9251 : ℚ) : ℝ) = 2.9251 := by norm_num
  have hp : x ^ 4 ≠ 0 := (pow_pos hx 4).ne'
  have e2 := backsum (N := 44) (a := x ^ 4) (b := 10 - s / 0.7853) Kron.S2b.table rfl
    (fun t ht => .inl hp) (fun t ht => .inr ((by decide : ∀ t ∈ Kron.S2b.table, 0 ≤ t.J) t ht))
  have e3 := backsum (N := 30) (a := x ^ 4) (b := 2 - s / 2.9251) Kron.S2c.table rfl
    (fun t ht => .inl hp) (fun t ht => .inr ((by decide : ∀ t ∈ Kron.S2c.table, 0 ≤ t.J) t ht))
  simp only [lit_ideal] at e2 e3
  unfold Region2.T2_ps t2ps
  rw [iI1, iJ1, in1, iI2, iJ2, in2, iI3, iJ3, in3]
  by_cases c1 : x ^ 4 < 4
  · have e1 := backsum4 (N := 46) (x := x) (b := s / 2 - 2) Kron.S2a.table rfl hx (hs c1)
    simp only [lit_ideal] at e1
    simp only [ofInt_eq, Int.cast_ofNat, Int.cast_zero, lit_ideal, fin_lt, pure_bind, sub_ideal, div_ideal (show (2 : ℝ) ≠ 0 by norm_num), if_pos c1,
      reduceIte, e1]
  by_cases c2 : s < 5.85
  · simp only [ofInt_eq, Int.cast_ofNat, Int.cast_zero, lit_ideal, q1, q3, fin_lt, pure_bind, sub_ideal, div_ideal (show (2.9251 : ℝ) ≠ 0 by norm_num),
      if_neg c1, if_pos c2, reduceIte, show ¬ (3 : ℤ) = 1 by norm_num, show ¬ (3 : ℤ) = 2 by norm_num, e3]
  · simp only [ofInt_eq, Int.cast_ofNat, Int.cast_zero, lit_ideal, q1, q2, fin_lt, pure_bind, sub_ideal, div_ideal (show (0.7853 : ℝ) ≠ 0 by norm_num),
      if_neg c1, if_neg c2, reduceIte, show ¬ (2 : ℤ) = 1 by norm_num, e2]

/-- the value of the backward equation at the entropy of the basic equation -/
theorem T2_ps_accurate (hv : Kron.Vapour p T) (h0 : 0.000611 ≤ p) :
    ∃ T' : ℝ, Region2.T2_ps .ideal (.fin p) (.fin (gamma2.s p T)) = pure (.fin T') ∧ |T' - T| ≤ 0.04 := by
  obtain ⟨x, hx, rfl⟩ : ∃ x : ℝ, 0 < x ∧ x ^ 4 = p :=
    ⟨p ^ (1 / 4 : ℝ), Real.rpow_pos_of_pos hv.p0 _, by
      rw [← Real.rpow_natCast, ← Real.rpow_mul hv.p0.le]
      norm_num⟩
  refine ⟨_, T2_ps_eq hx fun h => (Kron.S2a.accurate hv h0 h.le hx rfl).1, ?_⟩
  unfold t2ps
  split_ifs with h1 h2
  · exact (Kron.S2a.accurate hv h0 h1.le hx rfl).2.trans (by norm_num)
  · exact Kron.S2c.accurate hv (not_lt.1 h1) h2.le
  · exact (Kron.S2b.accurate hv (not_lt.1 h1) (not_lt.1 h2)).trans (by norm_num)

theorem region2_p0 (hr : InRegion 2 p T) : 0.000611 ≤ p := by
  rcases hr with ⟨h, _⟩ | ⟨h, _⟩ | ⟨h, _⟩ | ⟨_, h, _⟩ | ⟨_, h, _⟩ | ⟨h, _⟩ | ⟨h, _⟩ | ⟨h, _⟩
  iterate 3 exact absurd h (by norm_num)
  iterate 2 exact h.2.2.1.le
  all_goals exact absurd h (by norm_num)

/-- **C58**: so does the one which is given the entropy -/
theorem C58_T2_ps (hr : InRegion 2 p T) : ∃ s T' : ℝ, Region2.s2_pT .ideal (.fin p) (.fin T) = pure (.fin s) ∧
    Region2.T2_ps .ideal (.fin p) (.fin s) = pure (.fin T') ∧ |T' - T| ≤ 0.04 := by
  obtain ⟨T', e, d⟩ := T2_ps_accurate (vapour_of_region2 hr) (region2_p0 hr)
  exact ⟨_, T', s2_pT_eq (dom2_of_region hr), e, d⟩

example : ∃ s T' : ℝ, Region2.s2_pT .ideal (.fin 10) (.fin 900) = pure (.fin s) ∧
    Region2.T2_ps .ideal (.fin 10) (.fin s) = pure (.fin T') ∧ |T' - 900| ≤ 0.04 := C58_T2_ps region2_point

end PyX
