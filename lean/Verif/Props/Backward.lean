import Verif.Lemmas.T1ph
import Verif.Lemmas.T1ps
import Verif.Lemmas.P1hs
import Verif.Props.Stability

/-!
# C48, C49, C50: the backward equations undo the basic equations
-/

namespace PyX

open Classical Py Num Spec Spec.IF97 Spec.PT

/-! ## The sums -/

/-- the loop by which a backward equation is evaluated -/
theorem backsum {N : ℕ} (ts : List Term) (hN : ts.length = N) {a b : ℝ} (ha : ∀ t ∈ ts, a ≠ 0 ∨ 0 ≤ t.I)
    (hb : ∀ t ∈ ts, b ≠ 0 ∨ 0 ≤ t.J) :
    forRange 0 N (.fin 0) (fun i S => do
      let n ← idx (ts.map Term.n) i
      let I ← idx (ts.map Term.I) i
      let u ← FP.ideal.pow (.fin a) (.fin (I : ℝ))
      let J ← idx (ts.map Term.J) i
      let v ← FP.ideal.pow (.fin b) (.fin (J : ℝ))
      pure (FP.ideal.add S (FP.ideal.mul (FP.ideal.mul (FP.ideal.lit n) u) v))) = pure (.fin (dpoly ts 0 0 a b)) := by
  rw [loop1 (N := N) (a := 0) (b := N) ts hN (by simp) (fun t => Term.d t 0 0 a b) 0 _ fun i hi s => ?_]
  · simp only [dpoly, zero_add]
  · have m : ts[i] ∈ ts := List.getElem_mem hi
    simp only [Nat.add_zero, idx_map _ hi, pure_bind, lit_ideal, pow_ideal_int (ha _ m), pow_ideal_int (hb _ m), mul_ideal,
      add_ideal, Term.d, ff]
    push_cast
    ring_nf

variable {p h s T : ℝ}

theorem T1_ph_eq : Region1.T1_ph .ideal (.fin p) (.fin h) = pure (.fin (dpoly Kron.T1ph.table 0 0 p (h / 2500 + 1))) := by
  have iI1 : Region1.T1_ph.I1 = Kron.T1ph.table.map Term.I := rfl
  have iJ1 : Region1.T1_ph.J1 = Kron.T1ph.table.map Term.J := rfl
  have in1 : Region1.T1_ph.n1 = Kron.T1ph.table.map Term.n := rfl
  unfold Region1.T1_ph
  rw [iI1, iJ1, in1]
  simp only [ofInt_eq, Int.cast_ofNat, Int.cast_one, Int.cast_zero, div_ideal one_ne_zero,
    div_ideal (show (2500 : ℝ) ≠ 0 by norm_num), pure_bind, div_one, add_ideal]
  exact backsum (N := 20) _ rfl (fun t ht => .inr ((by decide : ∀ t ∈ Kron.T1ph.table, 0 ≤ t.I) t ht))
    (fun t ht => .inr ((by decide : ∀ t ∈ Kron.T1ph.table, 0 ≤ t.J) t ht))

theorem T1_ps_eq : Region1.T1_ps .ideal (.fin p) (.fin s) = pure (.fin (dpoly Kron.T1ps.table 0 0 p (s + 2))) := by
  have iI1 : Region1.T1_ps.I1 = Kron.T1ps.table.map Term.I := rfl
  have iJ1 : Region1.T1_ps.J1 = Kron.T1ps.table.map Term.J := rfl
  have in1 : Region1.T1_ps.n1 = Kron.T1ps.table.map Term.n := rfl
  unfold Region1.T1_ps
  rw [iI1, iJ1, in1]
  simp only [ofInt_eq, Int.cast_ofNat, Int.cast_one, Int.cast_zero, div_ideal one_ne_zero, pure_bind, div_one, add_ideal]
  exact backsum (N := 20) _ rfl (fun t ht => .inr ((by decide : ∀ t ∈ Kron.T1ps.table, 0 ≤ t.I) t ht))
    (fun t ht => .inr ((by decide : ∀ t ∈ Kron.T1ps.table, 0 ≤ t.J) t ht))

theorem p1_hs_eq : Region1.p1_hs .ideal (.fin h) (.fin s) =
    pure (.fin (100 * dpoly Kron.P1hs.table 0 0 (h / 3400 + 0.05) (s / 7.6 + 0.05))) := by
  have iI1 : Region1.p1_hs.I1 = Kron.P1hs.table.map Term.I := rfl
  have iJ1 : Region1.p1_hs.J1 = Kron.P1hs.table.map Term.J := rfl
  have in1 : Region1.p1_hs.n1 = Kron.P1hs.table.map Term.n := rfl
  unfold Region1.p1_hs
  rw [iI1, iJ1, in1]
  have q : ((7.6 : ℚ) : ℝ) = 7.6 := by norm_num
  have r : ((0.05 : ℚ) : ℝ) = 0.05 := by norm_num
  simp only [ofInt_eq, Int.cast_ofNat, Int.cast_zero, lit_ideal, q, r, div_ideal (show (3400 : ℝ) ≠ 0 by norm_num),
    div_ideal (show (7.6 : ℝ) ≠ 0 by norm_num), pure_bind, add_ideal]
  have e := backsum (N := 19) (a := h / 3400 + 0.05) (b := s / 7.6 + 0.05) _ rfl
    (fun t ht => .inr ((by decide : ∀ t ∈ Kron.P1hs.table, 0 ≤ t.I) t ht))
    (fun t ht => .inr ((by decide : ∀ t ∈ Kron.P1hs.table, 0 ≤ t.J) t ht))
  simp only [lit_ideal] at e
  rw [e, pure_bind, mul_ideal, mul_comm]

theorem region1_le (hr : InRegion 1 p T) : T ≤ 623.15 := by
  rcases hr with ⟨h, _⟩ | ⟨h, _⟩ | ⟨_, h⟩ | ⟨h, _⟩ | ⟨h, _⟩ | ⟨h, _⟩ | ⟨h, _⟩ | ⟨h, _⟩
  iterate 2 exact absurd h (by norm_num)
  · exact h.2.1
  all_goals exact absurd h (by norm_num)

/-! ## C48, C49, C50 -/

/-- **C48**: the backward equation for the temperature in region 1 returns the temperature of the basic equation, to within
25 mK -/
theorem C48_T1_ph (hr : InRegion 1 p T) : ∃ h T' : ℝ, Region1.h1_pT .ideal (.fin p) (.fin T) = pure (.fin h) ∧
    Region1.T1_ph .ideal (.fin p) (.fin h) = pure (.fin T') ∧ |T' - T| ≤ 0.025 :=
  ⟨_, _, h1_pT_eq (dom1_of_region hr), T1_ph_eq,
    Kron.T1ph.accurate (liquid_of_region1 hr) (by linarith [region1_le hr])⟩

example : ∃ h T' : ℝ, Region1.h1_pT .ideal (.fin 50) (.fin 400) = pure (.fin h) ∧
    Region1.T1_ph .ideal (.fin 50) (.fin h) = pure (.fin T') ∧ |T' - 400| ≤ 0.025 := C48_T1_ph region1_point

/-- **C49**: so does the one which is given the entropy -/
theorem C49_T1_ps (hr : InRegion 1 p T) : ∃ s T' : ℝ, Region1.s1_pT .ideal (.fin p) (.fin T) = pure (.fin s) ∧
    Region1.T1_ps .ideal (.fin p) (.fin s) = pure (.fin T') ∧ |T' - T| ≤ 0.025 :=
  ⟨_, _, s1_pT_eq (dom1_of_region hr), T1_ps_eq,
    Kron.T1ps.accurate (liquid_of_region1 hr) (by linarith [region1_le hr])⟩

example : ∃ s T' : ℝ, Region1.s1_pT .ideal (.fin 50) (.fin 400) = pure (.fin s) ∧
    Region1.T1_ps .ideal (.fin 50) (.fin s) = pure (.fin T') ∧ |T' - 400| ≤ 0.025 := C49_T1_ps region1_point

/-- **C50**: the pressure found from enthalpy and entropy in region 1 is that of the basic equations, to within 15 kPa -/
theorem C50_p1_hs (hr : InRegion 1 p T) : ∃ h s p' : ℝ, Region1.h1_pT .ideal (.fin p) (.fin T) = pure (.fin h) ∧
    Region1.s1_pT .ideal (.fin p) (.fin T) = pure (.fin s) ∧
    Region1.p1_hs .ideal (.fin h) (.fin s) = pure (.fin p') ∧ |p' - p| ≤ 0.015 :=
  ⟨_, _, _, h1_pT_eq (dom1_of_region hr), s1_pT_eq (dom1_of_region hr), p1_hs_eq,
    Kron.P1hs.accurate (liquid_of_region1 hr) (by linarith [region1_le hr])⟩

example : ∃ h s p' : ℝ, Region1.h1_pT .ideal (.fin 50) (.fin 400) = pure (.fin h) ∧
    Region1.s1_pT .ideal (.fin 50) (.fin 400) = pure (.fin s) ∧
    Region1.p1_hs .ideal (.fin h) (.fin s) = pure (.fin p') ∧ |p' - 50| ≤ 0.015 := C50_p1_hs region1_point

end PyX
