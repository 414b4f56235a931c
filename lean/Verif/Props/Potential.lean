import Verif.Lemmas.Gibbs
import Verif.Model.Kernels

/-!
# C20–C24: the properties of a region come from one thermodynamic potential
-/

namespace PyX

open Classical Py Num Spec Spec.IF97

theorem lit_R : FP.ideal.lit Constants.SPECIFIC_GAS_CONSTANT = .fin R := by
  rw [lit_ideal, R, Constants.SPECIFIC_GAS_CONSTANT]; norm_num

private theorem e1653 : FP.ideal.lit 16.53 = .fin 16.53 := by rw [lit_ideal]; norm_num
private theorem e71 : FP.ideal.lit 7.1 = .fin 7.1 := by rw [lit_ideal]; norm_num
private theorem e1222 : FP.ideal.lit 1.222 = .fin 1.222 := by rw [lit_ideal]; norm_num
private theorem e05 : FP.ideal.lit 0.5 = .fin 0.5 := by rw [lit_ideal]; norm_num
private theorem e322 : FP.ideal.lit 322.0 = .fin 322 := by rw [lit_ideal]; norm_num
private theorem e1000' : FP.ideal.lit 1000.0 = .fin 1000 := by rw [lit_ideal]; norm_num
private theorem etc : FP.ideal.lit Constants.CRITICAL_TEMPERATURE = .fin 647.096 := by
  rw [lit_ideal, Constants.CRITICAL_TEMPERATURE]; norm_num
private theorem e1386 : Num.ofInt 1386 = .fin 1386 := by rw [ofInt_eq]; norm_num
private theorem e540 : Num.ofInt 540 = .fin 540 := by rw [ofInt_eq]; norm_num
private theorem e1000 : Num.ofInt 1000 = .fin 1000 := by rw [ofInt_eq]; norm_num
private theorem e0 : Num.ofInt 0 = .fin 0 := by rw [ofInt_eq]; norm_num
private theorem e1 : Num.ofInt 1 = .fin 1 := by rw [ofInt_eq]; norm_num
private theorem e2 : Num.ofInt 2 = .fin 2 := by rw [ofInt_eq]; norm_num
private theorem d1653 (a : ℝ) : FP.ideal.div (.fin a) (.fin 16.53) = pure (.fin (a / 16.53)) :=
  div_ideal (by norm_num)
private theorem d1000 (a : ℝ) : FP.ideal.div (.fin a) (.fin 1000) = pure (.fin (a / 1000)) :=
  div_ideal (by norm_num)
private theorem d322 (a : ℝ) : FP.ideal.div (.fin a) (.fin 322) = pure (.fin (a / 322)) :=
  div_ideal (by norm_num)
private theorem sq (a : ℝ) : FP.ideal.pow (.fin a) (.fin 2) = pure (.fin (a ^ 2)) := by
  have := pow_ideal_int (a := a) (n := 2) (Or.inr (by norm_num))
  simpa using this

macro "lits" : tactic => `(tactic| try simp only [lit_R, e1653, e71, e1222, e05, e322, e1000', etc, e1386, e540, e1000,
  e0, e1, e2, d1653, d1000, d322, sq, pure_bind, sub_ideal, add_ideal, mul_ideal, neg_fin])

/-! ## Region 1 -/

/-- the points where the region 1 equation can be evaluated -/
structure Dom1 (p T : ℝ) : Prop where
  hp : p ≠ 0
  hT : T ≠ 0
  hx : 7.1 - p / 16.53 ≠ 0
  hy : 1386 / T - 1.222 ≠ 0

section

variable {p T : ℝ}

theorem v1_pT_eq (h : Dom1 p T) :
    Region1.v1_pT .ideal (.fin p) (.fin T) = pure (.fin (gamma1.v p T)) := by
  have iI1 : Region1.v1_pT.I1 = region1.map Term.I := rfl
  have iJ1 : Region1.v1_pT.J1 = region1.map Term.J := rfl
  have in1 : Region1.v1_pT.n1 = region1.map Term.n := rfl
  unfold Region1.v1_pT
  rw [iI1, iJ1, in1]
  lits
  simp only [div_ideal h.hT, pure_bind]
  lits
  rw [loop1 (N := 34) (a := 0) (b := 34) region1 rfl rfl (fun t => -Term.d t 1 0 (7.1 - p / 16.53) (1386 / T - 1.222)) 0 _ fun i hi s => ?_]
  · try simp only [sum_neg_map]
    lits
    simp only [div_ideal h.hp, pure_bind]
    lits
    simp only [Gamma.v, gamma1, dpoly]
    have hp := h.hp
    have hT := h.hT
    congr 2
    field_simp
    try ring
  · simp only [Nat.add_zero, idx_map _ hi, pure_bind, ofInt_eq, lit_ideal, pow_ideal_int (Or.inl h.hx),
      pow_ideal_int (Or.inl h.hy), mul_ideal, sub_ideal, add_ideal, Term.d, ff]
    push_cast
    ring_nf

theorem h1_pT_eq (h : Dom1 p T) :
    Region1.h1_pT .ideal (.fin p) (.fin T) = pure (.fin (gamma1.h p T)) := by
  have iI1 : Region1.h1_pT.I1 = region1.map Term.I := rfl
  have iJ1 : Region1.h1_pT.J1 = region1.map Term.J := rfl
  have in1 : Region1.h1_pT.n1 = region1.map Term.n := rfl
  unfold Region1.h1_pT
  rw [iI1, iJ1, in1]
  lits
  simp only [div_ideal h.hT, pure_bind]
  lits
  rw [loop1 (N := 34) (a := 0) (b := 34) region1 rfl rfl (fun t => Term.d t 0 1 (7.1 - p / 16.53) (1386 / T - 1.222)) 0 _ fun i hi s => ?_]
  · try simp only [sum_neg_map]
    lits
    simp only [Gamma.h, gamma1, dpoly]
    have hp := h.hp
    have hT := h.hT
    congr 2
    field_simp
    try ring
  · simp only [Nat.add_zero, idx_map _ hi, pure_bind, ofInt_eq, lit_ideal, pow_ideal_int (Or.inl h.hx),
      pow_ideal_int (Or.inl h.hy), mul_ideal, sub_ideal, add_ideal, Term.d, ff]
    push_cast
    ring_nf

theorem u1_pT_eq (h : Dom1 p T) :
    Region1.u1_pT .ideal (.fin p) (.fin T) = pure (.fin (gamma1.u p T)) := by
  have iI1 : Region1.u1_pT.I1 = region1.map Term.I := rfl
  have iJ1 : Region1.u1_pT.J1 = region1.map Term.J := rfl
  have in1 : Region1.u1_pT.n1 = region1.map Term.n := rfl
  unfold Region1.u1_pT
  rw [iI1, iJ1, in1]
  lits
  simp only [div_ideal h.hT, pure_bind]
  lits
  rw [loop2 (N := 34) (a := 0) (b := 34) region1 rfl rfl (fun t => -Term.d t 1 0 (7.1 - p / 16.53) (1386 / T - 1.222))
    (fun t => Term.d t 0 1 (7.1 - p / 16.53) (1386 / T - 1.222)) 0 0 _ fun i hi s0 s1 => ?_]
  · try simp only [sum_neg_map]
    lits
    simp only [Gamma.u, gamma1, dpoly]
    have hp := h.hp
    have hT := h.hT
    congr 2
    field_simp
    try ring
  · simp only [Nat.add_zero, idx_map _ hi, pure_bind, ofInt_eq, lit_ideal, pow_ideal_int (Or.inl h.hx),
      pow_ideal_int (Or.inl h.hy), mul_ideal, sub_ideal, add_ideal, Term.d, ff]
    push_cast
    ring_nf

theorem s1_pT_eq (h : Dom1 p T) :
    Region1.s1_pT .ideal (.fin p) (.fin T) = pure (.fin (gamma1.s p T)) := by
  have iI1 : Region1.s1_pT.I1 = region1.map Term.I := rfl
  have iJ1 : Region1.s1_pT.J1 = region1.map Term.J := rfl
  have in1 : Region1.s1_pT.n1 = region1.map Term.n := rfl
  unfold Region1.s1_pT
  rw [iI1, iJ1, in1]
  lits
  simp only [div_ideal h.hT, pure_bind]
  lits
  rw [loop2 (N := 34) (a := 0) (b := 34) region1 rfl rfl (fun t => Term.d t 0 1 (7.1 - p / 16.53) (1386 / T - 1.222))
    (fun t => Term.d t 0 0 (7.1 - p / 16.53) (1386 / T - 1.222)) 0 0 _ fun i hi s0 s1 => ?_]
  · try simp only [sum_neg_map]
    lits
    simp only [Gamma.s, gamma1, dpoly]
    have hp := h.hp
    have hT := h.hT
    congr 2
    field_simp
    try ring
  · simp only [Nat.add_zero, idx_map _ hi, pure_bind, ofInt_eq, lit_ideal, pow_ideal_int (Or.inl h.hx),
      pow_ideal_int (Or.inl h.hy), mul_ideal, sub_ideal, add_ideal, Term.d, ff]
    push_cast
    ring_nf

theorem Cp1_pT_eq (h : Dom1 p T) :
    Region1.Cp1_pT .ideal (.fin p) (.fin T) = pure (.fin (gamma1.cp p T)) := by
  have iI1 : Region1.Cp1_pT.I1 = region1.map Term.I := rfl
  have iJ1 : Region1.Cp1_pT.J1 = region1.map Term.J := rfl
  have in1 : Region1.Cp1_pT.n1 = region1.map Term.n := rfl
  unfold Region1.Cp1_pT
  rw [iI1, iJ1, in1]
  lits
  simp only [div_ideal h.hT, pure_bind]
  lits
  rw [loop1 (N := 34) (a := 0) (b := 34) region1 rfl rfl (fun t => Term.d t 0 2 (7.1 - p / 16.53) (1386 / T - 1.222)) 0 _ fun i hi s => ?_]
  · try simp only [sum_neg_map]
    lits
    simp only [Gamma.cp, gamma1, dpoly]
    have hp := h.hp
    have hT := h.hT
    congr 2
    field_simp
    try ring
  · simp only [Nat.add_zero, idx_map _ hi, pure_bind, ofInt_eq, lit_ideal, pow_ideal_int (Or.inl h.hx),
      pow_ideal_int (Or.inl h.hy), mul_ideal, sub_ideal, add_ideal, Term.d, ff]
    push_cast
    ring_nf

theorem Cv1_pT_eq (h : Dom1 p T) :
    Region1.Cv1_pT .ideal (.fin p) (.fin T) = 
      if gamma1.gpp (p / 16.53) (1386 / T) = 0 then Py.raise .zeroDivision
      else pure (.fin (gamma1.cv p T)) := by
  have iI1 : Region1.Cv1_pT.I1 = region1.map Term.I := rfl
  have iJ1 : Region1.Cv1_pT.J1 = region1.map Term.J := rfl
  have in1 : Region1.Cv1_pT.n1 = region1.map Term.n := rfl
  unfold Region1.Cv1_pT
  rw [iI1, iJ1, in1]
  lits
  simp only [div_ideal h.hT, pure_bind]
  lits
  rw [loop4 (N := 34) (a := 0) (b := 34) region1 rfl rfl (fun t => -Term.d t 1 0 (7.1 - p / 16.53) (1386 / T - 1.222))
    (fun t => Term.d t 2 0 (7.1 - p / 16.53) (1386 / T - 1.222))
    (fun t => -Term.d t 1 1 (7.1 - p / 16.53) (1386 / T - 1.222))
    (fun t => Term.d t 0 2 (7.1 - p / 16.53) (1386 / T - 1.222)) 0 0 0 0 _ fun i hi s0 s1 s2 s3 => ?_]
  · simp only [sum_neg_map]
    lits
    simp only [div_ideal_eq, zero_add]
    by_cases hz : gamma1.gpp (p / 16.53) (1386 / T) = 0
    · have hz' : (region1.map fun t => Term.d t 2 0 (7.1 - p / 16.53) (1386 / T - 1.222)).sum = 0 := hz
      rw [if_pos hz, if_pos hz']
      rfl
    · have hz' : (region1.map fun t => Term.d t 2 0 (7.1 - p / 16.53) (1386 / T - 1.222)).sum ≠ 0 := hz
      rw [if_neg hz, if_neg hz']
      lits
      rfl
  · simp only [Nat.add_zero, idx_map _ hi, pure_bind, ofInt_eq, lit_ideal, pow_ideal_int (Or.inl h.hx),
      pow_ideal_int (Or.inl h.hy), mul_ideal, sub_ideal, add_ideal, Term.d, ff]
    push_cast
    ring_nf

theorem w1_pT_eq (h : Dom1 p T) :
    Region1.w1_pT .ideal (.fin p) (.fin T) = (do
      let q ← FP.ideal.div (.fin ((gamma1.gp (p / 16.53) (1386 / T) -
          1386 / T * gamma1.gpt (p / 16.53) (1386 / T)) ^ 2))
        (.fin ((1386 / T) ^ 2 * gamma1.gtt (p / 16.53) (1386 / T)))
      let r ← FP.ideal.div (.fin (1000 * R * T * gamma1.gp (p / 16.53) (1386 / T) ^ 2))
        (FP.ideal.sub q (.fin (gamma1.gpp (p / 16.53) (1386 / T))))
      FP.ideal.pow r (.fin 0.5)) := by
  have iI1 : Region1.w1_pT.I1 = region1.map Term.I := rfl
  have iJ1 : Region1.w1_pT.J1 = region1.map Term.J := rfl
  have in1 : Region1.w1_pT.n1 = region1.map Term.n := rfl
  unfold Region1.w1_pT
  rw [iI1, iJ1, in1]
  lits
  simp only [div_ideal h.hT, pure_bind]
  lits
  rw [loop4 (N := 34) (a := 0) (b := 34) region1 rfl rfl (fun t => -Term.d t 1 0 (7.1 - p / 16.53) (1386 / T - 1.222))
    (fun t => Term.d t 2 0 (7.1 - p / 16.53) (1386 / T - 1.222))
    (fun t => -Term.d t 1 1 (7.1 - p / 16.53) (1386 / T - 1.222))
    (fun t => Term.d t 0 2 (7.1 - p / 16.53) (1386 / T - 1.222)) 0 0 0 0 _ fun i hi s0 s1 s2 s3 => ?_]
  · simp only [sum_neg_map]
    lits
    simp only [zero_add]
    rfl
  · simp only [Nat.add_zero, idx_map _ hi, pure_bind, ofInt_eq, lit_ideal, pow_ideal_int (Or.inl h.hx),
      pow_ideal_int (Or.inl h.hy), mul_ideal, sub_ideal, add_ideal, Term.d, ff]
    push_cast
    ring_nf

/-- C20: in region 1 the functions of the code compute the properties belonging to the Gibbs free energy `g1` -/
theorem C20_region1 : ∃ v s h u cp : ℝ → ℝ → ℝ, ∀ p T : ℝ, Dom1 p T →
    Region1.v1_pT .ideal (.fin p) (.fin T) = pure (.fin (v p T)) ∧
    Region1.s1_pT .ideal (.fin p) (.fin T) = pure (.fin (s p T)) ∧
    Region1.h1_pT .ideal (.fin p) (.fin T) = pure (.fin (h p T)) ∧
    Region1.u1_pT .ideal (.fin p) (.fin T) = pure (.fin (u p T)) ∧
    Region1.Cp1_pT .ideal (.fin p) (.fin T) = pure (.fin (cp p T)) ∧
    Gibbs g1 v s h u cp p T ∧
    ∃ vp vT, HasDerivAt (fun p => v p T) vp p ∧ HasDerivAt (fun T => v p T) vT T ∧
      (∀ a, (Region1.Cv1_pT .ideal (.fin p) (.fin T)).out = .ok a →
        ∃ cv, a = .fin cv ∧ IsochoricHeat T vp vT (cp p T) cv) ∧
      (∀ a, (Region1.w1_pT .ideal (.fin p) (.fin T)).out = .ok a →
        ∃ w, a = .fin w ∧ SoundSpeed T (v p T) vp vT (cp p T) w) := by
  refine ⟨gamma1.v, gamma1.s, gamma1.h, gamma1.u, gamma1.cp, fun p T h => ?_⟩
  have hps : gamma1.ps ≠ 0 := by norm_num [gamma1]
  have hTs : gamma1.Ts ≠ 0 := by norm_num [gamma1]
  have hat : gamma1.At (p / gamma1.ps) (gamma1.Ts / T) := gamma1_at h.hx h.hy
  refine ⟨v1_pT_eq h, s1_pT_eq h, h1_pT_eq h, u1_pT_eq h, Cp1_pT_eq h, ?_, gamma1.vp p T, gamma1.vT p T,
    hat.vp hps, hat.vT h.hT, fun a ha => ?_, fun a ha => ?_⟩
  · rw [← gamma1_pot]
    exact hat.gibbs hps h.hT
  · rw [Cv1_pT_eq h] at ha
    exact Gamma.cv_of hps h.hT rfl rfl ha
  · rw [w1_pT_eq h] at ha
    exact Gamma.sound_of hps hTs h.hT rfl rfl ha

/-! ## Region 2 -/

/-- the points where the region 2 equation can be evaluated -/
structure Dom2 (p T : ℝ) : Prop where
  hp : 0 < p
  hT : T ≠ 0
  hy : 540 / T - 0.5 ≠ 0

theorem v2_pT_eq' (hp : 0 < p) (hT : T ≠ 0) :
    Region2.v2_pT .ideal (.fin p) (.fin T) = pure (.fin (gamma2.v p T)) := by
  have iIr : Region2.v2_pT.Ir = region2.map Term.I := rfl
  have iJr : Region2.v2_pT.Jr = region2.map Term.J := rfl
  have inr : Region2.v2_pT.nr = region2.map Term.n := rfl
  have hx := hp.ne'
  have hτ : (540 : ℝ) / T ≠ 0 := div_ne_zero (by norm_num) hT
  have hJ : ∀ t ∈ region2, 0 ≤ t.J := by decide
  unfold Region2.v2_pT
  rw [iIr, iJr, inr]
  lits
  try simp only [div_ideal hT, pure_bind]
  lits
  try simp only [div_ideal hx, pure_bind]
  lits
  rw [loop1 (N := 43) (a := 0) (b := 43) region2 rfl rfl
    (fun t => Term.d t 1 0 p (540 / T - 0.5)) 0 _ fun i hi s => ?_]
  rotate_left
  · simp only [Nat.add_zero, idx_map _ hi, pure_bind, ofInt_eq, lit_ideal, pow_ideal_int (Or.inl hx),
      pow_ideal_int (Or.inr (hJ _ (List.getElem_mem hi))), mul_ideal, add_ideal, Term.d, ff, one_zpow]
    push_cast
    ring_nf
  lits
  try simp only [div_ideal hx, pure_bind]
  lits
  simp only [Gamma.v, gamma2, dpoly, div_one, zero_add]
  congr 2
  field_simp

theorem v2_pT_eq (h : Dom2 p T) :
    Region2.v2_pT .ideal (.fin p) (.fin T) = pure (.fin (gamma2.v p T)) :=
  v2_pT_eq' h.hp h.hT

theorem h2_pT_eq (h : Dom2 p T) :
    Region2.h2_pT .ideal (.fin p) (.fin T) = pure (.fin (gamma2.h p T)) := by
  have iIr : Region2.h2_pT.Ir = region2.map Term.I := rfl
  have iJr : Region2.h2_pT.Jr = region2.map Term.J := rfl
  have inr : Region2.h2_pT.nr = region2.map Term.n := rfl
  have iJ0 : Region2.h2_pT.J0 = region2Ideal.map Term.J := rfl
  have in0 : Region2.h2_pT.n0 = region2Ideal.map Term.n := rfl
  have hx := h.hp.ne'
  have hT := h.hT
  have hτ : (540 : ℝ) / T ≠ 0 := div_ne_zero (by norm_num) hT
  have hy := h.hy
  unfold Region2.h2_pT
  rw [iIr, iJr, inr, iJ0, in0]
  lits
  try simp only [div_ideal hT, pure_bind]
  lits
  rw [loop1 (N := 9) (a := 0) (b := 9) region2Ideal rfl rfl
    (fun t => Term.d t 0 1 1 (540 / T)) 0 _ fun i hi s => ?_]
  rotate_left
  · simp only [Nat.add_zero, idx_map _ hi, pure_bind, ofInt_eq, lit_ideal,
      pow_ideal_int (Or.inl hτ), mul_ideal, add_ideal, Term.d, ff, one_zpow]
    push_cast
    ring_nf
  lits
  rw [loop1 (N := 43) (a := 0) (b := 43) region2 rfl rfl
    (fun t => Term.d t 0 1 p (540 / T - 0.5)) 0 _ fun i hi s => ?_]
  rotate_left
  · simp only [Nat.add_zero, idx_map _ hi, pure_bind, ofInt_eq, lit_ideal, pow_ideal_int (Or.inl hx),
      pow_ideal_int (Or.inl hy), mul_ideal, add_ideal, Term.d, ff, one_zpow]
    push_cast
    ring_nf
  lits
  simp only [Gamma.h, gamma2, dpoly, div_one, zero_add]
  all_goals
    congr 2
    try field_simp
    try ring

theorem u2_pT_eq (h : Dom2 p T) :
    Region2.u2_pT .ideal (.fin p) (.fin T) = pure (.fin (gamma2.u p T)) := by
  have iIr : Region2.u2_pT.Ir = region2.map Term.I := rfl
  have iJr : Region2.u2_pT.Jr = region2.map Term.J := rfl
  have inr : Region2.u2_pT.nr = region2.map Term.n := rfl
  have iJ0 : Region2.u2_pT.J0 = region2Ideal.map Term.J := rfl
  have in0 : Region2.u2_pT.n0 = region2Ideal.map Term.n := rfl
  have hx := h.hp.ne'
  have hT := h.hT
  have hτ : (540 : ℝ) / T ≠ 0 := div_ne_zero (by norm_num) hT
  have hy := h.hy
  unfold Region2.u2_pT
  rw [iIr, iJr, inr, iJ0, in0]
  lits
  try simp only [div_ideal hT, pure_bind]
  lits
  try simp only [div_ideal hx, pure_bind]
  lits
  rw [loop1 (N := 9) (a := 0) (b := 9) region2Ideal rfl rfl
    (fun t => Term.d t 0 1 1 (540 / T)) 0 _ fun i hi s => ?_]
  rotate_left
  · simp only [Nat.add_zero, idx_map _ hi, pure_bind, ofInt_eq, lit_ideal,
      pow_ideal_int (Or.inl hτ), mul_ideal, add_ideal, Term.d, ff, one_zpow]
    push_cast
    ring_nf
  lits
  rw [loop2 (N := 43) (a := 0) (b := 43) region2 rfl rfl
    (fun t => Term.d t 1 0 p (540 / T - 0.5))
    (fun t => Term.d t 0 1 p (540 / T - 0.5)) 0 0 _ fun i hi s0 s1 => ?_]
  rotate_left
  · simp only [Nat.add_zero, idx_map _ hi, pure_bind, ofInt_eq, lit_ideal, pow_ideal_int (Or.inl hx),
      pow_ideal_int (Or.inl hy), mul_ideal, add_ideal, Term.d, ff, one_zpow]
    push_cast
    ring_nf
  lits
  simp only [Gamma.u, gamma2, dpoly, div_one, zero_add]
  all_goals
    congr 2
    try field_simp
    try ring

theorem s2_pT_eq (h : Dom2 p T) :
    Region2.s2_pT .ideal (.fin p) (.fin T) = pure (.fin (gamma2.s p T)) := by
  have iIr : Region2.s2_pT.Ir = region2.map Term.I := rfl
  have iJr : Region2.s2_pT.Jr = region2.map Term.J := rfl
  have inr : Region2.s2_pT.nr = region2.map Term.n := rfl
  have iJ0 : Region2.s2_pT.J0 = region2Ideal.map Term.J := rfl
  have in0 : Region2.s2_pT.n0 = region2Ideal.map Term.n := rfl
  have hx := h.hp.ne'
  have hT := h.hT
  have hτ : (540 : ℝ) / T ≠ 0 := div_ne_zero (by norm_num) hT
  have hy := h.hy
  unfold Region2.s2_pT
  rw [iIr, iJr, inr, iJ0, in0]
  lits
  try simp only [div_ideal hT, pure_bind]
  lits
  try simp only [log_ideal h.hp, pure_bind]
  rw [loop2 (N := 9) (a := 0) (b := 9) region2Ideal rfl rfl
    (fun t => Term.d t 0 0 1 (540 / T))
    (fun t => Term.d t 0 1 1 (540 / T)) (Real.log p) 0 _ fun i hi s0 s1 => ?_]
  rotate_left
  · simp only [Nat.add_zero, idx_map _ hi, pure_bind, ofInt_eq, lit_ideal,
      pow_ideal_int (Or.inl hτ), mul_ideal, add_ideal, Term.d, ff, one_zpow]
    push_cast
    ring_nf
  lits
  rw [loop2 (N := 43) (a := 0) (b := 43) region2 rfl rfl
    (fun t => Term.d t 0 0 p (540 / T - 0.5))
    (fun t => Term.d t 0 1 p (540 / T - 0.5)) 0 0 _ fun i hi s0 s1 => ?_]
  rotate_left
  · simp only [Nat.add_zero, idx_map _ hi, pure_bind, ofInt_eq, lit_ideal, pow_ideal_int (Or.inl hx),
      pow_ideal_int (Or.inl hy), mul_ideal, add_ideal, Term.d, ff, one_zpow]
    push_cast
    ring_nf
  lits
  simp only [Gamma.s, gamma2, dpoly, div_one, zero_add]
  all_goals
    congr 2
    try field_simp
    try ring

theorem Cp2_pT_eq (h : Dom2 p T) :
    Region2.Cp2_pT .ideal (.fin p) (.fin T) = pure (.fin (gamma2.cp p T)) := by
  have iIr : Region2.Cp2_pT.Ir = region2.map Term.I := rfl
  have iJr : Region2.Cp2_pT.Jr = region2.map Term.J := rfl
  have inr : Region2.Cp2_pT.nr = region2.map Term.n := rfl
  have iJ0 : Region2.Cp2_pT.J0 = region2Ideal.map Term.J := rfl
  have in0 : Region2.Cp2_pT.n0 = region2Ideal.map Term.n := rfl
  have hx := h.hp.ne'
  have hT := h.hT
  have hτ : (540 : ℝ) / T ≠ 0 := div_ne_zero (by norm_num) hT
  have hy := h.hy
  unfold Region2.Cp2_pT
  rw [iIr, iJr, inr, iJ0, in0]
  lits
  try simp only [div_ideal hT, pure_bind]
  lits
  rw [loop1 (N := 9) (a := 0) (b := 9) region2Ideal rfl rfl
    (fun t => Term.d t 0 2 1 (540 / T)) 0 _ fun i hi s => ?_]
  rotate_left
  · simp only [Nat.add_zero, idx_map _ hi, pure_bind, ofInt_eq, lit_ideal,
      pow_ideal_int (Or.inl hτ), mul_ideal, add_ideal, Term.d, ff, one_zpow]
    push_cast
    ring_nf
  lits
  rw [loop1 (N := 43) (a := 0) (b := 43) region2 rfl rfl
    (fun t => Term.d t 0 2 p (540 / T - 0.5)) 0 _ fun i hi s => ?_]
  rotate_left
  · simp only [Nat.add_zero, idx_map _ hi, pure_bind, ofInt_eq, lit_ideal, pow_ideal_int (Or.inl hx),
      pow_ideal_int (Or.inl hy), mul_ideal, add_ideal, Term.d, ff, one_zpow]
    push_cast
    ring_nf
  lits
  simp only [Gamma.cp, gamma2, dpoly, div_one, zero_add]
  all_goals
    congr 2
    try field_simp
    try ring

theorem Cv2_pT_eq (h : Dom2 p T) :
    Region2.Cv2_pT .ideal (.fin p) (.fin T) = 
      if gamma2.gpp p (540 / T) = 0 then Py.raise .zeroDivision else pure (.fin (gamma2.cv p T)) := by
  have iIr : Region2.Cv2_pT.Ir = region2.map Term.I := rfl
  have iJr : Region2.Cv2_pT.Jr = region2.map Term.J := rfl
  have inr : Region2.Cv2_pT.nr = region2.map Term.n := rfl
  have iJ0 : Region2.Cv2_pT.J0 = region2Ideal.map Term.J := rfl
  have in0 : Region2.Cv2_pT.n0 = region2Ideal.map Term.n := rfl
  have hx := h.hp.ne'
  have hT := h.hT
  have hτ : (540 : ℝ) / T ≠ 0 := div_ne_zero (by norm_num) hT
  have hy := h.hy
  unfold Region2.Cv2_pT
  rw [iIr, iJr, inr, iJ0, in0]
  lits
  try simp only [div_ideal hT, pure_bind]
  lits
  rw [loop1 (N := 9) (a := 0) (b := 9) region2Ideal rfl rfl
    (fun t => Term.d t 0 2 1 (540 / T)) 0 _ fun i hi s => ?_]
  rotate_left
  · simp only [Nat.add_zero, idx_map _ hi, pure_bind, ofInt_eq, lit_ideal,
      pow_ideal_int (Or.inl hτ), mul_ideal, add_ideal, Term.d, ff, one_zpow]
    push_cast
    ring_nf
  lits
  rw [loop4 (N := 43) (a := 0) (b := 43) region2 rfl rfl
    (fun t => Term.d t 1 0 p (540 / T - 0.5))
    (fun t => Term.d t 2 0 p (540 / T - 0.5))
    (fun t => Term.d t 1 1 p (540 / T - 0.5))
    (fun t => Term.d t 0 2 p (540 / T - 0.5)) 0 0 0 0 _ fun i hi s0 s1 s2 s3 => ?_]
  rotate_left
  · simp only [Nat.add_zero, idx_map _ hi, pure_bind, ofInt_eq, lit_ideal, pow_ideal_int (Or.inl hx),
      pow_ideal_int (Or.inl hy), mul_ideal, add_ideal, Term.d, ff, one_zpow]
    push_cast
    ring_nf
  lits
  simp only [div_ideal_eq, zero_add]
  have e : 1 - p ^ 2 * (region2.map fun t => Term.d t 2 0 p (540 / T - 0.5)).sum = -(p ^ 2 * gamma2.gpp p (540 / T)) := by
    simp only [gamma2, dpoly]
    field_simp
    ring
  rw [e]
  by_cases hz : gamma2.gpp p (540 / T) = 0
  · rw [if_pos hz, if_pos (by rw [hz]; ring)]
    rfl
  · rw [if_neg hz, if_neg (neg_ne_zero.2 (mul_ne_zero (pow_ne_zero 2 hx) hz))]
    lits
    congr 2
    simp only [Gamma.cv, div_one, show gamma2.ps = 1 from rfl, show gamma2.Ts = 540 from rfl]
    have e2 : (1 + p * (region2.map fun t => Term.d t 1 0 p (540 / T - 0.5)).sum - 540 / T * p * (region2.map fun t => Term.d t 1 1 p (540 / T - 0.5)).sum) ^ 2 = p ^ 2 *
        (gamma2.gp p (540 / T) - 540 / T * gamma2.gpt p (540 / T)) ^ 2 := by
      simp only [gamma2, dpoly]
      field_simp
    have e3 : gamma2.gtt p (540 / T) = (region2Ideal.map fun t => Term.d t 0 2 1 (540 / T)).sum + (region2.map fun t => Term.d t 0 2 p (540 / T - 0.5)).sum := rfl
    rw [e2, e3]
    field_simp
    ring

theorem w2_pT_eq (h : Dom2 p T) :
    Region2.w2_pT .ideal (.fin p) (.fin T) = (do
      let q ← FP.ideal.div (.fin (p ^ 2 * (gamma2.gp p (540 / T) - 540 / T * gamma2.gpt p (540 / T)) ^ 2))
        (.fin ((540 / T) ^ 2 * gamma2.gtt p (540 / T)))
      let r ← FP.ideal.div (.fin (1000 * R * T * (p ^ 2 * gamma2.gp p (540 / T) ^ 2)))
        (FP.ideal.add (.fin (-(p ^ 2 * gamma2.gpp p (540 / T)))) q)
      FP.ideal.pow r (.fin 0.5)) := by
  have iIr : Region2.w2_pT.Ir = region2.map Term.I := rfl
  have iJr : Region2.w2_pT.Jr = region2.map Term.J := rfl
  have inr : Region2.w2_pT.nr = region2.map Term.n := rfl
  have iJ0 : Region2.w2_pT.J0 = region2Ideal.map Term.J := rfl
  have in0 : Region2.w2_pT.n0 = region2Ideal.map Term.n := rfl
  have hx := h.hp.ne'
  have hT := h.hT
  have hτ : (540 : ℝ) / T ≠ 0 := div_ne_zero (by norm_num) hT
  have hy := h.hy
  unfold Region2.w2_pT
  rw [iIr, iJr, inr, iJ0, in0]
  lits
  try simp only [div_ideal hT, pure_bind]
  lits
  rw [loop1 (N := 9) (a := 0) (b := 9) region2Ideal rfl rfl
    (fun t => Term.d t 0 2 1 (540 / T)) 0 _ fun i hi s => ?_]
  rotate_left
  · simp only [Nat.add_zero, idx_map _ hi, pure_bind, ofInt_eq, lit_ideal,
      pow_ideal_int (Or.inl hτ), mul_ideal, add_ideal, Term.d, ff, one_zpow]
    push_cast
    ring_nf
  lits
  rw [loop4 (N := 43) (a := 0) (b := 43) region2 rfl rfl
    (fun t => Term.d t 1 0 p (540 / T - 0.5))
    (fun t => Term.d t 2 0 p (540 / T - 0.5))
    (fun t => Term.d t 1 1 p (540 / T - 0.5))
    (fun t => Term.d t 0 2 p (540 / T - 0.5)) 0 0 0 0 _ fun i hi s0 s1 s2 s3 => ?_]
  rotate_left
  · simp only [Nat.add_zero, idx_map _ hi, pure_bind, ofInt_eq, lit_ideal, pow_ideal_int (Or.inl hx),
      pow_ideal_int (Or.inl hy), mul_ideal, add_ideal, Term.d, ff, one_zpow]
    push_cast
    ring_nf
  lits
  simp only [zero_add]
  have e : 1 - p ^ 2 * (region2.map fun t => Term.d t 2 0 p (540 / T - 0.5)).sum = -(p ^ 2 * gamma2.gpp p (540 / T)) := by
    simp only [gamma2, dpoly]
    field_simp
    ring
  have e2 : (1 + p * (region2.map fun t => Term.d t 1 0 p (540 / T - 0.5)).sum - 540 / T * p * (region2.map fun t => Term.d t 1 1 p (540 / T - 0.5)).sum) ^ 2 = p ^ 2 *
      (gamma2.gp p (540 / T) - 540 / T * gamma2.gpt p (540 / T)) ^ 2 := by
    simp only [gamma2, dpoly]
    field_simp
  have e3 : 1 + 2 * p * (region2.map fun t => Term.d t 1 0 p (540 / T - 0.5)).sum + p ^ 2 * (region2.map fun t => Term.d t 1 0 p (540 / T - 0.5)).sum ^ 2 = p ^ 2 * gamma2.gp p (540 / T) ^ 2 := by
    simp only [gamma2, dpoly]
    field_simp
    ring
  rw [e, e2, e3]
  rfl

/-- C21: in region 2 the functions of the code compute the properties belonging to the Gibbs free energy `g2` -/
theorem C21_region2 : ∃ v s h u cp : ℝ → ℝ → ℝ, ∀ p T : ℝ, Dom2 p T →
    Region2.v2_pT .ideal (.fin p) (.fin T) = pure (.fin (v p T)) ∧
    Region2.s2_pT .ideal (.fin p) (.fin T) = pure (.fin (s p T)) ∧
    Region2.h2_pT .ideal (.fin p) (.fin T) = pure (.fin (h p T)) ∧
    Region2.u2_pT .ideal (.fin p) (.fin T) = pure (.fin (u p T)) ∧
    Region2.Cp2_pT .ideal (.fin p) (.fin T) = pure (.fin (cp p T)) ∧
    Gibbs g2 v s h u cp p T ∧
    ∃ vp vT, HasDerivAt (fun p => v p T) vp p ∧ HasDerivAt (fun T => v p T) vT T ∧
      (∀ a, (Region2.Cv2_pT .ideal (.fin p) (.fin T)).out = .ok a →
        ∃ cv, a = .fin cv ∧ IsochoricHeat T vp vT (cp p T) cv) ∧
      (∀ a, (Region2.w2_pT .ideal (.fin p) (.fin T)).out = .ok a →
        ∃ w, a = .fin w ∧ SoundSpeed T (v p T) vp vT (cp p T) w) := by
  refine ⟨gamma2.v, gamma2.s, gamma2.h, gamma2.u, gamma2.cp, fun p T h => ?_⟩
  have hps : gamma2.ps ≠ 0 := by norm_num [gamma2]
  have hTs : gamma2.Ts ≠ 0 := by norm_num [gamma2]
  have hτ : (540 : ℝ) / T ≠ 0 := div_ne_zero (by norm_num) h.hT
  have e : p / gamma2.ps = p := by simp [gamma2]
  have hat : gamma2.At (p / gamma2.ps) (gamma2.Ts / T) := by
    rw [e]
    exact gamma2_at h.hp.ne' hτ h.hy
  refine ⟨v2_pT_eq h, s2_pT_eq h, h2_pT_eq h, u2_pT_eq h, Cp2_pT_eq h, ?_, gamma2.vp p T, gamma2.vT p T,
    hat.vp hps, hat.vT h.hT, fun a ha => ?_, fun a ha => ?_⟩
  · rw [← gamma2_pot]
    exact hat.gibbs hps h.hT
  · rw [Cv2_pT_eq h] at ha
    exact Gamma.cv_of hps h.hT e rfl ha
  · rw [w2_pT_eq h] at ha
    exact Gamma.sound_of' hps hTs h.hT e rfl h.hp.ne' ha

/-! ## Region 5 -/

/-- the points where the region 5 equation can be evaluated -/
structure Dom5 (p T : ℝ) : Prop where
  hp : 0 < p
  hT : T ≠ 0

theorem v5_pT_eq (h : Dom5 p T) :
    Region5.v5_pT .ideal (.fin p) (.fin T) = pure (.fin (gamma5.v p T)) := by
  have iIir : Region5.v5_pT.Iir = region5.map Term.I := rfl
  have iJir : Region5.v5_pT.Jir = region5.map Term.J := rfl
  have inir : Region5.v5_pT.nir = region5.map Term.n := rfl
  have hx := h.hp.ne'
  have hT := h.hT
  have hτ : (1000 : ℝ) / T ≠ 0 := div_ne_zero (by norm_num) hT
  unfold Region5.v5_pT
  rw [iIir, iJir, inir]
  lits
  try simp only [div_ideal hT, pure_bind]
  lits
  try simp only [div_ideal hx, pure_bind]
  lits
  rw [loop1 (N := 5) (a := 0) (b := 5) region5 rfl rfl
    (fun t => Term.d t 1 0 p (1000 / T)) 0 _ fun i hi s => ?_]
  rotate_left
  · simp only [Nat.add_zero, idx_map _ hi, pure_bind, ofInt_eq, lit_ideal, pow_ideal_int (Or.inl hx),
      pow_ideal_int (Or.inl hτ), mul_ideal, add_ideal, Term.d, ff, one_zpow]
    push_cast
    ring_nf
  lits
  try simp only [div_ideal hx, pure_bind]
  lits
  simp only [Gamma.v, gamma5, dpoly, div_one, zero_add]
  congr 2
  field_simp

theorem h5_pT_eq (h : Dom5 p T) :
    Region5.h5_pT .ideal (.fin p) (.fin T) = pure (.fin (gamma5.h p T)) := by
  have iIir : Region5.h5_pT.Iir = region5.map Term.I := rfl
  have iJir : Region5.h5_pT.Jir = region5.map Term.J := rfl
  have inir : Region5.h5_pT.nir = region5.map Term.n := rfl
  have iJi0 : Region5.h5_pT.Ji0 = region5Ideal.map Term.J := rfl
  have ini0 : Region5.h5_pT.ni0 = region5Ideal.map Term.n := rfl
  have hx := h.hp.ne'
  have hT := h.hT
  have hτ : (1000 : ℝ) / T ≠ 0 := div_ne_zero (by norm_num) hT
  unfold Region5.h5_pT
  rw [iIir, iJir, inir, iJi0, ini0]
  lits
  try simp only [div_ideal hT, pure_bind]
  lits
  rw [loop1 (N := 6) (a := 0) (b := 6) region5Ideal rfl rfl
    (fun t => Term.d t 0 1 1 (1000 / T)) 0 _ fun i hi s => ?_]
  rotate_left
  · simp only [Nat.add_zero, idx_map _ hi, pure_bind, ofInt_eq, lit_ideal,
      pow_ideal_int (Or.inl hτ), mul_ideal, add_ideal, Term.d, ff, one_zpow]
    push_cast
    ring_nf
  lits
  rw [loop1 (N := 5) (a := 0) (b := 5) region5 rfl rfl
    (fun t => Term.d t 0 1 p (1000 / T)) 0 _ fun i hi s => ?_]
  rotate_left
  · simp only [Nat.add_zero, idx_map _ hi, pure_bind, ofInt_eq, lit_ideal, pow_ideal_int (Or.inl hx),
      pow_ideal_int (Or.inl hτ), mul_ideal, add_ideal, Term.d, ff, one_zpow]
    push_cast
    ring_nf
  lits
  simp only [Gamma.h, gamma5, dpoly, div_one, zero_add]
  all_goals
    congr 2
    try field_simp
    try ring

theorem u5_pT_eq (h : Dom5 p T) :
    Region5.u5_pT .ideal (.fin p) (.fin T) = pure (.fin (gamma5.u p T)) := by
  have iIir : Region5.u5_pT.Iir = region5.map Term.I := rfl
  have iJir : Region5.u5_pT.Jir = region5.map Term.J := rfl
  have inir : Region5.u5_pT.nir = region5.map Term.n := rfl
  have iJi0 : Region5.u5_pT.Ji0 = region5Ideal.map Term.J := rfl
  have ini0 : Region5.u5_pT.ni0 = region5Ideal.map Term.n := rfl
  have hx := h.hp.ne'
  have hT := h.hT
  have hτ : (1000 : ℝ) / T ≠ 0 := div_ne_zero (by norm_num) hT
  unfold Region5.u5_pT
  rw [iIir, iJir, inir, iJi0, ini0]
  lits
  try simp only [div_ideal hT, pure_bind]
  lits
  try simp only [div_ideal hx, pure_bind]
  lits
  rw [loop1 (N := 6) (a := 0) (b := 6) region5Ideal rfl rfl
    (fun t => Term.d t 0 1 1 (1000 / T)) 0 _ fun i hi s => ?_]
  rotate_left
  · simp only [Nat.add_zero, idx_map _ hi, pure_bind, ofInt_eq, lit_ideal,
      pow_ideal_int (Or.inl hτ), mul_ideal, add_ideal, Term.d, ff, one_zpow]
    push_cast
    ring_nf
  lits
  rw [loop2 (N := 5) (a := 0) (b := 5) region5 rfl rfl
    (fun t => Term.d t 1 0 p (1000 / T))
    (fun t => Term.d t 0 1 p (1000 / T)) 0 0 _ fun i hi s0 s1 => ?_]
  rotate_left
  · simp only [Nat.add_zero, idx_map _ hi, pure_bind, ofInt_eq, lit_ideal, pow_ideal_int (Or.inl hx),
      pow_ideal_int (Or.inl hτ), mul_ideal, add_ideal, Term.d, ff, one_zpow]
    push_cast
    ring_nf
  lits
  simp only [Gamma.u, gamma5, dpoly, div_one, zero_add]
  all_goals
    congr 2
    try field_simp
    try ring

theorem s5_pT_eq (h : Dom5 p T) :
    Region5.s5_pT .ideal (.fin p) (.fin T) = pure (.fin (gamma5.s p T)) := by
  have iIir : Region5.s5_pT.Iir = region5.map Term.I := rfl
  have iJir : Region5.s5_pT.Jir = region5.map Term.J := rfl
  have inir : Region5.s5_pT.nir = region5.map Term.n := rfl
  have iJi0 : Region5.s5_pT.Ji0 = region5Ideal.map Term.J := rfl
  have ini0 : Region5.s5_pT.ni0 = region5Ideal.map Term.n := rfl
  have hx := h.hp.ne'
  have hT := h.hT
  have hτ : (1000 : ℝ) / T ≠ 0 := div_ne_zero (by norm_num) hT
  unfold Region5.s5_pT
  rw [iIir, iJir, inir, iJi0, ini0]
  lits
  try simp only [div_ideal hT, pure_bind]
  lits
  try simp only [log_ideal h.hp, pure_bind]
  rw [loop2 (N := 6) (a := 0) (b := 6) region5Ideal rfl rfl
    (fun t => Term.d t 0 1 1 (1000 / T))
    (fun t => Term.d t 0 0 1 (1000 / T)) 0 (Real.log p) _ fun i hi s0 s1 => ?_]
  rotate_left
  · simp only [Nat.add_zero, idx_map _ hi, pure_bind, ofInt_eq, lit_ideal,
      pow_ideal_int (Or.inl hτ), mul_ideal, add_ideal, Term.d, ff, one_zpow]
    push_cast
    ring_nf
  lits
  rw [loop2 (N := 5) (a := 0) (b := 5) region5 rfl rfl
    (fun t => Term.d t 0 0 p (1000 / T))
    (fun t => Term.d t 0 1 p (1000 / T)) 0 0 _ fun i hi s0 s1 => ?_]
  rotate_left
  · simp only [Nat.add_zero, idx_map _ hi, pure_bind, ofInt_eq, lit_ideal, pow_ideal_int (Or.inl hx),
      pow_ideal_int (Or.inl hτ), mul_ideal, add_ideal, Term.d, ff, one_zpow]
    push_cast
    ring_nf
  lits
  simp only [Gamma.s, gamma5, dpoly, div_one, zero_add]
  all_goals
    congr 2
    try field_simp
    try ring

theorem Cp5_pT_eq (h : Dom5 p T) :
    Region5.Cp5_pT .ideal (.fin p) (.fin T) = pure (.fin (gamma5.cp p T)) := by
  have iIir : Region5.Cp5_pT.Iir = region5.map Term.I := rfl
  have iJir : Region5.Cp5_pT.Jir = region5.map Term.J := rfl
  have inir : Region5.Cp5_pT.nir = region5.map Term.n := rfl
  have iJi0 : Region5.Cp5_pT.Ji0 = region5Ideal.map Term.J := rfl
  have ini0 : Region5.Cp5_pT.ni0 = region5Ideal.map Term.n := rfl
  have hx := h.hp.ne'
  have hT := h.hT
  have hτ : (1000 : ℝ) / T ≠ 0 := div_ne_zero (by norm_num) hT
  unfold Region5.Cp5_pT
  rw [iIir, iJir, inir, iJi0, ini0]
  lits
  try simp only [div_ideal hT, pure_bind]
  lits
  rw [loop1 (N := 6) (a := 0) (b := 6) region5Ideal rfl rfl
    (fun t => Term.d t 0 2 1 (1000 / T)) 0 _ fun i hi s => ?_]
  rotate_left
  · simp only [Nat.add_zero, idx_map _ hi, pure_bind, ofInt_eq, lit_ideal,
      pow_ideal_int (Or.inl hτ), mul_ideal, add_ideal, Term.d, ff, one_zpow]
    push_cast
    ring_nf
  lits
  rw [loop1 (N := 5) (a := 0) (b := 5) region5 rfl rfl
    (fun t => Term.d t 0 2 p (1000 / T)) 0 _ fun i hi s => ?_]
  rotate_left
  · simp only [Nat.add_zero, idx_map _ hi, pure_bind, ofInt_eq, lit_ideal, pow_ideal_int (Or.inl hx),
      pow_ideal_int (Or.inl hτ), mul_ideal, add_ideal, Term.d, ff, one_zpow]
    push_cast
    ring_nf
  lits
  simp only [Gamma.cp, gamma5, dpoly, div_one, zero_add]
  all_goals
    congr 2
    try field_simp
    try ring

theorem Cv5_pT_eq (h : Dom5 p T) :
    Region5.Cv5_pT .ideal (.fin p) (.fin T) = 
      if gamma5.gpp p (1000 / T) = 0 then Py.raise .zeroDivision else pure (.fin (gamma5.cv p T)) := by
  have iIir : Region5.Cv5_pT.Iir = region5.map Term.I := rfl
  have iJir : Region5.Cv5_pT.Jir = region5.map Term.J := rfl
  have inir : Region5.Cv5_pT.nir = region5.map Term.n := rfl
  have iJi0 : Region5.Cv5_pT.Ji0 = region5Ideal.map Term.J := rfl
  have ini0 : Region5.Cv5_pT.ni0 = region5Ideal.map Term.n := rfl
  have hx := h.hp.ne'
  have hT := h.hT
  have hτ : (1000 : ℝ) / T ≠ 0 := div_ne_zero (by norm_num) hT
  unfold Region5.Cv5_pT
  rw [iIir, iJir, inir, iJi0, ini0]
  lits
  try simp only [div_ideal hT, pure_bind]
  lits
  rw [loop1 (N := 6) (a := 0) (b := 6) region5Ideal rfl rfl
    (fun t => Term.d t 0 2 1 (1000 / T)) 0 _ fun i hi s => ?_]
  rotate_left
  · simp only [Nat.add_zero, idx_map _ hi, pure_bind, ofInt_eq, lit_ideal,
      pow_ideal_int (Or.inl hτ), mul_ideal, add_ideal, Term.d, ff, one_zpow]
    push_cast
    ring_nf
  lits
  rw [loop4 (N := 5) (a := 0) (b := 5) region5 rfl rfl
    (fun t => Term.d t 1 0 p (1000 / T))
    (fun t => Term.d t 1 1 p (1000 / T))
    (fun t => Term.d t 2 0 p (1000 / T))
    (fun t => Term.d t 0 2 p (1000 / T)) 0 0 0 0 _ fun i hi s0 s1 s2 s3 => ?_]
  rotate_left
  · simp only [Nat.add_zero, idx_map _ hi, pure_bind, ofInt_eq, lit_ideal, pow_ideal_int (Or.inl hx),
      pow_ideal_int (Or.inl hτ), mul_ideal, add_ideal, Term.d, ff, one_zpow]
    push_cast
    ring_nf
  lits
  simp only [div_ideal_eq, zero_add]
  have e : 1 - p ^ 2 * (region5.map fun t => Term.d t 2 0 p (1000 / T)).sum = -(p ^ 2 * gamma5.gpp p (1000 / T)) := by
    simp only [gamma5, dpoly]
    field_simp
    ring
  rw [e]
  by_cases hz : gamma5.gpp p (1000 / T) = 0
  · rw [if_pos hz, if_pos (by rw [hz]; ring)]
    rfl
  · rw [if_neg hz, if_neg (neg_ne_zero.2 (mul_ne_zero (pow_ne_zero 2 hx) hz))]
    lits
    congr 2
    simp only [Gamma.cv, div_one, show gamma5.ps = 1 from rfl, show gamma5.Ts = 1000 from rfl]
    have e2 : (1 + p * (region5.map fun t => Term.d t 1 0 p (1000 / T)).sum - 1000 / T * p * (region5.map fun t => Term.d t 1 1 p (1000 / T)).sum) ^ 2 = p ^ 2 *
        (gamma5.gp p (1000 / T) - 1000 / T * gamma5.gpt p (1000 / T)) ^ 2 := by
      simp only [gamma5, dpoly]
      field_simp
    have e3 : gamma5.gtt p (1000 / T) = (region5Ideal.map fun t => Term.d t 0 2 1 (1000 / T)).sum + (region5.map fun t => Term.d t 0 2 p (1000 / T)).sum := rfl
    rw [e2, e3]
    field_simp
    ring

theorem w5_pT_eq (h : Dom5 p T) :
    Region5.w5_pT .ideal (.fin p) (.fin T) = (do
      let q ← FP.ideal.div (.fin (p ^ 2 * (gamma5.gp p (1000 / T) - 1000 / T * gamma5.gpt p (1000 / T)) ^ 2))
        (.fin ((1000 / T) ^ 2 * gamma5.gtt p (1000 / T)))
      let r ← FP.ideal.div (.fin (1000 * R * T * (p ^ 2 * gamma5.gp p (1000 / T) ^ 2)))
        (FP.ideal.add (.fin (-(p ^ 2 * gamma5.gpp p (1000 / T)))) q)
      FP.ideal.pow r (.fin 0.5)) := by
  have iIir : Region5.w5_pT.Iir = region5.map Term.I := rfl
  have iJir : Region5.w5_pT.Jir = region5.map Term.J := rfl
  have inir : Region5.w5_pT.nir = region5.map Term.n := rfl
  have iJi0 : Region5.w5_pT.Ji0 = region5Ideal.map Term.J := rfl
  have ini0 : Region5.w5_pT.ni0 = region5Ideal.map Term.n := rfl
  have hx := h.hp.ne'
  have hT := h.hT
  have hτ : (1000 : ℝ) / T ≠ 0 := div_ne_zero (by norm_num) hT
  unfold Region5.w5_pT
  rw [iIir, iJir, inir, iJi0, ini0]
  lits
  try simp only [div_ideal hT, pure_bind]
  lits
  rw [loop1 (N := 6) (a := 0) (b := 6) region5Ideal rfl rfl
    (fun t => Term.d t 0 2 1 (1000 / T)) 0 _ fun i hi s => ?_]
  rotate_left
  · simp only [Nat.add_zero, idx_map _ hi, pure_bind, ofInt_eq, lit_ideal,
      pow_ideal_int (Or.inl hτ), mul_ideal, add_ideal, Term.d, ff, one_zpow]
    push_cast
    ring_nf
  lits
  rw [loop4 (N := 5) (a := 0) (b := 5) region5 rfl rfl
    (fun t => Term.d t 1 0 p (1000 / T))
    (fun t => Term.d t 1 1 p (1000 / T))
    (fun t => Term.d t 2 0 p (1000 / T))
    (fun t => Term.d t 0 2 p (1000 / T)) 0 0 0 0 _ fun i hi s0 s1 s2 s3 => ?_]
  rotate_left
  · simp only [Nat.add_zero, idx_map _ hi, pure_bind, ofInt_eq, lit_ideal, pow_ideal_int (Or.inl hx),
      pow_ideal_int (Or.inl hτ), mul_ideal, add_ideal, Term.d, ff, one_zpow]
    push_cast
    ring_nf
  lits
  simp only [zero_add]
  have e : 1 - p ^ 2 * (region5.map fun t => Term.d t 2 0 p (1000 / T)).sum = -(p ^ 2 * gamma5.gpp p (1000 / T)) := by
    simp only [gamma5, dpoly]
    field_simp
    ring
  have e2 : (1 + p * (region5.map fun t => Term.d t 1 0 p (1000 / T)).sum - 1000 / T * p * (region5.map fun t => Term.d t 1 1 p (1000 / T)).sum) ^ 2 = p ^ 2 *
      (gamma5.gp p (1000 / T) - 1000 / T * gamma5.gpt p (1000 / T)) ^ 2 := by
    simp only [gamma5, dpoly]
    field_simp
  have e3 : 1 + 2 * p * (region5.map fun t => Term.d t 1 0 p (1000 / T)).sum + p ^ 2 * (region5.map fun t => Term.d t 1 0 p (1000 / T)).sum ^ 2 = p ^ 2 * gamma5.gp p (1000 / T) ^ 2 := by
    simp only [gamma5, dpoly]
    field_simp
    ring
  rw [e, e2, e3]
  rfl

/-- C22: in region 5 the functions of the code compute the properties belonging to the Gibbs free energy `g5` -/
theorem C22_region5 : ∃ v s h u cp : ℝ → ℝ → ℝ, ∀ p T : ℝ, Dom5 p T →
    Region5.v5_pT .ideal (.fin p) (.fin T) = pure (.fin (v p T)) ∧
    Region5.s5_pT .ideal (.fin p) (.fin T) = pure (.fin (s p T)) ∧
    Region5.h5_pT .ideal (.fin p) (.fin T) = pure (.fin (h p T)) ∧
    Region5.u5_pT .ideal (.fin p) (.fin T) = pure (.fin (u p T)) ∧
    Region5.Cp5_pT .ideal (.fin p) (.fin T) = pure (.fin (cp p T)) ∧
    Gibbs g5 v s h u cp p T ∧
    ∃ vp vT, HasDerivAt (fun p => v p T) vp p ∧ HasDerivAt (fun T => v p T) vT T ∧
      (∀ a, (Region5.Cv5_pT .ideal (.fin p) (.fin T)).out = .ok a →
        ∃ cv, a = .fin cv ∧ IsochoricHeat T vp vT (cp p T) cv) ∧
      (∀ a, (Region5.w5_pT .ideal (.fin p) (.fin T)).out = .ok a →
        ∃ w, a = .fin w ∧ SoundSpeed T (v p T) vp vT (cp p T) w) := by
  refine ⟨gamma5.v, gamma5.s, gamma5.h, gamma5.u, gamma5.cp, fun p T h => ?_⟩
  have hps : gamma5.ps ≠ 0 := by norm_num [gamma5]
  have hTs : gamma5.Ts ≠ 0 := by norm_num [gamma5]
  have hτ : (1000 : ℝ) / T ≠ 0 := div_ne_zero (by norm_num) h.hT
  have e : p / gamma5.ps = p := by simp [gamma5]
  have hat : gamma5.At (p / gamma5.ps) (gamma5.Ts / T) := by
    rw [e]
    exact gamma5_at h.hp.ne' hτ
  refine ⟨v5_pT_eq h, s5_pT_eq h, h5_pT_eq h, u5_pT_eq h, Cp5_pT_eq h, ?_, gamma5.vp p T, gamma5.vT p T,
    hat.vp hps, hat.vT h.hT, fun a ha => ?_, fun a ha => ?_⟩
  · rw [← gamma5_pot]
    exact hat.gibbs hps h.hT
  · rw [Cv5_pT_eq h] at ha
    exact Gamma.cv_of hps h.hT e rfl ha
  · rw [w5_pT_eq h] at ha
    exact Gamma.sound_of' hps hTs h.hT e rfl h.hp.ne' ha

end

/-! ## Region 3 -/

namespace Phi3

/-- the dimensionless Helmholtz free energy and its derivatives, in `δ` and `τ` -/
noncomputable def φ (δ τ : ℝ) : ℝ := region3Log * Real.log δ + dpoly region3 0 0 δ τ
noncomputable def φδ (δ τ : ℝ) : ℝ := region3Log / δ + dpoly region3 1 0 δ τ
noncomputable def φτ (δ τ : ℝ) : ℝ := dpoly region3 0 1 δ τ
noncomputable def φδδ (δ τ : ℝ) : ℝ := -(region3Log / δ ^ 2) + dpoly region3 2 0 δ τ
noncomputable def φδτ (δ τ : ℝ) : ℝ := dpoly region3 1 1 δ τ
noncomputable def φττ (δ τ : ℝ) : ℝ := dpoly region3 0 2 δ τ

noncomputable def p (ρ T : ℝ) : ℝ := ρ * R * T * (ρ / 322) * φδ (ρ / 322) (647.096 / T) / 1000
noncomputable def s (ρ T : ℝ) : ℝ :=
  R * (647.096 / T * φτ (ρ / 322) (647.096 / T) - φ (ρ / 322) (647.096 / T))
noncomputable def u (ρ T : ℝ) : ℝ := R * 647.096 * φτ (ρ / 322) (647.096 / T)
noncomputable def h (ρ T : ℝ) : ℝ :=
  R * T * (647.096 / T * φτ (ρ / 322) (647.096 / T) + ρ / 322 * φδ (ρ / 322) (647.096 / T))
noncomputable def cv (ρ T : ℝ) : ℝ := -R * (647.096 / T) ^ 2 * φττ (ρ / 322) (647.096 / T)
noncomputable def pρ (ρ T : ℝ) : ℝ :=
  R * T * (2 * (ρ / 322) * φδ (ρ / 322) (647.096 / T) + (ρ / 322) ^ 2 * φδδ (ρ / 322) (647.096 / T)) / 1000
noncomputable def pT (ρ T : ℝ) : ℝ :=
  ρ * R * (ρ / 322) * (φδ (ρ / 322) (647.096 / T) - 647.096 / T * φδτ (ρ / 322) (647.096 / T)) / 1000

variable {δ τ ρ T : ℝ}

theorem dφδ (hδ : δ ≠ 0) : HasDerivAt (fun δ => φ δ τ) (φδ δ τ) δ :=
  (((Real.hasDerivAt_log hδ).const_mul (region3Log : ℝ)).add (dpoly_x region3 0 0 τ hδ)).congr_deriv
    (by simp only [φδ]; ring)

theorem dφτ (hτ : τ ≠ 0) : HasDerivAt (fun τ => φ δ τ) (φτ δ τ) τ :=
  (dpoly_y region3 0 0 δ hτ).const_add _

theorem dφδδ (hδ : δ ≠ 0) : HasDerivAt (fun δ => φδ δ τ) (φδδ δ τ) δ :=
  (((hasDerivAt_inv hδ).const_mul (region3Log : ℝ)).add (dpoly_x region3 1 0 τ hδ)).congr_deriv
    (by simp only [φδδ]; ring)

theorem dφδτ (hτ : τ ≠ 0) : HasDerivAt (fun τ => φδ δ τ) (φδτ δ τ) τ :=
  (dpoly_y region3 1 0 δ hτ).const_add _

theorem dφττ (hτ : τ ≠ 0) : HasDerivAt (fun τ => φτ δ τ) (φττ δ τ) τ :=
  dpoly_y region3 0 1 δ hτ

private theorem dτ (hT : T ≠ 0) : HasDerivAt (fun T : ℝ => (647.096 : ℝ) / T) (-(647.096 / T ^ 2)) T :=
  ((hasDerivAt_inv hT).const_mul (647.096 : ℝ)).congr_deriv (by ring)

private theorem dδ : HasDerivAt (fun ρ : ℝ => ρ / 322) (1 / 322) ρ := (hasDerivAt_id ρ).div_const 322

private theorem τ_ne (hT : T ≠ 0) : (647.096 : ℝ) / T ≠ 0 := div_ne_zero (by norm_num) hT

theorem helmholtz (hρ : 0 < ρ) (hT : T ≠ 0) : Helmholtz f3 p s u h cv ρ T where
  pressure := by
    have hδ : ρ / 322 ≠ 0 := by positivity
    have := ((dφδ (τ := 647.096 / T) hδ).comp ρ dδ).const_mul (R * T)
    refine (this.congr_deriv ?_).congr_of_eventuallyEq (.of_forall fun x => ?_)
    · simp only [p]
      field_simp
    · simp only [f3, poly_eq, φ, Function.comp]
  entropy := by
    have h1 := (dφτ (δ := ρ / 322) (τ_ne hT)).comp T (dτ hT)
    have := ((hasDerivAt_id T).const_mul R).mul h1
    refine (this.congr_deriv ?_).congr_of_eventuallyEq (.of_forall fun x => ?_)
    · simp only [s, id, Function.comp]
      field_simp
      ring
    · simp only [f3, poly_eq, φ, Function.comp, Pi.mul_apply, id]
  energy := by
    simp only [u, f3, poly_eq, s, φ]
    field_simp
    ring
  enthalpy := by
    simp only [h, u, p]
    field_simp
  heat := by
    have h1 := ((dφττ (δ := ρ / 322) (τ_ne hT)).comp T (dτ hT)).const_mul (R * 647.096)
    refine h1.congr_deriv ?_
    simp only [cv]
    field_simp

theorem hasDerivAt_pρ (hρ : 0 < ρ) : HasDerivAt (fun ρ => p ρ T) (pρ ρ T) ρ := by
  have hδ : ρ / 322 ≠ 0 := by positivity
  have h1 := (dφδδ (τ := 647.096 / T) hδ).comp ρ dδ
  have := (((((hasDerivAt_id ρ).mul_const R).mul_const T).mul dδ).mul h1).div_const 1000
  refine this.congr_deriv ?_
  simp only [pρ, id, Function.comp, Pi.mul_apply]
  field_simp
  ring

theorem hasDerivAt_pT (hT : T ≠ 0) : HasDerivAt (fun T => p ρ T) (pT ρ T) T := by
  have h1 := (dφδτ (δ := ρ / 322) (τ_ne hT)).comp T (dτ hT)
  have := ((((hasDerivAt_id T).const_mul (ρ * R)).mul_const (ρ / 322)).mul h1).div_const 1000
  refine this.congr_deriv ?_
  simp only [pT, id, Function.comp]
  field_simp
  ring

end Phi3

variable {ρ T : ℝ}

theorem p3_rhoT_eq (hρ : 0 < ρ) (hT : T ≠ 0) :
    Region3.p3_rhoT .ideal (.fin ρ) (.fin T) = pure (.fin (Phi3.p ρ T)) := by
  have iIi : Region3.p3_rhoT.Ii = 0 :: region3.map Term.I := rfl
  have iJi : Region3.p3_rhoT.Ji = 0 :: region3.map Term.J := rfl
  have ini : Region3.p3_rhoT.ni = region3Log :: region3.map Term.n := rfl
  have i0 : idx Region3.p3_rhoT.ni 0 = pure region3Log := rfl
  have hx : ρ / 322 ≠ 0 := by positivity
  have hτ : (647.096 : ℝ) / T ≠ 0 := div_ne_zero (by norm_num) hT
  unfold Region3.p3_rhoT
  try simp only [i0]
  rw [iIi, iJi, ini]
  lits
  simp only [div_ideal hT, pure_bind]
  lits
  rw [loop1 (N := 39) (a := 1) (b := 40) region3 rfl rfl
    (fun t => Term.d t 1 0 (ρ / 322) (647.096 / T)) 0 _ fun i hi s => ?_]
  rotate_left
  · simp only [idx_cons_map _ _ hi, pure_bind, ofInt_eq, lit_ideal, pow_ideal_int (Or.inl hx),
      pow_ideal_int (Or.inl hτ), mul_ideal, add_ideal, Term.d, ff]
    push_cast
    ring_nf
  lits
  simp only [lit_ideal, div_ideal hx, pure_bind]
  lits
  simp only [Phi3.p, Phi3.φδ, dpoly, zero_add]
  all_goals
    congr 2
    try field_simp
    try ring

theorem h3_rhoT_eq (hρ : 0 < ρ) (hT : T ≠ 0) :
    Region3.h3_rhoT .ideal (.fin ρ) (.fin T) = pure (.fin (Phi3.h ρ T)) := by
  have iIi : Region3.h3_rhoT.Ii = 0 :: region3.map Term.I := rfl
  have iJi : Region3.h3_rhoT.Ji = 0 :: region3.map Term.J := rfl
  have ini : Region3.h3_rhoT.ni = region3Log :: region3.map Term.n := rfl
  have i0 : idx Region3.h3_rhoT.ni 0 = pure region3Log := rfl
  have hx : ρ / 322 ≠ 0 := by positivity
  have hτ : (647.096 : ℝ) / T ≠ 0 := div_ne_zero (by norm_num) hT
  unfold Region3.h3_rhoT
  try simp only [i0]
  rw [iIi, iJi, ini]
  lits
  simp only [div_ideal hT, pure_bind]
  lits
  rw [loop2 (N := 39) (a := 1) (b := 40) region3 rfl rfl
    (fun t => Term.d t 1 0 (ρ / 322) (647.096 / T))
    (fun t => Term.d t 0 1 (ρ / 322) (647.096 / T)) 0 0 _ fun i hi s0 s1 => ?_]
  rotate_left
  · simp only [idx_cons_map _ _ hi, pure_bind, ofInt_eq, lit_ideal, pow_ideal_int (Or.inl hx),
      pow_ideal_int (Or.inl hτ), mul_ideal, add_ideal, Term.d, ff]
    push_cast
    ring_nf
  lits
  simp only [lit_ideal, div_ideal hx, pure_bind]
  lits
  simp only [Phi3.h, Phi3.φδ, Phi3.φτ, dpoly, zero_add]
  all_goals
    congr 2
    try field_simp
    try ring

theorem u3_rhoT_eq (hρ : 0 < ρ) (hT : T ≠ 0) :
    Region3.u3_rhoT .ideal (.fin ρ) (.fin T) = pure (.fin (Phi3.u ρ T)) := by
  have iIi : Region3.u3_rhoT.Ii = 0 :: region3.map Term.I := rfl
  have iJi : Region3.u3_rhoT.Ji = 0 :: region3.map Term.J := rfl
  have ini : Region3.u3_rhoT.ni = region3Log :: region3.map Term.n := rfl
  have i0 : idx Region3.u3_rhoT.ni 0 = pure region3Log := rfl
  have hx : ρ / 322 ≠ 0 := by positivity
  have hτ : (647.096 : ℝ) / T ≠ 0 := div_ne_zero (by norm_num) hT
  unfold Region3.u3_rhoT
  try simp only [i0]
  rw [iIi, iJi, ini]
  lits
  simp only [div_ideal hT, pure_bind]
  lits
  rw [loop1 (N := 39) (a := 1) (b := 40) region3 rfl rfl
    (fun t => Term.d t 0 1 (ρ / 322) (647.096 / T)) 0 _ fun i hi s => ?_]
  rotate_left
  · simp only [idx_cons_map _ _ hi, pure_bind, ofInt_eq, lit_ideal, pow_ideal_int (Or.inl hx),
      pow_ideal_int (Or.inl hτ), mul_ideal, add_ideal, Term.d, ff]
    push_cast
    ring_nf
  lits
  simp only [Phi3.u, Phi3.φτ, dpoly, zero_add]
  all_goals
    congr 2
    try field_simp
    try ring

theorem s3_rhoT_eq (hρ : 0 < ρ) (hT : T ≠ 0) :
    Region3.s3_rhoT .ideal (.fin ρ) (.fin T) = pure (.fin (Phi3.s ρ T)) := by
  have iIi : Region3.s3_rhoT.Ii = 0 :: region3.map Term.I := rfl
  have iJi : Region3.s3_rhoT.Ji = 0 :: region3.map Term.J := rfl
  have ini : Region3.s3_rhoT.ni = region3Log :: region3.map Term.n := rfl
  have i0 : idx Region3.s3_rhoT.ni 0 = pure region3Log := rfl
  have hx : ρ / 322 ≠ 0 := by positivity
  have hτ : (647.096 : ℝ) / T ≠ 0 := div_ne_zero (by norm_num) hT
  unfold Region3.s3_rhoT
  try simp only [i0]
  rw [iIi, iJi, ini]
  lits
  simp only [div_ideal hT, pure_bind]
  lits
  rw [loop2 (N := 39) (a := 1) (b := 40) region3 rfl rfl
    (fun t => Term.d t 0 0 (ρ / 322) (647.096 / T))
    (fun t => Term.d t 0 1 (ρ / 322) (647.096 / T)) 0 0 _ fun i hi s0 s1 => ?_]
  rotate_left
  · simp only [idx_cons_map _ _ hi, pure_bind, ofInt_eq, lit_ideal, pow_ideal_int (Or.inl hx),
      pow_ideal_int (Or.inl hτ), mul_ideal, add_ideal, Term.d, ff]
    push_cast
    ring_nf
  lits
  simp only [lit_ideal, log_ideal (show 0 < ρ / 322 by positivity), pure_bind]
  lits
  simp only [Phi3.s, Phi3.φ, Phi3.φτ, dpoly, zero_add]
  all_goals
    congr 2
    try field_simp
    try ring

theorem Cv3_rhoT_eq (hρ : 0 < ρ) (hT : T ≠ 0) :
    Region3.Cv3_rhoT .ideal (.fin ρ) (.fin T) = pure (.fin (Phi3.cv ρ T)) := by
  have iIi : Region3.Cv3_rhoT.Ii = 0 :: region3.map Term.I := rfl
  have iJi : Region3.Cv3_rhoT.Ji = 0 :: region3.map Term.J := rfl
  have ini : Region3.Cv3_rhoT.ni = region3Log :: region3.map Term.n := rfl
  have i0 : idx Region3.Cv3_rhoT.ni 0 = pure region3Log := rfl
  have hx : ρ / 322 ≠ 0 := by positivity
  have hτ : (647.096 : ℝ) / T ≠ 0 := div_ne_zero (by norm_num) hT
  unfold Region3.Cv3_rhoT
  try simp only [i0]
  rw [iIi, iJi, ini]
  lits
  simp only [div_ideal hT, pure_bind]
  lits
  rw [loop1 (N := 39) (a := 1) (b := 40) region3 rfl rfl
    (fun t => Term.d t 0 2 (ρ / 322) (647.096 / T)) 0 _ fun i hi s => ?_]
  rotate_left
  · simp only [idx_cons_map _ _ hi, pure_bind, ofInt_eq, lit_ideal, pow_ideal_int (Or.inl hx),
      pow_ideal_int (Or.inl hτ), mul_ideal, add_ideal, Term.d, ff]
    push_cast
    ring_nf
  lits
  simp only [Phi3.cv, Phi3.φττ, dpoly, zero_add]
  all_goals
    congr 2
    try field_simp
    try ring

theorem Cp3_rhoT_eq (hρ : 0 < ρ) (hT : T ≠ 0) :
    Region3.Cp3_rhoT .ideal (.fin ρ) (.fin T) = (do
      let q ← FP.ideal.div (.fin ((ρ / 322 * Phi3.φδ (ρ / 322) (647.096 / T) -
          ρ / 322 * (647.096 / T) * Phi3.φδτ (ρ / 322) (647.096 / T)) ^ 2))
        (.fin (2 * (ρ / 322) * Phi3.φδ (ρ / 322) (647.096 / T) +
          (ρ / 322) ^ 2 * Phi3.φδδ (ρ / 322) (647.096 / T)))
      pure (FP.ideal.mul (.fin R) (FP.ideal.add
        (.fin (-(647.096 / T) ^ 2 * Phi3.φττ (ρ / 322) (647.096 / T))) q))) := by
  have iIi : Region3.Cp3_rhoT.Ii = 0 :: region3.map Term.I := rfl
  have iJi : Region3.Cp3_rhoT.Ji = 0 :: region3.map Term.J := rfl
  have ini : Region3.Cp3_rhoT.ni = region3Log :: region3.map Term.n := rfl
  have i0 : idx Region3.Cp3_rhoT.ni 0 = pure region3Log := rfl
  have hx : ρ / 322 ≠ 0 := by positivity
  have hτ : (647.096 : ℝ) / T ≠ 0 := div_ne_zero (by norm_num) hT
  unfold Region3.Cp3_rhoT
  try simp only [i0]
  rw [iIi, iJi, ini]
  lits
  simp only [div_ideal hT, pure_bind]
  lits
  rw [loop4 (N := 39) (a := 1) (b := 40) region3 rfl rfl
    (fun t => Term.d t 0 2 (ρ / 322) (647.096 / T))
    (fun t => Term.d t 1 0 (ρ / 322) (647.096 / T))
    (fun t => Term.d t 1 1 (ρ / 322) (647.096 / T))
    (fun t => Term.d t 2 0 (ρ / 322) (647.096 / T)) 0 0 0 0 _ fun i hi s0 s1 s2 s3 => ?_]
  rotate_left
  · simp only [idx_cons_map _ _ hi, pure_bind, ofInt_eq, lit_ideal, pow_ideal_int (Or.inl hx),
      pow_ideal_int (Or.inl hτ), mul_ideal, add_ideal, Term.d, ff]
    push_cast
    ring_nf
  lits
  simp only [lit_ideal, div_ideal hx, pure_bind]
  lits
  simp only [div_ideal (pow_ne_zero 2 hx), pure_bind]
  lits
  simp only [zero_add]
  have a1 : (region3.map fun t => Term.d t 1 0 (ρ / 322) (647.096 / T)).sum + region3Log / (ρ / 322) =
      Phi3.φδ (ρ / 322) (647.096 / T) := by simp only [Phi3.φδ, dpoly]; ring
  have a2 : (region3.map fun t => Term.d t 2 0 (ρ / 322) (647.096 / T)).sum - region3Log / (ρ / 322) ^ 2 =
      Phi3.φδδ (ρ / 322) (647.096 / T) := by simp only [Phi3.φδδ, dpoly]; ring
  have a3 : (region3.map fun t => Term.d t 1 1 (ρ / 322) (647.096 / T)).sum =
      Phi3.φδτ (ρ / 322) (647.096 / T) := rfl
  have a4 : (region3.map fun t => Term.d t 0 2 (ρ / 322) (647.096 / T)).sum =
      Phi3.φττ (ρ / 322) (647.096 / T) := rfl
  rw [a1, a2, a3, a4]

theorem w3_rhoT_eq (hρ : 0 < ρ) (hT : T ≠ 0) :
    Region3.w3_rhoT .ideal (.fin ρ) (.fin T) = (do
      let q ← FP.ideal.div (.fin ((ρ / 322 * Phi3.φδ (ρ / 322) (647.096 / T) -
          ρ / 322 * (647.096 / T) * Phi3.φδτ (ρ / 322) (647.096 / T)) ^ 2))
        (.fin ((647.096 / T) ^ 2 * Phi3.φττ (ρ / 322) (647.096 / T)))
      FP.ideal.pow (FP.ideal.mul (.fin (1000 * R * T)) (FP.ideal.sub
        (.fin (2 * (ρ / 322) * Phi3.φδ (ρ / 322) (647.096 / T) +
          (ρ / 322) ^ 2 * Phi3.φδδ (ρ / 322) (647.096 / T))) q)) (.fin 0.5)) := by
  have iIi : Region3.w3_rhoT.Ii = 0 :: region3.map Term.I := rfl
  have iJi : Region3.w3_rhoT.Ji = 0 :: region3.map Term.J := rfl
  have ini : Region3.w3_rhoT.ni = region3Log :: region3.map Term.n := rfl
  have i0 : idx Region3.w3_rhoT.ni 0 = pure region3Log := rfl
  have hx : ρ / 322 ≠ 0 := by positivity
  have hτ : (647.096 : ℝ) / T ≠ 0 := div_ne_zero (by norm_num) hT
  unfold Region3.w3_rhoT
  try simp only [i0]
  rw [iIi, iJi, ini]
  lits
  simp only [div_ideal hT, pure_bind]
  lits
  rw [loop4 (N := 39) (a := 1) (b := 40) region3 rfl rfl
    (fun t => Term.d t 0 2 (ρ / 322) (647.096 / T))
    (fun t => Term.d t 1 0 (ρ / 322) (647.096 / T))
    (fun t => Term.d t 1 1 (ρ / 322) (647.096 / T))
    (fun t => Term.d t 2 0 (ρ / 322) (647.096 / T)) 0 0 0 0 _ fun i hi s0 s1 s2 s3 => ?_]
  rotate_left
  · simp only [idx_cons_map _ _ hi, pure_bind, ofInt_eq, lit_ideal, pow_ideal_int (Or.inl hx),
      pow_ideal_int (Or.inl hτ), mul_ideal, add_ideal, Term.d, ff]
    push_cast
    ring_nf
  lits
  simp only [lit_ideal, div_ideal hx, pure_bind]
  lits
  simp only [div_ideal (pow_ne_zero 2 hx), pure_bind]
  lits
  simp only [zero_add]
  have a1 : (region3.map fun t => Term.d t 1 0 (ρ / 322) (647.096 / T)).sum + region3Log / (ρ / 322) =
      Phi3.φδ (ρ / 322) (647.096 / T) := by simp only [Phi3.φδ, dpoly]; ring
  have a2 : (region3.map fun t => Term.d t 2 0 (ρ / 322) (647.096 / T)).sum - region3Log / (ρ / 322) ^ 2 =
      Phi3.φδδ (ρ / 322) (647.096 / T) := by simp only [Phi3.φδδ, dpoly]; ring
  have a3 : (region3.map fun t => Term.d t 1 1 (ρ / 322) (647.096 / T)).sum =
      Phi3.φδτ (ρ / 322) (647.096 / T) := rfl
  have a4 : (region3.map fun t => Term.d t 0 2 (ρ / 322) (647.096 / T)).sum =
      Phi3.φττ (ρ / 322) (647.096 / T) := rfl
  rw [a1, a2, a3, a4]

/-- C23: in region 3 the functions of the code compute the properties belonging to the Helmholtz free energy `f3` -/
theorem C23_region3 : ∃ p s u h cv : ℝ → ℝ → ℝ, ∀ ρ T : ℝ, 0 < ρ → T ≠ 0 →
    Region3.p3_rhoT .ideal (.fin ρ) (.fin T) = pure (.fin (p ρ T)) ∧
    Region3.s3_rhoT .ideal (.fin ρ) (.fin T) = pure (.fin (s ρ T)) ∧
    Region3.u3_rhoT .ideal (.fin ρ) (.fin T) = pure (.fin (u ρ T)) ∧
    Region3.h3_rhoT .ideal (.fin ρ) (.fin T) = pure (.fin (h ρ T)) ∧
    Region3.Cv3_rhoT .ideal (.fin ρ) (.fin T) = pure (.fin (cv ρ T)) ∧
    Helmholtz f3 p s u h cv ρ T ∧
    ∃ pρ pT, HasDerivAt (fun ρ => p ρ T) pρ ρ ∧ HasDerivAt (fun T => p ρ T) pT T ∧
      (∀ a, (Region3.Cp3_rhoT .ideal (.fin ρ) (.fin T)).out = .ok a →
        ∃ cp, a = .fin cp ∧ IsobaricHeat ρ T pρ pT (cv ρ T) cp) ∧
      (∀ a, (Region3.w3_rhoT .ideal (.fin ρ) (.fin T)).out = .ok a →
        ∃ w, a = .fin w ∧ SoundSpeedρ ρ T pρ pT (cv ρ T) w) := by
  refine ⟨Phi3.p, Phi3.s, Phi3.u, Phi3.h, Phi3.cv, fun ρ T hρ hT => ?_⟩
  have hR := Gamma.R_pos.ne'
  refine ⟨p3_rhoT_eq hρ hT, s3_rhoT_eq hρ hT, u3_rhoT_eq hρ hT, h3_rhoT_eq hρ hT, Cv3_rhoT_eq hρ hT,
    Phi3.helmholtz hρ hT, Phi3.pρ ρ T, Phi3.pT ρ T, Phi3.hasDerivAt_pρ hρ, Phi3.hasDerivAt_pT hT,
    fun a ha => ?_, fun a ha => ?_⟩
  · rw [Cp3_rhoT_eq hρ hT] at ha
    obtain ⟨l, q, hq, ha⟩ := out_bind ha
    obtain ⟨hz, rfl⟩ := div_ok (c := q) (by rw [hq])
    refine ⟨_, (Outcome.ok.inj ha).symm, ?_, ?_⟩
    · simp only [Phi3.pρ]
      exact div_ne_zero (mul_ne_zero (mul_ne_zero hR hT) hz) (by norm_num)
    · simp only [Phi3.pρ, Phi3.pT, Phi3.cv]
      generalize hd : 2 * (ρ / 322) * Phi3.φδ (ρ / 322) (647.096 / T) +
          (ρ / 322) ^ 2 * Phi3.φδδ (ρ / 322) (647.096 / T) = d at hz ⊢
      field_simp
      ring
  · rw [w3_rhoT_eq hρ hT] at ha
    obtain ⟨l, q, hq, ha⟩ := out_bind ha
    obtain ⟨hz, rfl⟩ := div_ok (c := q) (by rw [hq])
    rw [sub_ideal, mul_ideal] at ha
    obtain ⟨w, rfl, hw, hw2⟩ := pow_half ha
    have hτ : (647.096 : ℝ) / T ≠ 0 := div_ne_zero (by norm_num) hT
    have hz' := right_ne_zero_of_mul hz
    refine ⟨w, rfl, hw, ?_, ?_⟩
    · simp only [Phi3.cv]
      exact mul_ne_zero (mul_ne_zero (neg_ne_zero.2 hR) (pow_ne_zero 2 hτ)) hz'
    · rw [hw2]
      simp only [Phi3.pρ, Phi3.pT, Phi3.cv]
      field_simp
      ring

end PyX
