import Verif.Props.Solvers
import Verif.Props.Potential
import Verif.Props.Flow
import Verif.Lemmas.SI

/-!
# C28, C29: two defects of the inverse functions

`T5_prho` inverts the density of region 2, and `T4_hs` reads a variable it has not assigned for some entropies.
-/

namespace PyX

open Classical Py Num Spec.IF97

/-! ## C28 -/

/-- C28: a temperature that `T5_prho` returns without the message that it did not converge gives the requested
density in the equation of **region 2** (up to the tolerance), for every pressure and density -/
theorem C28_region2 (p rho : ℝ) (hp : 0 < p) (a : Num)
    (h : (Region5.T5_prho .ideal (.fin p) (.fin rho)).out = .ok a)
    (hm : ⟨.warning, (Solver.T5_prho (.fin p) (.fin rho)).message⟩ ∉
      (Region5.T5_prho .ideal (.fin p) (.fin rho)).logs) :
    ∃ T, a = .fin T ∧ 1073.15 ≤ T ∧ T ≤ 2073.15 ∧ |rho - 1 / gamma2.v p T| ≤ 1e-6 := by
  obtain ⟨T, hT, rfl⟩ := C26_bracket (.T5_prho (.fin p) (.fin rho)) trivial 1073.15 2073.15 ⟨rfl, rfl⟩ a h
  rw [Set.uIcc_of_le (by norm_num)] at hT
  refine ⟨T, rfl, hT.1, hT.2, ?_⟩
  obtain ⟨y, hy, -⟩ := (C26_tolerance .ideal (.T5_prho (.fin p) (.fin rho)) trivial _ h).resolve_left hm
  have e : (Solver.T5_prho (.fin p) (.fin rho)).equation .ideal (.fin T) =
      FP.ideal.div (.ofInt 1) (.fin (gamma2.v p T)) := by
    simp only [Solver.equation, v2_pT_eq' hp (show T ≠ 0 by have := hT.1; linarith), pure_bind]
  have hv : gamma2.v p T ≠ 0 := by
    intro h0
    rw [e, h0] at hy
    simp [FP.div] at hy
    cases hy
  have := C26_exact (.T5_prho (.fin p) (.fin rho)) trivial (.fin T) rho (1 / gamma2.v p T) h hm rfl
    (by rw [e, ofInt_eq, div_ideal hv]; norm_num; rfl)
  simpa [Solver.tolerance] using this

/-- C28: so wherever the densities of regions 2 and 5 differ by more than the tolerance, `T5_prho` does not
return the temperature at which region 5 has the requested density -/
theorem C28_not_inverse (p T : ℝ) (hp : 0 < p)
    (hd : 1e-6 < |1 / gamma5.v p T - 1 / gamma2.v p T|)
    (hm : ⟨.warning, (Solver.T5_prho (.fin p) (.fin (1 / gamma5.v p T))).message⟩ ∉
      (Region5.T5_prho .ideal (.fin p) (.fin (1 / gamma5.v p T))).logs) :
    (Region5.T5_prho .ideal (.fin p) (.fin (1 / gamma5.v p T))).out ≠ .ok (.fin T) := by
  intro h
  obtain ⟨T', hT, -, -, h'⟩ := C28_region2 p _ hp _ h hm
  cases hT
  exact absurd h' (not_le.2 hd)

theorem C28_v2 : gamma2.v 10 1080 ∈ Set.Icc (0.04896403) (0.04896404 : ℝ) := by
  simp only [Gamma.v, gamma2, dpoly, region2, List.map_cons, List.map_nil, List.sum_cons, List.sum_nil, Term.d, ff]
  norm_num [R]

theorem C28_v5 : gamma5.v 10 1080 ∈ Set.Icc (0.04896478) (0.04896479 : ℝ) := by
  simp only [Gamma.v, gamma5, dpoly, region5, List.map_cons, List.map_nil, List.sum_cons, List.sum_nil, Term.d, ff]
  norm_num [R]

/-- the two equations differ at 10 MPa, 1080 K -/
theorem C28_differ : 1e-6 < |1 / gamma5.v 10 1080 - 1 / gamma2.v 10 1080| := by
  obtain ⟨a1, a2⟩ := C28_v2
  obtain ⟨b1, b2⟩ := C28_v5
  have e1 : 1 / gamma5.v 10 1080 ≤ 1 / 0.04896478 := one_div_le_one_div_of_le (by norm_num) b1
  have e2 : 1 / 0.04896404 ≤ 1 / gamma2.v 10 1080 := one_div_le_one_div_of_le (by linarith) a2
  rw [abs_sub_comm]
  refine lt_of_lt_of_le ?_ (le_abs_self _)
  have : (1e-6 : ℝ) < 1 / 0.04896404 - 1 / 0.04896478 := by norm_num
  linarith

/-! ## C29 -/

/-- the entropies for which no branch of `T4_hs` assigns the pressure of the saturated liquid -/
def T4Gap (F : FP) (s : Num) : Prop :=
  ¬ (s > F.lit 5.210887825 ∧ s < F.lit 9.15546555571324) ∧
  ¬ (s > Num.neg (F.lit 0.0001545495919) ∧ s ≤ F.lit 3.77828134) ∧
  ¬ (s > F.lit 3.77828134 ∧ s ≤ F.lit 4.41202148223476) ∧
  ¬ (s > F.lit 4.41202148223476 ∧ s ≤ F.lit 5.210887663)

theorem T4_hs_gap (F : FP) (h s : Num) (hs : T4Gap F s) : Region4.T4_hs F h s = Py.raise .unbound := by
  unfold Region4.T4_hs
  rw [if_neg hs.1, if_neg hs.2.1, if_neg hs.2.2.1, if_neg hs.2.2.2]
  rfl

theorem not_le_of_lit {F : FP} (hF : F.Sane) {q r : ℚ} (n : ℤ) (hn : |n + 1| ≤ 2 ^ 53) (hn' : |n| ≤ 2 ^ 53)
    (n0 : 0 < n) (hq : 1e-100 ≤ q) (hqn : q ≤ n) (hnr : n + 1 ≤ r) (hr : r ≤ 1e100) {s : Num}
    (hs : F.lit r ≤ s) : ¬ s ≤ F.lit q := by
  have hq' : (1e-100 : ℝ) ≤ q := by
    have : ((1e-100 : ℚ) : ℝ) ≤ q := by exact_mod_cast hq
    norm_num at this ⊢; exact this
  have hr' : (r : ℝ) ≤ 1e100 := by
    have : (r : ℝ) ≤ ((1e100 : ℚ) : ℝ) := by exact_mod_cast hr
    norm_num at this ⊢; exact this
  have hqn' : (q : ℝ) ≤ n := by exact_mod_cast hqn
  have hnr' : ((n + 1 : ℤ) : ℝ) ≤ r := by
    have : ((n + 1 : ℚ) : ℝ) ≤ r := by exact_mod_cast hnr
    simpa using this
  have n0' : (0 : ℝ) < n := by exact_mod_cast n0
  have nr : (n : ℝ) < (n + 1 : ℤ) := by push_cast; linarith
  obtain ⟨a, ha, -⟩ := hF.normal q (by rw [abs_of_pos (by linarith)]; exact hq')
    (by rw [abs_of_pos (by linarith)]; linarith)
  obtain ⟨b, hb, -⟩ := hF.normal r (by rw [abs_of_pos (by linarith)]; linarith)
    (by rwa [abs_of_pos (by linarith)])
  have h1 := hF.mono q n a n hqn' ha (hF.int_exact n hn')
  have h2 := hF.mono _ r _ b hnr' (hF.int_exact (n + 1) hn) hb
  rw [FP.lit, hb] at hs
  rw [FP.lit, ha]
  cases s with
  | nan => exact fun h => by rcases h with h | h <;> exact h
  | fin x => rw [fin_le] at hs ⊢; push_cast at h2; linarith
  | inf m =>
    cases m
    · exact fun h => by rcases h with h | h <;> first | exact Bool.noConfusion h | exact h
    · rcases hs with h | h <;> first | exact Bool.noConfusion h | exact False.elim h

/-- in any sane arithmetic the gap contains every entropy from 9.15546555571324 on -/
theorem T4Gap_high {F : FP} (hF : F.Sane) {s : Num} (hs : F.lit 9.15546555571324 ≤ s) : T4Gap F s := by
  have k : ∀ q : ℚ, 1 ≤ q → q ≤ 6 → ¬ s ≤ F.lit q := fun q h1 h2 =>
    not_le_of_lit hF 8 (by norm_num) (by norm_num) (by norm_num) (le_trans (by norm_num) h1)
      (le_trans h2 (by norm_num)) (by norm_num) (by norm_num) hs
  refine ⟨fun h => lit_le hF (by norm_num) le_rfl (by norm_num) hs h.2, fun h => k _ ?_ ?_ h.2,
    fun h => k _ ?_ ?_ h.2, fun h => k _ ?_ ?_ h.2⟩ <;> norm_num

/-- the gap in exact arithmetic: three pieces -/
theorem T4Gap_ideal (s : ℝ) : T4Gap .ideal (.fin s) ↔
    s ≤ -0.0001545495919 ∨ (5.210887663 < s ∧ s ≤ 5.210887825) ∨ 9.15546555571324 ≤ s := by
  simp only [T4Gap, lit_ideal, neg_fin, gt_num, fin_lt, fin_le]
  push_cast
  constructor
  · rintro ⟨h1, h2, h3, h4⟩
    rw [not_and_or, not_lt] at h1 h2 h3 h4
    rw [not_lt] at h1
    rw [not_le] at h2 h3 h4
    by_contra hc
    rw [not_or, not_or, not_and_or, not_le, not_lt, not_le, not_le] at hc
    obtain ⟨c1, c2, c3⟩ := hc
    norm_num at *
    rcases h1 with h1 | h1 <;> rcases h2 with h2 | h2 <;> rcases h3 with h3 | h3 <;> rcases h4 with h4 | h4 <;>
      rcases c2 with c2 | c2 <;> linarith
  · intro h
    refine ⟨?_, ?_, ?_, ?_⟩ <;> rintro ⟨h1, h2⟩ <;> norm_num at * <;>
      rcases h with h | ⟨h, h'⟩ | h <;> linarith

/-- C29: `t_hs` and `p_hs` (and with `p_hs` also `tc_hs`) end in an `UnboundLocalError` for every point classified as region 4 whose entropy
lies in the gap; any arithmetic, all unit systems -/
theorem C29_gap (F : FP) (u : UnitSystem) (h s H S : Num) (l : List LogRec)
    (hh : Quantity.h.toSI F u h = pure H) (hs : Quantity.s.toSI F u s = pure S)
    (hr : RegionSelection.region_hs F H S = ⟨l, .ok 4⟩) (hg : T4Gap F S) :
    (XSteam.t_hs F u h s).out = .raise .unbound ∧ (XSteam.p_hs F u h s).out = .raise .unbound ∧
      (XSteam.tc_hs F u h s).out = .raise .unbound := by
  have hh' : UnitConverter.toSIunit_h F u h = pure H := hh
  have hs' : UnitConverter.toSIunit_s F u s = pure S := hs
  have hp : (XSteam.p_hs F u h s).out = .raise .unbound := by
    unfold XSteam.p_hs
    simp only [hh', hs', pure_bind, hr]
    simp only [T4_hs_gap F H S hg]
    rfl
  refine ⟨?_, hp, ?_⟩
  · unfold XSteam.t_hs
    simp only [hh', hs', pure_bind, hr]
    simp only [T4_hs_gap F H S hg]
    rfl
  · unfold XSteam.tc_hs
    dsimp only
    generalize XSteam.p_hs F u h s = q at hp ⊢
    obtain ⟨l, o⟩ := q
    cases hp
    rfl

/-- C29: in particular for every point classified as region 4 with 9.15546555571324 ≤ s, in any arithmetic that
rounds sanely -/
theorem C29_strip (F : FP) (hF : F.Sane) (u : UnitSystem) (h s H S : Num) (l : List LogRec)
    (hh : Quantity.h.toSI F u h = pure H) (hs : Quantity.s.toSI F u s = pure S)
    (hr : RegionSelection.region_hs F H S = ⟨l, .ok 4⟩) (hS : F.lit 9.15546555571324 ≤ S) :
    (XSteam.t_hs F u h s).out = .raise .unbound ∧ (XSteam.p_hs F u h s).out = .raise .unbound :=
  have := C29_gap F u h s H S l hh hs hr (T4Gap_high hF hS)
  ⟨this.1, this.2.1⟩

/-! The point h = 1500, s = 5.2108877 lies in the second piece and is classified as region 4. -/

def h4s3 : List Term :=
  (Region4.h4_s.ni_3.zip (Region4.h4_s.Ii_3.zip Region4.h4_s.Ji_3)).map fun a => ⟨a.2.1, a.2.2, a.1⟩

theorem h4_s_3 {s : ℝ} (h1 : 4.41202148223476 < s) (h2 : s ≤ 5.85) (h3 : s / 5.9 ≠ 1.02)
    (h4 : s / 5.9 ≠ 0.726) :
    Region4.h4_s .ideal (.fin s) = pure (.fin (poly h4s3 (s / 5.9 - 1.02) (s / 5.9 - 0.726) ^ 4 * 2800)) := by
  have iI : Region4.h4_s.Ii_3 = h4s3.map Term.I := rfl
  have iJ : Region4.h4_s.Ji_3 = h4s3.map Term.J := rfl
  have iN : Region4.h4_s.ni_3 = h4s3.map Term.n := rfl
  have e1 : FP.ideal.lit 3.77828134 = .fin 3.77828134 := by rw [lit_ideal]; norm_num
  have e2 : FP.ideal.lit 4.41202148223476 = .fin 4.41202148223476 := by rw [lit_ideal]; norm_num
  have e3 : FP.ideal.lit 5.85 = .fin 5.85 := by rw [lit_ideal]; norm_num
  have e4 : FP.ideal.lit 5.9 = .fin 5.9 := by rw [lit_ideal]; norm_num
  have e5 : FP.ideal.lit 1.02 = .fin 1.02 := by rw [lit_ideal]; norm_num
  have e6 : FP.ideal.lit 0.726 = .fin 0.726 := by rw [lit_ideal]; norm_num
  unfold Region4.h4_s
  rw [iI, iJ, iN]
  simp only [e1, e2, e3, e4, e5, e6, gt_num, fin_lt, fin_le]
  rw [if_neg (by rintro ⟨-, h⟩; linarith), if_neg (by rintro ⟨-, h⟩; linarith), if_pos ⟨h1, h2⟩]
  simp only [div_ideal (show (5.9 : ℝ) ≠ 0 by norm_num), pure_bind, sub_ideal, ofInt_eq]
  rw [Int.cast_zero, loop1 (N := 16) (a := 0) (b := 16) h4s3 rfl rfl
    (fun t => (t.n : ℝ) * (s / 5.9 - 1.02) ^ t.I * (s / 5.9 - 0.726) ^ t.J) 0 _ fun i hi a => ?_]
  · simp only [pure_bind, pow_ideal_int (Or.inr (show (0 : ℤ) ≤ 4 by norm_num)), mul_ideal, poly, zero_add]
    norm_cast
  · simp only [Nat.add_zero, idx_map _ hi, pure_bind, lit_ideal, pow_ideal_int (Or.inl (sub_ne_zero.2 h3)),
      pow_ideal_int (Or.inl (sub_ne_zero.2 h4)), mul_ideal, add_ideal]

private theorem region_hs_gap : RegionSelection.region_hs .ideal (.fin 1500) (.fin 5.2108877) = pure 4 := by
  have e0 : FP.ideal.lit 0.0001545495919 = .fin 0.0001545495919 := by rw [lit_ideal]; norm_num
  have e1 : FP.ideal.lit 3.77828134 = .fin 3.77828134 := by rw [lit_ideal]; norm_num
  have e2 : FP.ideal.lit 4.41202148223476 = .fin 4.41202148223476 := by rw [lit_ideal]; norm_num
  have e3 : FP.ideal.lit 5.260578707 = .fin 5.260578707 := by rw [lit_ideal]; norm_num
  have e4 : FP.ideal.lit 0.0415878 = .fin 0.0415878 := by rw [lit_ideal]; norm_num
  have e5 : FP.ideal.lit 2500.89262 = .fin 2500.89262 := by rw [lit_ideal]; norm_num
  have e6 : FP.ideal.lit 0.00015455 = .fin 0.00015455 := by rw [lit_ideal]; norm_num
  have e7 : FP.ideal.lit 9.155759 = .fin 9.155759 := by rw [lit_ideal]; norm_num
  have e8 : FP.ideal.lit 9.155759395 = .fin 9.155759395 := by rw [lit_ideal]; norm_num
  unfold RegionSelection.region_hs
  simp only [e0, e1, e2, e3, e4, e5, e6, e7, e8, neg_fin, sub_ideal, ge_num, fin_lt, fin_le]
  rw [if_neg (by norm_num), div_ideal (by norm_num), pure_bind]
  simp only [mul_ideal, fin_lt]
  rw [if_neg (by norm_num), if_neg (by norm_num), if_neg (by norm_num), if_neg (by norm_num), if_pos (by norm_num),
    h4_s_3 (by norm_num) (by norm_num) (by norm_num) (by norm_num), pure_bind, if_pos]
  rw [fin_lt]
  simp only [poly, h4s3, Region4.h4_s.ni_3, Region4.h4_s.Ii_3, Region4.h4_s.Ji_3, List.zip, List.zipWith, List.map_cons,
    List.map_nil, List.sum_cons, List.sum_nil, zpow_ofNat]
  norm_num

example : (XSteam.t_hs .ideal .bare (.fin 1500) (.fin 5.2108877)).out = .raise .unbound :=
  (C29_gap .ideal .bare (.fin 1500) (.fin 5.2108877) (.fin 1500) (.fin 5.2108877) [] rfl rfl region_hs_gap
    ((T4Gap_ideal _).2 (.inr (.inl ⟨by norm_num, by norm_num⟩)))).1

end PyX
