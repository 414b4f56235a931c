import Verif.Props.Converge
import Verif.Props.RegionPS

/-!
# C56: the temperature in region 5 found by bisection
-/

namespace PyX

open Classical Py Num PyX.Spec Spec.IF97 Spec.PT

theorem cp5_eq {p u : ℝ} (u0 : 0 < u) : gamma5.cp p (1000 * u) = 0.461526 * (12 * 0.024805148933466 * u ^ 3 - 6 * 0.36901534980333 * u ^ 2 + 2 * 3.1161318213925 * u
      + 2 * 0.32961626538917 * u⁻¹ ^ 2 + 6 * 0.004594282089991 * p * u⁻¹ ^ 3 + 72 * 3.9724828359569e-06 * p ^ 2 * u⁻¹ ^ 9
      - 6 * 1.2919228289784e-07 * p ^ 3 * u⁻¹ ^ 3) := by
  have e : (1000 : ℝ) / (1000 * u) = u⁻¹ := by field_simp
  simp only [Gamma.cp, gamma5, e]
  simp only [dpoly, region5, region5Ideal, Term.d, List.map_cons, List.map_nil, List.sum_cons, List.sum_nil, ff, R]
  have z1 : u⁻¹ ^ (-3 - 2 : ℤ) = u ^ 5 := by rw [show (-3 - 2 : ℤ) = -5 by norm_num, inv_zpow', neg_neg]; norm_cast
  have z2 : u⁻¹ ^ (-2 - 2 : ℤ) = u ^ 4 := by rw [show (-2 - 2 : ℤ) = -4 by norm_num, inv_zpow', neg_neg]; norm_cast
  have z3 : u⁻¹ ^ (-1 - 2 : ℤ) = u ^ 3 := by rw [show (-1 - 2 : ℤ) = -3 by norm_num, inv_zpow', neg_neg]; norm_cast
  norm_num
  field_simp
  ring

theorem cp5_bounds {p T : ℝ} (h0 : 0 < p) (h1 : p ≤ 10) (h2 : 1073.15 ≤ T) (h3 : T ≤ 2273.15) :
    1.5 < gamma5.cp p T ∧ gamma5.cp p T < 5 := by
  have hT : 0 < T := by linarith
  obtain ⟨u, rfl⟩ : ∃ u, T = 1000 * u := ⟨T / 1000, by ring⟩
  have u0 : 0 < u := by linarith
  have a1 : 0 < u⁻¹ := by positivity
  have a2 : u⁻¹ ≤ 0.932 := by
    rw [inv_le_comm₀ u0 (by norm_num)]; norm_num at *; linarith
  have a3 : u⁻¹ ^ 9 ≤ 0.932 ^ 9 := pow_le_pow_left₀ a1.le a2 9
  have a4 : u⁻¹ ^ 3 ≤ 0.932 ^ 3 := pow_le_pow_left₀ a1.le a2 3
  have a5 : u⁻¹ ^ 2 ≤ 0.932 ^ 2 := pow_le_pow_left₀ a1.le a2 2
  rw [cp5_eq u0]
  have v1 : 1.073 ≤ u := by linarith
  have v2 : u ≤ 2.2732 := by linarith
  have c1 : 4 ≤ 12 * 0.024805148933466 * u ^ 3 - 6 * 0.36901534980333 * u ^ 2 + 2 * 3.1161318213925 * u := by
    nlinarith [mul_nonneg (sub_nonneg.2 v1) (sq_nonneg (u - 2.4)), sq_nonneg (u - 2.4), mul_nonneg (sub_nonneg.2 v1) (sub_nonneg.2 v2)]
  have c2 : 12 * 0.024805148933466 * u ^ 3 - 6 * 0.36901534980333 * u ^ 2 + 2 * 3.1161318213925 * u ≤ 7 := by
    nlinarith [mul_nonneg (sub_nonneg.2 v2) (sq_nonneg (u - 2.4)), sq_nonneg (u - 2.4), mul_nonneg (sub_nonneg.2 v1) (sub_nonneg.2 v2)]
  have q3 : 0 < u⁻¹ ^ 3 := by positivity
  have q9 : 0 < u⁻¹ ^ 9 := by positivity
  have q2 : 0 < (u ^ 2)⁻¹ := by positivity
  have p2 : p ^ 2 ≤ 100 := by nlinarith
  have p3 : p ^ 3 ≤ 100 * p := by nlinarith [mul_nonneg h0.le (sub_nonneg.2 p2)]
  have r1 : 0 ≤ 6 * 0.004594282089991 * p * u⁻¹ ^ 3 - 6 * 1.2919228289784e-07 * p ^ 3 * u⁻¹ ^ 3 := by
    have : 0 ≤ (6 * 0.004594282089991 * p - 6 * 1.2919228289784e-07 * p ^ 3) * u⁻¹ ^ 3 := mul_nonneg (by linarith) q3.le
    linarith
  have r2 : 0 ≤ 72 * 3.9724828359569e-06 * p ^ 2 * u⁻¹ ^ 9 := by positivity
  have r3 : p * u⁻¹ ^ 3 ≤ 10 * 0.932 ^ 3 := mul_le_mul h1 a4 q3.le (by norm_num)
  have r4 : p ^ 2 * u⁻¹ ^ 9 ≤ 100 * 0.932 ^ 9 := mul_le_mul p2 a3 q9.le (by norm_num)
  have r5 : 0 ≤ p ^ 3 * u⁻¹ ^ 3 := by positivity
  norm_num at c1 c2 a5 r1 r2 r3 r4 r5 ⊢
  constructor <;> linarith

theorem cp5_lt {p T : ℝ} (h0 : 0 < p) (h1 : p ≤ 10) (h2 : 1673.15 ≤ T) (h3 : T ≤ 2273.15) : gamma5.cp p T < 3 := by
  obtain ⟨u, rfl⟩ : ∃ u, T = 1000 * u := ⟨T / 1000, by ring⟩
  have u0 : 0 < u := by linarith
  have a1 : 0 < u⁻¹ := by positivity
  have a2 : u⁻¹ ≤ 0.598 := by
    rw [inv_le_comm₀ u0 (by norm_num)]; norm_num at *; linarith
  have b2 : 1 / 2.27315 ≤ u⁻¹ := by
    rw [one_div]; exact inv_anti₀ u0 (by linarith)
  have a3 : u⁻¹ ^ 9 ≤ 0.598 ^ 9 := pow_le_pow_left₀ a1.le a2 9
  have a4 : u⁻¹ ^ 3 ≤ 0.598 ^ 3 := pow_le_pow_left₀ a1.le a2 3
  rw [cp5_eq u0]
  have v1 : 1.673 ≤ u := by linarith
  have v2 : u ≤ 2.27315 := by linarith
  have q3 : 0 < u⁻¹ ^ 3 := by positivity
  have q9 : 0 < u⁻¹ ^ 9 := by positivity
  have p2 : p ^ 2 ≤ 100 := by nlinarith
  -- the term in `u⁻²` is below its chord
  have a5 : u⁻¹ ^ 2 ≤ 0.36 - 0.275 * (u - 1.673) := by
    rw [inv_pow, inv_le_iff_one_le_mul₀ (by positivity)]
    nlinarith [mul_nonneg (sub_nonneg.2 v1) (sub_nonneg.2 v2), mul_nonneg (mul_nonneg (sub_nonneg.2 v1) (sub_nonneg.2 v2)) u0.le]
  have c2 : 12 * 0.024805148933466 * u ^ 3 - 6 * 0.36901534980333 * u ^ 2 + 2 * 3.1161318213925 * u ≤ 5.675 + (u - 1.673) := by
    nlinarith [mul_nonneg (sub_nonneg.2 v2) (sq_nonneg (u - 1.945)), sq_nonneg (u - 1.945)]
  have r3 : p * u⁻¹ ^ 3 ≤ 10 * 0.598 ^ 3 := mul_le_mul h1 a4 q3.le (by norm_num)
  have r4 : p ^ 2 * u⁻¹ ^ 9 ≤ 100 * 0.598 ^ 9 := mul_le_mul p2 a3 q9.le (by norm_num)
  have r5 : 0 ≤ p ^ 3 * u⁻¹ ^ 3 := by positivity
  norm_num at c2 a5 r3 r4 r5 ⊢
  linarith

/-! ## Slopes along an isobar -/

section
variable {p T T' : ℝ}

theorem h5_slope (h0 : 0 < p) (h1 : p ≤ 10) (h2 : 1073.15 ≤ T) (h3 : T' ≤ 2273.15) (hT : T < T') :
    1.5 * (T' - T) < gamma5.h p T' - gamma5.h p T ∧ gamma5.h p T' - gamma5.h p T < 5 * (T' - T) := by
  have d : ∀ x, T ≤ x → x ≤ T' → HasDerivAt (fun T => gamma5.h p T) (gamma5.cp p x) x := fun x a b =>
    ((at5 h0 (by linarith)).gibbs (by norm_num [gamma5]) (by linarith)).heat
  have a := Gamma.lt_of_deriv (f := fun T => gamma5.h p T - 1.5 * T) (f' := fun x => gamma5.cp p x - 1.5 * 1) hT
    (fun x a b => (d x a b).sub ((hasDerivAt_id x).const_mul 1.5))
    (fun x a b => by linarith [(cp5_bounds h0 h1 (by linarith) (by linarith : x ≤ 2273.15)).1])
  have b := Gamma.lt_of_deriv (f := fun T => 5 * T - gamma5.h p T) (f' := fun x => 5 * 1 - gamma5.cp p x) hT
    (fun x a b => ((hasDerivAt_id x).const_mul 5).sub (d x a b))
    (fun x a b => by linarith [(cp5_bounds h0 h1 (by linarith) (by linarith : x ≤ 2273.15)).2])
  constructor <;> linarith

theorem s5_deriv (h0 : 0 < p) (hT : 0 < T) : HasDerivAt (fun T => gamma5.s p T) (gamma5.cp p T / T) T :=
  (at5 h0 hT).sT hT.ne'

theorem s5_slope (h0 : 0 < p) (h1 : p ≤ 10) (h2 : 1073.15 ≤ T) (h3 : T' ≤ 2273.15) (hT : T < T') :
    0.00065 * (T' - T) < gamma5.s p T' - gamma5.s p T ∧ gamma5.s p T' - gamma5.s p T < 0.005 * (T' - T) := by
  have d : ∀ x, T ≤ x → x ≤ T' → HasDerivAt (fun T => gamma5.s p T) (gamma5.cp p x / x) x := fun x a b => s5_deriv h0 (by linarith)
  have a := Gamma.lt_of_deriv (f := fun T => gamma5.s p T - 0.00065 * T) (f' := fun x => gamma5.cp p x / x - 0.00065 * 1) hT
    (fun x a b => (d x a b).sub ((hasDerivAt_id x).const_mul 0.00065))
    (fun x a b => by
      have := (cp5_bounds h0 h1 (by linarith) (by linarith : x ≤ 2273.15)).1
      rw [sub_pos, lt_div_iff₀ (by linarith)]; linarith)
  have b := Gamma.lt_of_deriv (f := fun T => 0.005 * T - gamma5.s p T) (f' := fun x => 0.005 * 1 - gamma5.cp p x / x) hT
    (fun x a b => ((hasDerivAt_id x).const_mul 0.005).sub (d x a b))
    (fun x a b => by
      have := (cp5_bounds h0 h1 (by linarith) (by linarith : x ≤ 2273.15)).2
      rw [sub_pos, div_lt_iff₀ (by linarith)]; linarith)
  constructor <;> linarith

/-- the entropy rises by less than 1 from the midpoint of the interval searched to its upper end -/
theorem s5_top (h0 : 0 < p) (h1 : p ≤ 10) (h2 : 1073.15 ≤ T) (h3 : T ≤ 2273.15) : gamma5.s p T < gamma5.s p 1673.15 + 1 := by
  have part : ∀ a b k : ℝ, 1673.15 ≤ a → a < b → b ≤ 2273.15 → 3 < k * a → gamma5.s p b - gamma5.s p a < k * (b - a) := by
    intro a b k ha hab hb hk
    have := Gamma.lt_of_deriv (f := fun T => k * T - gamma5.s p T) (f' := fun x => k * 1 - gamma5.cp p x / x) hab
      (fun x a b => ((hasDerivAt_id x).const_mul k).sub (s5_deriv h0 (by linarith)))
      (fun x a b => by
        have := cp5_lt h0 h1 (by linarith) (by linarith : x ≤ 2273.15)
        have k0 : 0 < k := by by_contra hk0; nlinarith
        rw [sub_pos, div_lt_iff₀ (by linarith)]; nlinarith)
    linarith
  have a := part 1673.15 1973.15 0.001794 le_rfl (by norm_num) (by norm_num) (by norm_num)
  have b := part 1973.15 2273.15 0.001521 (by norm_num) (by norm_num) (by norm_num) (by norm_num)
  have c : gamma5.s p T ≤ gamma5.s p 2273.15 := by
    rcases h3.eq_or_lt with rfl | h
    · exact le_rfl
    · exact (s5_lt h0 (by linarith) h2 le_rfl h).le
  norm_num at a b c ⊢
  linarith

end

/-! ## The bisections -/

private theorem e1 : FP.ideal.lit 1073.15 = .fin 1073.15 := by rw [lit_ideal]; norm_num
private theorem e2 : FP.ideal.lit 2273.15 = .fin 2273.15 := by rw [lit_ideal]; norm_num
private theorem e3 : FP.ideal.lit 0.00001 = .fin 0.00001 := by rw [lit_ideal]; norm_num
private theorem e4 : Num.ofInt 1 = .fin 1 := by rw [ofInt_eq]; norm_num

theorem inj_of_lt {g : ℝ → ℝ} {a b : ℝ} (h : ∀ x y, a ≤ x → y ≤ b → x < y → g x < g y) : Set.InjOn g (Set.Icc a b) := by
  intro x hx y hy e
  rcases lt_trichotomy x y with l | l | l
  · exact absurd e (h x y hx.1 hy.2 l).ne
  · exact l
  · exact absurd e (h y x hy.1 hx.2 l).ne'

/-- slopes between `k` and `L` -/
theorem slope_abs {g : ℝ → ℝ} {a b k L : ℝ} (h : ∀ x y, a ≤ x → y ≤ b → x < y → k * (y - x) < g y - g x ∧ g y - g x < L * (y - x)) (hk : 0 ≤ k)
    {x y : ℝ} (hx : x ∈ Set.Icc a b) (hy : y ∈ Set.Icc a b) : k * |x - y| ≤ |g x - g y| ∧ |g x - g y| ≤ L * |x - y| := by
  rcases lt_trichotomy x y with l | l | l
  · obtain ⟨q, r⟩ := h x y hx.1 hy.2 l
    have : 0 ≤ k * (y - x) := mul_nonneg hk (by linarith)
    rw [abs_of_neg (by linarith), abs_of_nonpos (by linarith)]
    constructor <;> linarith
  · subst l; simp
  · obtain ⟨q, r⟩ := h y x hy.1 hx.2 l
    have : 0 ≤ k * (x - y) := mul_nonneg hk (by linarith)
    rw [abs_of_pos (by linarith), abs_of_nonneg (by linarith)]
    constructor <;> linarith

/-- **C56**: the temperature found from pressure and enthalpy in region 5 is that of the basic equation, to within 0.01 mK -- unless
the enthalpy is by exactly 1 above that at 1673.15 K -/
theorem C56_T5_ph (p T : ℝ) (h0 : 0 < p) (h1 : p ≤ 10) (hT : T ∈ Set.Icc 1073.15 2273.15) (h hm : ℝ)
    (hh : Region5.h5_pT .ideal (.fin p) (.fin T) = pure (.fin h))
    (hM : Region5.h5_pT .ideal (.fin p) (.fin 1673.15) = pure (.fin hm)) (hne : h ≠ hm + 1) :
    ∃ T' : ℝ, Region5.T5_ph .ideal (.fin p) (.fin h) = pure (.fin T') ∧ |T' - T| ≤ 1e-5 := by
  rw [h5_pT_eq ⟨h0, by linarith [hT.1]⟩] at hh
  rw [h5_pT_eq ⟨h0, by norm_num⟩] at hM
  cases hh
  cases hM
  have sl : ∀ x y, 1073.15 ≤ x → y ≤ 2273.15 → x < y → 1.5 * (y - x) < gamma5.h p y - gamma5.h p x ∧ gamma5.h p y - gamma5.h p x < 5 * (y - x) :=
    fun x y a b c => h5_slope h0 h1 a b c
  have lt : ∀ x y, 1073.15 ≤ x → y ≤ 2273.15 → x < y → gamma5.h p x < gamma5.h p y := fun x y a b c => h5_lt h0 (by linarith) a b c
  have mid : ((1073.15 : ℝ) + 2273.15) / 2 = 1673.15 := by norm_num
  obtain ⟨T', m, e, r⟩ := bisect_converges (g := fun T => gamma5.h p T) (xs := T) (tol := 0.00001) (L := 5) (lo := 1073.15) (hi := 2273.15)
    (r := gamma5.h p T - 1)
    (c := fun r => Num.fabs (FP.ideal.sub (.fin (gamma5.h p T)) r) > FP.ideal.lit 0.00001) (f := fun x => Region5.h5_pT .ideal (.fin p) x)
    (up := fun r => r > .fin (gamma5.h p T)) (msg := "T5_ph stopped iterating after %d steps because values did not converge")
    (fun x hx => h5_pT_eq ⟨h0, by linarith [hx.1]⟩) (inj_of_lt lt)
    (fun r => by rw [e3, sub_ideal, Num.fabs, gt_num, fin_lt])
    (fun x hx hu => by
      rw [gt_num, fin_lt] at hu
      by_contra hc
      linarith [lt x T hx.1 hT.2 (not_le.1 hc)])
    (fun x hx hu => by
      rw [gt_num, fin_lt] at hu
      by_contra hc
      exact hu (lt T x hT.1 hx.2 (not_le.1 hc)))
    (fun x hx => (slope_abs sl (by norm_num) hT hx).2) (by norm_num) (by norm_num) (by norm_num) hT (by norm_num)
    (by rw [mid]; exact fun h => hne (by linarith))
  refine ⟨T', ?_, ?_⟩
  · unfold Region5.T5_ph
    rw [Region5.T5_ph.pass_eq]
    simp only [e1, e2, e4, sub_ideal]
    exact r
  · have := (slope_abs sl (by norm_num) hT m).1
    rw [abs_sub_comm]
    norm_num at this e ⊢
    linarith [abs_nonneg (T - T')]

/-- C56: in that case the loop stops in its first pass, logs that it did not converge, and returns 1673.15 K, which is more than
0.2 K below the temperature of the enthalpy given -/
theorem C56_T5_ph_gives_up (p hm : ℝ) (h0 : 0 < p) (h1 : p ≤ 10)
    (hM : Region5.h5_pT .ideal (.fin p) (.fin 1673.15) = pure (.fin hm)) :
    Region5.T5_ph .ideal (.fin p) (.fin (hm + 1)) =
      ⟨[⟨.warning, "T5_ph stopped iterating after %d steps because values did not converge"⟩], .ok (.fin 1673.15)⟩ ∧
    ∃ T ∈ Set.Icc (1673.35 : ℝ) 1674.15, Region5.h5_pT .ideal (.fin p) (.fin T) = pure (.fin (hm + 1)) := by
  rw [h5_pT_eq ⟨h0, by norm_num⟩] at hM
  cases hM
  have mid : ((1073.15 : ℝ) + 2273.15) / 2 = 1673.15 := by norm_num
  refine ⟨?_, ?_⟩
  · unfold Region5.T5_ph
    rw [Region5.T5_ph.pass_eq]
    have r := bisect_gives_up (g := fun T => gamma5.h p T) (lo := 1073.15) (hi := 2273.15)
      (c := fun r => Num.fabs (FP.ideal.sub (.fin (gamma5.h p 1673.15 + 1)) r) > FP.ideal.lit 0.00001) (f := fun x => Region5.h5_pT .ideal (.fin p) x)
      (up := fun r => r > .fin (gamma5.h p 1673.15 + 1)) (msg := "T5_ph stopped iterating after %d steps because values did not converge")
      (h5_pT_eq ⟨h0, by norm_num⟩) (by rw [e3, sub_ideal, Num.fabs, gt_num, fin_lt, mid]; norm_num)
    rw [mid] at r
    simp only [e1, e2, e4, sub_ideal, add_sub_cancel_right]
    exact r
  · have lo := (h5_slope (T := 1673.15) (T' := 1673.35) h0 h1 (by norm_num) (by norm_num) (by norm_num)).2
    have hi := (h5_slope (T := 1673.15) (T' := 1674.15) h0 h1 (by norm_num) (by norm_num) (by norm_num)).1
    have c : ContinuousOn (fun T => gamma5.h p T) (Set.Icc 1673.35 1674.15) := fun x hx =>
      (((at5 h0 (by linarith [hx.1])).gibbs (by norm_num [gamma5]) (by linarith [hx.1])).heat).continuousAt.continuousWithinAt
    obtain ⟨T, m, e⟩ := intermediate_value_Icc (by norm_num) c (show gamma5.h p 1673.15 + 1 ∈ Set.Icc _ _ by
      norm_num at lo hi ⊢; constructor <;> linarith)
    refine ⟨T, m, ?_⟩
    rw [h5_pT_eq ⟨h0, by linarith [m.1]⟩]
    simp only at e
    rw [e]

/-- **C56**: the temperature found from pressure and entropy in region 5 is that of the basic equation, to within 16 mK; the
first pass never gives up -/
theorem C56_T5_ps (p T : ℝ) (h0 : 0 < p) (h1 : p ≤ 10) (hT : T ∈ Set.Icc 1073.15 2273.15) (s : ℝ)
    (hs : Region5.s5_pT .ideal (.fin p) (.fin T) = pure (.fin s)) :
    ∃ T' s' : ℝ, Region5.T5_ps .ideal (.fin p) (.fin s) = pure (.fin T') ∧ |T' - T| ≤ 0.016 ∧
      Region5.s5_pT .ideal (.fin p) (.fin T') = pure (.fin s') ∧ |s' - s| ≤ 1e-5 := by
  rw [s5_pT_eq ⟨h0, by linarith [hT.1]⟩] at hs
  cases hs
  have sl : ∀ x y, 1073.15 ≤ x → y ≤ 2273.15 → x < y → 0.00065 * (y - x) < gamma5.s p y - gamma5.s p x ∧ gamma5.s p y - gamma5.s p x < 0.005 * (y - x) :=
    fun x y a b c => s5_slope h0 h1 a b c
  have lt : ∀ x y, 1073.15 ≤ x → y ≤ 2273.15 → x < y → gamma5.s p x < gamma5.s p y := fun x y a b c => s5_lt h0 (by linarith) a b c
  have mid : ((1073.15 : ℝ) + 2273.15) / 2 = 1673.15 := by norm_num
  obtain ⟨T', m, e, r⟩ := bisect_converges (g := fun T => gamma5.s p T) (xs := T) (tol := 0.00001) (L := 0.005) (lo := 1073.15) (hi := 2273.15)
    (r := gamma5.s p T - 1)
    (c := fun r => Num.fabs (FP.ideal.sub (.fin (gamma5.s p T)) r) > FP.ideal.lit 0.00001) (f := fun x => Region5.s5_pT .ideal (.fin p) x)
    (up := fun r => r > .fin (gamma5.s p T)) (msg := "T5_ps stopped iterating after %d steps because values did not converge")
    (fun x hx => s5_pT_eq ⟨h0, by linarith [hx.1]⟩) (inj_of_lt lt)
    (fun r => by rw [e3, sub_ideal, Num.fabs, gt_num, fin_lt])
    (fun x hx hu => by
      rw [gt_num, fin_lt] at hu
      by_contra hc
      linarith [lt x T hx.1 hT.2 (not_le.1 hc)])
    (fun x hx hu => by
      rw [gt_num, fin_lt] at hu
      by_contra hc
      exact hu (lt T x hT.1 hx.2 (not_le.1 hc)))
    (fun x hx => (slope_abs sl (by norm_num) hT hx).2) (by norm_num) (by norm_num) (by norm_num) hT (by norm_num)
    (by rw [mid]; exact fun h => absurd (s5_top h0 h1 hT.1 hT.2) (by linarith))
  refine ⟨T', _, ?_, ?_, s5_pT_eq ⟨h0, by linarith [m.1]⟩, ?_⟩
  · unfold Region5.T5_ps
    rw [Region5.T5_ps.pass_eq]
    simp only [e1, e2, e4, sub_ideal]
    exact r
  · have := (slope_abs sl (by norm_num) hT m).1
    rw [abs_sub_comm]
    norm_num at this e ⊢
    linarith [abs_nonneg (T - T')]
  · rw [abs_sub_comm]
    norm_num at e ⊢
    exact e

/-- 1 MPa and 1200 K -/
example : ∃ h s Th Ts : ℝ, Region5.h5_pT .ideal (.fin 1) (.fin 1200) = pure (.fin h) ∧
    Region5.s5_pT .ideal (.fin 1) (.fin 1200) = pure (.fin s) ∧
    Region5.T5_ph .ideal (.fin 1) (.fin h) = pure (.fin Th) ∧ |Th - 1200| ≤ 1e-5 ∧
    Region5.T5_ps .ideal (.fin 1) (.fin s) = pure (.fin Ts) ∧ |Ts - 1200| ≤ 0.016 := by
  have lt : gamma5.h 1 1200 < gamma5.h 1 1673.15 := h5_lt (by norm_num) (by norm_num) (by norm_num) (by norm_num) (by norm_num)
  have e := h5_pT_eq (p := 1) (T := 1200) ⟨by norm_num, by norm_num⟩
  have e' := s5_pT_eq (p := 1) (T := 1200) ⟨by norm_num, by norm_num⟩
  obtain ⟨Th, a, b⟩ := C56_T5_ph 1 1200 (by norm_num) (by norm_num) (by norm_num) _ _ e (h5_pT_eq ⟨by norm_num, by norm_num⟩) (by linarith)
  obtain ⟨Ts, _, c, d, -⟩ := C56_T5_ps 1 1200 (by norm_num) (by norm_num) (by norm_num) _ e'
  exact ⟨_, _, _, _, e, e', a, b, c, d⟩

end PyX
