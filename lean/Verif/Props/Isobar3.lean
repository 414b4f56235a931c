import Verif.Lemmas.Isobar3
import Verif.Props.Agree
import Verif.Props.Density3
import Verif.Props.Solvers

/-!
# C80: from 22.1 MPa on the enthalpies from 1700 to 2500 kJ/kg are those of states of region 3

On the isobar of `p` the temperature is a function of the density, because the pressure increases with temperature.  It is followed
from 623.15 K, where the enthalpy is below 1700 kJ/kg, to the border to region 2, where it is above 2500 kJ/kg.
-/

namespace PyX

open Classical Py Num _root_.Spec _root_.Spec.IF97 _root_.Spec.PT _root_.Spec.Sat _root_.Spec.R3 Kron

section
variable {p h ρ T T' : ℝ}

theorem dpoly_continuousWithinAt (ts : List Term) (k l : ℕ) {f g : ℝ → ℝ} {s : Set ℝ} {a : ℝ} (hf : ContinuousWithinAt f s a)
    (hg : ContinuousWithinAt g s a) (h1 : f a ≠ 0) (h2 : g a ≠ 0) : ContinuousWithinAt (fun z => dpoly ts k l (f z) (g z)) s a := by
  induction ts with
  | nil => simpa [dpoly] using continuousWithinAt_const
  | cons t ts ih =>
    simp only [B3.dpoly_cons]
    refine ContinuousWithinAt.add ?_ ih
    simp only [Term.d]
    exact (continuousWithinAt_const.mul (continuousWithinAt_const.mul (hf.zpow₀ _ (.inl h1)))).mul (continuousWithinAt_const.mul (hg.zpow₀ _ (.inl h2)))

theorem p3_continuousWithinAt {f g : ℝ → ℝ} {s : Set ℝ} {a : ℝ} (hf : ContinuousWithinAt f s a)
    (hg : ContinuousWithinAt g s a) (h1 : f a ≠ 0) (h2 : g a ≠ 0) : ContinuousWithinAt (fun z => p3 (f z) (g z)) s a := by
  have x := hf.div_const 322
  have y := (continuousWithinAt_const (b := (647.096 : ℝ))).div hg h2
  have x0 : f a / 322 ≠ 0 := by simpa using h1
  have y0 : 647.096 / g a ≠ 0 := div_ne_zero (by norm_num) h2
  simp only [p3, B3.P]
  exact (continuousWithinAt_const.mul (x.mul (continuousWithinAt_const.add (x.mul (dpoly_continuousWithinAt _ _ _ x y x0 y0))))).div y y0

theorem h3_continuousWithinAt {f g : ℝ → ℝ} {s : Set ℝ} {a : ℝ} (hf : ContinuousWithinAt f s a)
    (hg : ContinuousWithinAt g s a) (h1 : f a ≠ 0) (h2 : g a ≠ 0) : ContinuousWithinAt (fun z => h3 (f z) (g z)) s a := by
  have x := hf.div_const 322
  have y := (continuousWithinAt_const (b := (647.096 : ℝ))).div hg h2
  have x0 : f a / 322 ≠ 0 := by simpa using h1
  have y0 : 647.096 / g a ≠ 0 := div_ne_zero (by norm_num) h2
  simp only [h3, B3.H]
  exact (continuousWithinAt_const.mul ((continuousWithinAt_const.add (x.mul (dpoly_continuousWithinAt _ _ _ x y x0 y0))).add
    (y.mul (dpoly_continuousWithinAt _ _ _ x y x0 y0)))).div y y0

/-- the last point where a continuous function is not positive -/
theorem last_zero {f : ℝ → ℝ} {a b : ℝ} (hab : a ≤ b) (hf : ContinuousOn f (Set.Icc a b)) (ha : f a ≤ 0) (hb : 0 < f b) :
    ∃ c ∈ Set.Ico a b, f c = 0 ∧ ∀ x ∈ Set.Ioc c b, 0 < f x := by
  have hK : IsCompact (Set.Icc a b ∩ f ⁻¹' Set.Iic 0) := isCompact_Icc.of_isClosed_subset
    (hf.preimage_isClosed_of_isClosed isClosed_Icc isClosed_Iic) Set.inter_subset_left
  obtain ⟨c, ⟨hc, hc0⟩, hmax⟩ := hK.exists_isGreatest ⟨a, ⟨le_rfl, hab⟩, ha⟩
  have hcb : c < b := lt_of_le_of_ne hc.2 (by rintro rfl; exact absurd hc0 (not_le.2 hb))
  have pos : ∀ x ∈ Set.Ioc c b, 0 < f x := fun x hx => by
    by_contra hn
    exact absurd (hmax ⟨⟨hc.1.trans hx.1.le, hx.2⟩, not_lt.1 hn⟩) (not_le.2 hx.1)
  refine ⟨c, ⟨hc.1, hcb⟩, le_antisymm hc0 ?_, pos⟩
  by_contra hn
  rw [not_le] at hn
  obtain ⟨d, hd, e⟩ := intermediate_value_Icc hcb.le (hf.mono (Set.Icc_subset_Icc_left hc.1)) (show (f c / 2) ∈ Set.Icc (f c) (f b) from ⟨by linarith, by linarith⟩)
  rcases hd.1.eq_or_lt with rfl | h
  · linarith
  · linarith [pos d ⟨h, hd.2⟩]

/-- the first point where a continuous function is not negative -/
theorem first_zero {f : ℝ → ℝ} {a b : ℝ} (hab : a ≤ b) (hf : ContinuousOn f (Set.Icc a b)) (ha : f a < 0) (hb : 0 ≤ f b) :
    ∃ c ∈ Set.Ioc a b, f c = 0 ∧ ∀ x ∈ Set.Ico a c, f x < 0 := by
  obtain ⟨c, ⟨c1, c2⟩, e, hc⟩ := last_zero (f := fun x => -f (-x)) (neg_le_neg hab)
    (hf.comp continuousOn_neg (fun x hx => ⟨by linarith [hx.2], by linarith [hx.1]⟩)).neg (by simpa using hb) (by simpa using ha)
  refine ⟨-c, ⟨by linarith, by linarith⟩, by simpa using e, fun x hx => ?_⟩
  have := hc (-x) ⟨by linarith [hx.2], by linarith [hx.1]⟩
  simpa using this

theorem p3_rise (h0 : 96.6 ≤ ρ) (h1 : ρ ≤ 764) (h2 : 623.15 ≤ T) (h3 : T' ≤ 863.2) (h4 : ρ ≤ 550 ∨ T' ≤ 848.15) (hlt : T < T') :
    0.025 * (T' - T) < p3 ρ T' - p3 ρ T := by
  have := p3_heat h0 h1 h2 (by linarith) h4 hlt
  rwa [p3_eq (by linarith) (by linarith), p3_eq (by linarith) (by linarith)] at this

theorem p3_rise' (h0 : 96.6 ≤ ρ) (h1 : ρ ≤ 764) (h2 : 623.15 ≤ T) (h3 : T' ≤ 863.2) (h4 : ρ ≤ 550 ∨ T' ≤ 848.15) (hle : T ≤ T') :
    p3 ρ T ≤ p3 ρ T' := by
  rcases hle.eq_or_lt with rfl | h
  · exact le_rfl
  · have := p3_rise h0 h1 h2 h3 h4 h
    linarith

theorem p3_hot (h0 : 550 ≤ ρ) (h1 : ρ ≤ 764) (h2 : 848.15 ≤ T) (h3 : T ≤ 863.2) : 100 < p3 ρ T := by
  have := p3_middle h0 h1 h2 h3
  rwa [p3_eq (by linarith) (by linarith)] at this

/-- two temperatures at one density are no farther apart than the pressures allow -/
theorem p3_near (h0 : 96.6 ≤ ρ) (h1 : ρ ≤ 764) (h2 : 623.15 ≤ T) (h3 : T ≤ 863.2) (h2' : 623.15 ≤ T') (h3' : T' ≤ 863.2)
    (h4 : ρ ≤ 550 ∨ T ≤ 848.15 ∧ T' ≤ 848.15) : 0.025 * |T - T'| ≤ |p3 ρ T - p3 ρ T'| := by
  rcases lt_trichotomy T T' with h | rfl | h
  · have := p3_rise h0 h1 h2 h3' (h4.imp_right And.right) h
    rw [abs_sub_comm T, abs_sub_comm (p3 ρ T), abs_of_pos (by linarith)]
    exact this.le.trans (le_abs_self _)
  · simp
  · have := p3_rise h0 h1 h2' h3 (h4.imp_right And.left) h
    rw [abs_of_pos (by linarith)]
    exact this.le.trans (le_abs_self _)

/-- liquid from 22.1 MPa on: cold and dense -/
theorem p3_cold (h0 : 96.6 ≤ ρ) (h1 : ρ ≤ 764) (h2 : 623.15 ≤ T) (h3 : T < 647.096) (hp : 22.1 ≤ p3 ρ T) :
    385 < ρ ∧ (ρ ≤ 440 → 643.79 < T) ∧ (ρ ≤ 492 → 635.5 < T) ∧ (ρ ≤ 590 → 623.4 < T) := by
  have a : 385 < ρ := by
    by_contra hn
    rw [not_lt] at hn
    have := p3_rise' h0 h1 h2 (by norm_num) (.inl (by linarith)) h3.le
    have e := B3.p_critical (x := ρ / 322) (by rw [le_div_iff₀ (by norm_num)]; linarith) (div_le_div_of_nonneg_right hn (by norm_num))
    rw [p3, p3, div_self (by norm_num)] at this
    rw [p3] at hp
    linarith
  have x1 : 385 / 322 ≤ ρ / 322 := div_le_div_of_nonneg_right a.le (by norm_num)
  have d : ρ ≤ 590 → 623.4 < T := fun h => by
    by_contra hn
    rw [not_lt] at hn
    have := p3_rise' h0 h1 h2 (by norm_num) (.inr (by norm_num)) hn
    have e := B3.p_623 x1 (div_le_div_of_nonneg_right h (by norm_num))
    simp only [p3] at this hp
    linarith
  have c : 440 ≤ ρ → ρ ≤ 492 → 635.5 < T := fun h' h => by
    by_contra hn
    rw [not_lt] at hn
    have := p3_rise' h0 h1 h2 (by norm_num) (.inr (by norm_num)) hn
    have e := B3.p_635 (div_le_div_of_nonneg_right h' (by norm_num)) (div_le_div_of_nonneg_right h (by norm_num))
    simp only [p3] at this hp
    linarith
  have b : ρ ≤ 440 → 643.79 < T := fun h => by
    by_contra hn
    rw [not_lt] at hn
    have := p3_rise' h0 h1 h2 (by norm_num) (.inr (by norm_num)) hn
    have e := B3.p_643 x1 (div_le_div_of_nonneg_right h (by norm_num))
    simp only [p3] at this hp
    linarith
  refine ⟨a, b, fun h => ?_, d⟩
  rcases le_total ρ 440 with h' | h'
  · have := b h'
    linarith
  · exact c h' h

theorem h3_cold (h0 : 590 < ρ) (h1 : ρ ≤ 764) (h2 : 623.15 ≤ T) (h3 : T ≤ 623.4) : Kron.h3 ρ T < 1700 :=
  B3.h_623 (div_le_div_of_nonneg_right (by linarith) (by norm_num)) (div_le_div_of_nonneg_right h1 (by norm_num))
    (div_le_div_of_nonneg_left (by norm_num) (by linarith) h3) (div_le_div_of_nonneg_left (by norm_num) (by norm_num) h2)

theorem h3_border (h0 : 96.6 ≤ ρ) (h1 : ρ ≤ 764) (h2 : 662 ≤ T) (h3 : T ≤ 863.2) : 2500 < Kron.h3 ρ T ∨ b23 T + 0.1 < p3 ρ T := by
  have := B3.border (x := ρ / 322) (y := 647.096 / T) (by rw [le_div_iff₀ (by norm_num)]; linarith) (div_le_div_of_nonneg_right h1 (by norm_num))
    (div_le_div_of_nonneg_left (by norm_num) (by linarith) h3) (div_le_div_of_nonneg_left (by norm_num) (by norm_num) h2)
  rwa [div_div_cancel₀ (by norm_num)] at this

theorem b23T_mid (h0 : 22.1 ≤ p) (h1 : p ≤ 100) : 662 ≤ b23T p ∧ b23T p ≤ 863.2 := by
  refine ⟨?_, (b23T_near (by linarith) h1).2.1.le⟩
  have e := b23T_sq (p := p) (by linarith)
  have := (b23T_range (p := p) (by linarith) h1).1
  nlinarith

/-- every enthalpy from 1700 to 2500 kJ/kg is reached on every isobar from 22.1 to 100 MPa -/
theorem isobar (h0 : 22.1 ≤ p) (h1 : p ≤ 100) (a : 1700 ≤ h) (b : h ≤ 2500) :
    ∃ ρ T : ℝ, 96.6 ≤ ρ ∧ ρ ≤ 764 ∧ 623.15 ≤ T ∧ T ≤ b23T p ∧ p3 ρ T = p ∧ Kron.h3 ρ T = h := by
  obtain ⟨t0, t1⟩ := b23T_mid h0 h1
  obtain ⟨q0, q1⟩ := b23_b23T (p := p) (by linarith) h1
  have cont : ∀ T : ℝ, 0 < T → ∀ ρ : ℝ, 0 < ρ → ∀ s, ContinuousWithinAt (fun ρ => p3 ρ T) s ρ := fun T hT ρ hρ s =>
    p3_continuousWithinAt continuousWithinAt_id continuousWithinAt_const hρ.ne' hT.ne'
  -- the end at 623.15 K
  have light : ∀ ρ : ℝ, 96.6 ≤ ρ → ρ ≤ 590 → p3 ρ 623.15 < 22.1 := fun ρ k0 k1 => by
    by_contra hn
    have := (p3_cold k0 (by linarith) le_rfl (by norm_num) (not_lt.1 hn)).2.2.2 k1
    norm_num at this
  have dense : 100 < p3 764 623.15 := B3.p_dense le_rfl (by norm_num) (by norm_num) le_rfl
  obtain ⟨ρa, ⟨a0, a1⟩, ea, la⟩ := first_zero (f := fun ρ => p3 ρ 623.15 - p) (a := 590) (b := 764) (by norm_num)
    (fun ρ hρ => (cont 623.15 (by norm_num) ρ (by linarith [hρ.1]) _).sub continuousWithinAt_const)
    (by linarith [light 590 (by norm_num) le_rfl]) (by linarith)
  have low : ∀ ρ : ℝ, 96.6 ≤ ρ → ρ ≤ ρa → p3 ρ 623.15 ≤ p := fun ρ k0 k1 => by
    rcases le_total ρ 590 with h | h
    · linarith [light ρ k0 h]
    · rcases k1.eq_or_lt with rfl | k1
      · linarith
      · linarith [la ρ ⟨h, k1⟩]
  -- the end on the border
  have above : p < p3 ρa (b23T p) := by
    rcases le_or_gt (b23T p) 848.15 with k | k
    · have := p3_rise (ρ := ρa) (by linarith) a1 le_rfl t1 (.inr k) (show (623.15 : ℝ) < b23T p by linarith)
      linarith
    · linarith [p3_hot (ρ := ρa) (by linarith) a1 k.le t1]
  have below : p3 96.6 (b23T p) ≤ p := by
    have := B3.p_light_border (y := 647.096 / b23T p) (div_le_div_of_nonneg_left (by norm_num) (by linarith) t1)
      (div_le_div_of_nonneg_left (by norm_num) (by norm_num) t0)
    rw [div_div_cancel₀ (by norm_num)] at this
    rw [p3, show (96.6 : ℝ) / 322 = 0.3 by norm_num]
    have : b23 (b23T p) = B3.b23 (b23T p) := rfl
    linarith
  obtain ⟨ρb, ⟨b0, b1⟩, eb, lb⟩ := last_zero (f := fun ρ => p3 ρ (b23T p) - p) (a := 96.6) (b := ρa) (by linarith)
    (fun ρ hρ => (cont (b23T p) (by linarith) ρ (by linarith [hρ.1]) _).sub continuousWithinAt_const) (by linarith) (by linarith)
  have high : ∀ ρ : ℝ, ρb ≤ ρ → ρ ≤ ρa → p ≤ p3 ρ (b23T p) := fun ρ k0 k1 => by
    rcases k0.eq_or_lt with rfl | k0
    · linarith
    · linarith [lb ρ ⟨k0, k1⟩]
  -- the temperature between them
  have ex : ∀ ρ : ℝ, ∃ T : ℝ, ρ ∈ Set.Icc ρb ρa → 623.15 ≤ T ∧ T ≤ b23T p ∧ p3 ρ T = p := fun ρ => by
    by_cases hρ : ρ ∈ Set.Icc ρb ρa
    · obtain ⟨T, hT, e⟩ := intermediate_value_Icc (f := fun T => p3 ρ T) (show (623.15 : ℝ) ≤ b23T p by linarith)
        (fun T hT => p3_continuousWithinAt continuousWithinAt_const continuousWithinAt_id (by linarith [hρ.1]) (by linarith [hT.1]))
        ⟨low ρ (by linarith [hρ.1]) hρ.2, high ρ hρ.1 hρ.2⟩
      exact ⟨T, fun _ => ⟨hT.1, hT.2, e⟩⟩
    · exact ⟨0, fun h => absurd h hρ⟩
  choose τ hτ using ex
  have cool : ∀ ρ ∈ Set.Icc ρb ρa, 550 ≤ ρ → τ ρ ≤ 848.15 := fun ρ hρ k => by
    by_contra hn
    obtain ⟨k0, k1, e⟩ := hτ ρ hρ
    linarith [p3_hot (ρ := ρ) k (by linarith [hρ.2]) (not_le.1 hn).le (by linarith)]
  have near : ∀ ρ ∈ Set.Icc ρb ρa, ∀ T, 623.15 ≤ T → T ≤ b23T p → (550 ≤ ρ → T ≤ 848.15) → 0.025 * |τ ρ - T| ≤ |p3 ρ T - p| :=
    fun ρ hρ T k0 k1 k2 => by
      obtain ⟨l0, l1, e⟩ := hτ ρ hρ
      have := p3_near (ρ := ρ) (T := τ ρ) (T' := T) (by linarith [hρ.1]) (by linarith [hρ.2]) l0 (by linarith) k0 (by linarith)
        ((le_total ρ 550).imp_right fun h => ⟨cool ρ hρ h, k2 h⟩)
      rwa [e, abs_sub_comm p] at this
  have ends : τ ρa = 623.15 ∧ τ ρb = b23T p := by
    have k : ρb ≤ ρa := b1.le
    constructor
    · have := near ρa ⟨k, le_rfl⟩ 623.15 le_rfl (by linarith) (fun _ => by norm_num)
      rw [show p3 ρa 623.15 - p = 0 from ea, abs_zero] at this
      have := abs_nonpos_iff.1 (show |τ ρa - 623.15| ≤ 0 by linarith)
      linarith
    · have := near ρb ⟨le_rfl, k⟩ (b23T p) (by linarith) le_rfl (fun l => by
        by_contra hn
        linarith [p3_hot (ρ := ρb) l (by linarith) (not_le.1 hn).le t1])
      rw [show p3 ρb (b23T p) - p = 0 from eb, abs_zero] at this
      have := abs_nonpos_iff.1 (show |τ ρb - b23T p| ≤ 0 by linarith)
      linarith
  have cτ : ContinuousOn τ (Set.Icc ρb ρa) := fun ρ hρ => by
    obtain ⟨l0, l1, e⟩ := hτ ρ hρ
    have lim : Filter.Tendsto (fun z => 40 * |p3 z (τ ρ) - p|) (nhdsWithin ρ (Set.Icc ρb ρa)) (nhds 0) := by
      have := (((cont (τ ρ) (by linarith) ρ (by linarith [hρ.1]) (Set.Icc ρb ρa)).sub (continuousWithinAt_const (b := p))).abs.const_mul 40).tendsto
      simpa [e] using this
    refine tendsto_iff_dist_tendsto_zero.2 (squeeze_zero' (.of_forall fun _ => dist_nonneg) ?_ lim)
    have key : ∀ᶠ z in nhdsWithin ρ (Set.Icc ρb ρa), 550 ≤ z → τ ρ ≤ 848.15 := by
      rcases lt_or_ge ρ 550 with k | k
      · exact Filter.Eventually.filter_mono nhdsWithin_le_nhds ((eventually_lt_nhds k).mono fun z hz hz' => absurd hz (not_lt.2 hz'))
      · exact .of_forall fun _ _ => cool ρ hρ k
    filter_upwards [key, self_mem_nhdsWithin] with z hz hm
    have := near z hm (τ ρ) l0 l1 hz
    rw [Real.dist_eq]
    linarith
  have ch : ContinuousOn (fun ρ => Kron.h3 ρ (τ ρ)) (Set.Icc ρb ρa) := fun ρ hρ =>
    h3_continuousWithinAt continuousWithinAt_id (cτ ρ hρ) (by linarith [hρ.1]) (by linarith [(hτ ρ hρ).1])
  have ha := h3_cold (ρ := ρa) a0 a1 le_rfl (by norm_num : (623.15 : ℝ) ≤ 623.4)
  have hb : 2500 < Kron.h3 ρb (b23T p) := (h3_border b0 (by linarith) t0 t1).resolve_right (fun k => by linarith)
  obtain ⟨ρ, hρ, e⟩ := intermediate_value_Icc' b1.le ch (show h ∈ Set.Icc _ _ from ⟨by simp only [ends.1]; linarith, by simp only [ends.2]; linarith⟩)
  obtain ⟨l0, l1, e'⟩ := hτ ρ hρ
  exact ⟨ρ, τ ρ, by linarith [hρ.1], by linarith [hρ.2], l0, l1, e', e⟩

theorem psat_below (h0 : 623.15 ≤ T) (h1 : T ≤ 647.096) : psat T < 22.08 := by
  have := B3.psat_le' (T := T) (Tk := 647.096) (β := 2.1675) (by linarith) (by push_cast; norm_num at h1 ⊢; linarith) (by push_cast; norm_num) (by norm_num) (by decide +kernel)
  norm_num at this ⊢
  linarith

/-- the states of `isobar` are stable, away from 623.15 K and from the border to region 2 -/
theorem isobar_stable (h0 : 22.1 ≤ p) (h1 : p ≤ 100) (a : 1700 ≤ h) (b : h ≤ 2500) :
    ∃ ρ T : ℝ, 623.4 < T ∧ T < 863.2 ∧ b23 T + 0.01 < p ∧ Stable p ρ T ∧ Region3.p3_rhoT .ideal (.fin ρ) (.fin T) = pure (.fin p) ∧
      Region3.h3_rhoT .ideal (.fin ρ) (.fin T) = pure (.fin h) := by
  obtain ⟨ρ, T, r0, r1, k0, k1, e1, e2⟩ := isobar h0 h1 a b
  have k2 := (b23T_mid h0 h1).2
  have c := p3_cold (T := T) r0 r1 k0
  rw [e1] at c
  have t0 : 623.4 < T := by
    by_contra hn
    rw [not_lt] at hn
    have := c (by linarith) h0
    rcases le_or_gt ρ 590 with h | h
    · exact absurd (this.2.2.2 h) (not_lt.2 hn)
    · linarith [h3_cold h r1 k0 hn]
  have t1 : b23 T + 0.01 < p := by
    rcases le_total 662 T with h | h
    · have := (h3_border r0 r1 h (by linarith)).resolve_left (by linarith)
      linarith
    · have := b23_mono (T := T) (T' := 662) (by linarith) h
      norm_num [b23] at this ⊢
      linarith
  have ps : T < 647.096 → ∀ q, PT.Sat q T → q < 22.08 := fun h q hq => by
    obtain ⟨_, b, c⟩ := theta_box (T := T) (by linarith) h
    rw [sat_unique b (by linarith) hq]
    exact psat_below k0 h.le
  refine ⟨ρ, T, t0, by linarith [(b23T_near (p := p) (by linarith) h1).2.1], t1, ⟨?_, ⟨r0, by linarith⟩, fun h => ?_, fun h q hq => ⟨fun _ => ?_, fun l => ?_⟩⟩, ?_, ?_⟩
  · refine .inr (.inr (.inr (.inr (.inr (.inl ⟨rfl, ⟨by linarith, by linarith, by linarith, h1⟩, by linarith, by linarith, ?_⟩)))))
    rintro ⟨h, q, hq, hd⟩
    linarith [ps h q hq, (abs_lt.1 hd).2]
  · obtain ⟨d1, d2, d3, d4⟩ := c h h0
    rcases le_or_gt ρ 440 with l | l
    · nlinarith [d2 l]
    · rcases le_or_gt ρ 492 with l | l
      · nlinarith [d3 l]
      · nlinarith
  · linarith [ps h q hq]
  · linarith [(c h h0).1]
  · rw [p3_rhoT_eq (by linarith) (by linarith), p3_eq (by linarith) (by linarith), e1]
  · rw [h3_rhoT_eq (by linarith) (by linarith), h3_eq (by linarith) (by linarith), e2]

/-- C80: from 22.1 to 100 MPa, every enthalpy from 1700 to 2500 kJ/kg is that of a stable state of region 3 -/
theorem C80_state (h0 : 22.1 ≤ p) (h1 : p ≤ 100) (a : 1700 ≤ h) (b : h ≤ 2500) :
    ∃ ρ T : ℝ, Stable p ρ T ∧ Region3.p3_rhoT .ideal (.fin ρ) (.fin T) = pure (.fin p) ∧
      Region3.h3_rhoT .ideal (.fin ρ) (.fin T) = pure (.fin h) :=
  have ⟨ρ, T, _, _, _, r⟩ := isobar_stable h0 h1 a b
  ⟨ρ, T, r⟩

end

/-- C80: from 22.1 to 100 MPa and from 1700 to 2500 kJ/kg, in every unit system, `t_ph` and `v_ph` are the temperature, to within
25 mK, and the volume, to within 0.01 %, of a stable state of region 3 with this pressure and enthalpy -/
theorem C80_ph (u : UnitSystem) (p h : ℝ) (h0 : 22.1 ≤ Quantity.p.si u p) (h1 : Quantity.p.si u p ≤ 100)
    (a : 1700 ≤ Quantity.h.si u h) (b : Quantity.h.si u h ≤ 2500) :
    ∃ ρ T t v : ℝ, Stable (Quantity.p.si u p) ρ T ∧
      Region3.p3_rhoT .ideal (.fin ρ) (.fin T) = pure (.fin (Quantity.p.si u p)) ∧
      Region3.h3_rhoT .ideal (.fin ρ) (.fin T) = pure (.fin (Quantity.h.si u h)) ∧
      (XSteam.t_ph .ideal u (.fin p) (.fin h)).out = .ok (.fin t) ∧ |Quantity.T.si u t - T| ≤ 0.025 ∧
      (XSteam.v_ph .ideal u (.fin p) (.fin h)).out = .ok (.fin v) ∧ |Quantity.v.si u v * ρ - 1| ≤ 0.0001 := by
  obtain ⟨ρ, T, hs, e1, e2⟩ := C80_state h0 h1 a b
  obtain ⟨t, v, f1, f2, f3, f4, -⟩ := C72_ph u p h ρ T hs e1 e2 (C72_region (by linarith) h1 a b)
  exact ⟨ρ, T, t, v, hs, e1, e2, f1, f2, f3, f4⟩

/-- 500 bar and 2000 kJ/kg -/
example : ∃ ρ T t v : ℝ, Stable 50 ρ T ∧ (XSteam.t_ph .ideal .mks (.fin 500) (.fin 2000)).out = .ok (.fin t) ∧
    |Quantity.T.si .mks t - T| ≤ 0.025 ∧ (XSteam.v_ph .ideal .mks (.fin 500) (.fin 2000)).out = .ok (.fin v) ∧
    |Quantity.v.si .mks v * ρ - 1| ≤ 0.0001 := by
  have e1 : Quantity.p.si .mks 500 = 50 := by norm_num [Quantity.si, Quantity.scale, Quantity.offset]
  have e2 : Quantity.h.si .mks 2000 = 2000 := by norm_num [Quantity.si, Quantity.scale, Quantity.offset]
  obtain ⟨ρ, T, t, v, hs, -, -, r⟩ := C80_ph .mks 500 2000 (by rw [e1]; norm_num) (by rw [e1]; norm_num) (by rw [e2]; norm_num) (by rw [e2]; norm_num)
  exact ⟨ρ, T, t, v, by rwa [e1] at hs, r⟩

/-- what `h3_pT` returns is finite -/
theorem h3_pT_finite {p T : ℝ} {x : Num} (h0 : 22.1 ≤ p) (h1 : p ≤ 100) (h : (Region3.h3_pT .ideal (.fin p) (.fin T)).out = .ok x) :
    ∃ y : ℝ, x = .fin y := by
  obtain ⟨y, -, e⟩ := C26_bracket (.h3_pT (.fin p) (.fin T)) trivial (gamma1.h p 623.15) (gamma2.h p (b23T p)) (by
    simp only [Solver.Bracket]
    have hB : RegionBorders.B23T_p .ideal (.fin p) = pure (.fin (b23T p)) := B23T_p_eq (by linarith)
    rw [if_neg (by rw [fin_lt]; linarith), hB, pure_bind, h1_pT_eq (dom1_of_liquid (by linarith) (liquid_623 (by linarith) h1)),
      h2_pT_eq (dom2_of_vapour (vapour_b23T (by linarith) h1))]
    exact ⟨rfl, rfl⟩) x h
  exact ⟨y, e⟩

/-- C80: a temperature of region 3 which `h_pt` answers without a warning, by an enthalpy from 1700 to 2500 kJ/kg, is that of a stable
state of region 3 with this pressure and enthalpy, to within 25.01 mK.  `v_pt` is its volume to within 0.01 %; `t_ph` and `v_ph` at
the enthalpy returned give the temperature back, to within 1e-5 K, and the same volume; the other properties are those of the basic
equation at that volume and temperature. -/
theorem C80_pt (u : UnitSystem) (p t h : ℝ) (hr : InRegion 3 (Quantity.p.si u p) (Quantity.T.si u t)) (h0 : 22.1 ≤ Quantity.p.si u p)
    (hh : (XSteam.h_pt .ideal u (.fin p) (.fin t)).out = .ok (.fin h)) (hw : ¬ Warned (XSteam.h_pt .ideal u (.fin p) (.fin t)).logs)
    (a : 1700 ≤ Quantity.h.si u h) (b : Quantity.h.si u h ≤ 2500) :
    ∃ ρ T t' v : ℝ, Stable (Quantity.p.si u p) ρ T ∧
      Region3.p3_rhoT .ideal (.fin ρ) (.fin T) = pure (.fin (Quantity.p.si u p)) ∧
      Region3.h3_rhoT .ideal (.fin ρ) (.fin T) = pure (.fin (Quantity.h.si u h)) ∧
      |T - Quantity.T.si u t| ≤ 0.02501 ∧
      (XSteam.v_pt .ideal u (.fin p) (.fin t)).out = .ok (.fin v) ∧ |Quantity.v.si u v * ρ - 1| ≤ 0.0001 ∧
      (XSteam.t_ph .ideal u (.fin p) (.fin h)).out = .ok (.fin t') ∧ |Quantity.T.si u t' - Quantity.T.si u t| ≤ 0.00001 ∧
      (XSteam.v_ph .ideal u (.fin p) (.fin h)).out = .ok (.fin v) ∧
      (XSteam.s_pt .ideal u (.fin p) (.fin t)).out =
        (Region3.s3_rhoT .ideal (.fin (1 / Quantity.v.si u v)) (.fin (Quantity.T.si u t)) >>= Quantity.s.fromSI .ideal u).out ∧
      (XSteam.u_pt .ideal u (.fin p) (.fin t)).out =
        (Region3.u3_rhoT .ideal (.fin (1 / Quantity.v.si u v)) (.fin (Quantity.T.si u t)) >>= Quantity.u.fromSI .ideal u).out ∧
      (XSteam.Cp_pt .ideal u (.fin p) (.fin t)).out =
        (Region3.Cp3_rhoT .ideal (.fin (1 / Quantity.v.si u v)) (.fin (Quantity.T.si u t)) >>= Quantity.Cp.fromSI .ideal u).out ∧
      (XSteam.Cv_pt .ideal u (.fin p) (.fin t)).out =
        (Region3.Cv3_rhoT .ideal (.fin (1 / Quantity.v.si u v)) (.fin (Quantity.T.si u t)) >>= Quantity.Cv.fromSI .ideal u).out ∧
      (XSteam.w_pt .ideal u (.fin p) (.fin t)).out =
        (Region3.w3_rhoT .ideal (.fin (1 / Quantity.v.si u v)) (.fin (Quantity.T.si u t)) >>= Quantity.w.fromSI .ideal u).out := by
  have h1 : Quantity.p.si u p ≤ 100 := (box_of_region3 hr).1.2.2.2
  have er := region_pT_pure hr (by norm_num)
  have e : XSteam.h_pt .ideal u (.fin p) (.fin t) =
      Region3.h3_pT .ideal (.fin (Quantity.p.si u p)) (.fin (Quantity.T.si u t)) >>= UnitConverter.fromSIunit_h .ideal u := by
    unfold XSteam.h_pt
    simp only [si, pure_bind, er]
    rw [if_neg (by norm_num), if_neg (by norm_num), if_pos trivial]
  rw [e] at hh hw
  rcases e3 : Region3.h3_pT .ideal (.fin (Quantity.p.si u p)) (.fin (Quantity.T.si u t)) with ⟨l, o⟩
  have eo : (Region3.h3_pT .ideal (.fin (Quantity.p.si u p)) (.fin (Quantity.T.si u t))).out = o := by rw [e3]
  cases o with
  | raise => rw [e3] at hh; cases hh
  | diverge => rw [e3] at hh; cases hh
  | ok x =>
    obtain ⟨y, rfl⟩ := h3_pT_finite h0 h1 eo
    rw [out_eq eo] at hh
    simp only [si] at hh
    have ey : Quantity.h.si u h = y := by
      have : Quantity.h.user u y = h := by simpa [pure_def] using hh
      rw [← this, Quantity.si_user]
    subst ey
    have tol := C26_exact (.h3_pT (.fin (Quantity.p.si u p)) (.fin (Quantity.T.si u t))) trivial _ _ _ eo (fun hm => hw ?_) rfl
      (by simp only [Solver.equation]; rw [T3_ph_eq (by linarith)]; rfl)
    · obtain ⟨ρ, T, hs, e1, e2⟩ := C80_state h0 h1 a b
      obtain ⟨f, ep, e2'⟩ := stable_kernels hs e1
      rw [e2] at e2'
      have eh : Kron.h3 ρ T = Quantity.h.si u h := by simpa [pure_def] using e2'.symm
      have d1 := t3ph_accurate f
      have d2 := v3ph_accurate f
      rw [ep, eh] at d1 d2
      have hv : v3ph (Quantity.p.si u p) (Quantity.h.si u h) ≠ 0 := by
        intro k
        rw [k] at d2
        norm_num at d2
      have ev := v3_ph_eq (p := Quantity.p.si u p) (h := Quantity.h.si u h) (by linarith)
      have et := T3_ph_eq (p := Quantity.p.si u p) (h := Quantity.h.si u h) (by linarith)
      have rp := C72_region (by linarith) h1 a b
      have g5 : Num.ofInt 1 = .fin 1 := by rw [ofInt_eq]; norm_num
      have tol' : |Quantity.T.si u t - t3ph (Quantity.p.si u p) (Quantity.h.si u h)| ≤ 0.00001 := by
        simpa [Solver.tolerance] using tol
      refine ⟨ρ, T, Quantity.T.user u (t3ph (Quantity.p.si u p) (Quantity.h.si u h)), Quantity.v.user u (v3ph (Quantity.p.si u p) (Quantity.h.si u h)),
        hs, e1, e2, ?_, ?_, by rwa [Quantity.si_user], ?_, by rw [Quantity.si_user, abs_sub_comm]; exact tol', ?_, ?_, ?_, ?_, ?_, ?_⟩
      · rw [abs_le] at d1 tol' ⊢
        norm_num at d1 tol' ⊢
        constructor <;> linarith
      · unfold XSteam.v_pt
        simp only [si, pure_bind, er]
        rw [if_neg (by norm_num), if_neg (by norm_num), if_pos trivial, out_eq eo, ev, pure_bind]
        simp only [si]
        rfl
      · unfold XSteam.t_ph
        simp only [si, pure_bind]
        rw [out_eq rp, if_neg (by norm_num), if_neg (by norm_num), if_pos rfl, et, pure_bind]
        simp only [si]
        rfl
      · unfold XSteam.v_ph
        simp only [si, pure_bind]
        rw [out_eq rp, if_neg (by norm_num), if_neg (by norm_num), if_pos rfl, ev, pure_bind]
        simp only [si]
        rfl
      all_goals
        first | unfold XSteam.s_pt | unfold XSteam.u_pt | unfold XSteam.Cp_pt | unfold XSteam.Cv_pt | unfold XSteam.w_pt
        simp only [si, pure_bind, er]
        rw [if_neg (by norm_num), if_neg (by norm_num), if_pos trivial, out_eq eo, ev, pure_bind]
        simp only [g5, div_ideal hv, Quantity.si_user, pure_bind]
        rfl
    · rw [e3]
      refine ⟨⟨.warning, (Solver.h3_pT (.fin (Quantity.p.si u p)) (.fin (Quantity.T.si u t))).message⟩, ?_, rfl⟩
      simp only [bind_def, andThen, si, pure_def, prepend, List.append_nil]
      have : l = ((Solver.h3_pT (.fin (Quantity.p.si u p)) (.fin (Quantity.T.si u t))).run .ideal).logs := by simp only [Solver.run, e3]
      rw [this]
      exact hm

/-- where the first enthalpy tried by `h3_pT` gives the temperature, it is returned -/
theorem h3_pT_first {p : ℝ} (h0 : 22.1 ≤ p) (h1 : p ≤ 100) :
    Region3.h3_pT .ideal (.fin p) (.fin (t3ph p ((gamma1.h p 623.15 + gamma2.h p (b23T p)) / 2))) =
      pure (.fin ((gamma1.h p 623.15 + gamma2.h p (b23T p)) / 2)) := by
  have hB : RegionBorders.B23T_p .ideal (.fin p) = pure (.fin (b23T p)) := B23T_p_eq (by linarith)
  have e1 : FP.ideal.lit 623.15 = .fin 623.15 := by rw [lit_ideal]; norm_num
  have e2 : FP.ideal.lit 22.06395 = .fin 22.06395 := by rw [lit_ideal]; norm_num
  have e3 : FP.ideal.lit 0.00001 = .fin 0.00001 := by rw [lit_ideal]; norm_num
  have e4 : Num.ofInt 1 = .fin 1 := by rw [ofInt_eq]; norm_num
  have e5 : Num.ofInt 2 = .fin 2 := by rw [ofInt_eq]; norm_num
  unfold Region3.h3_pT
  rw [e1, e2, if_neg (by rw [fin_lt]; linarith)]
  simp only [hB, h1_pT_eq (dom1_of_liquid (by linarith) (liquid_623 (p := p) (by linarith) h1)),
    h2_pT_eq (dom2_of_vapour (vapour_b23T (p := p) (by linarith) h1)), pure_bind, e4, add_ideal]
  rw [whileLoop_eq, Region3.h3_pT.pass, e3, sub_ideal, Num.fabs, if_pos (by rw [gt_num, fin_lt]; norm_num)]
  simp only [add_ideal, e5, div_ideal (two_ne_zero' ℝ), pure_bind, T3_ph_eq (show 0 < p by linarith)]
  rw [if_neg (by simp [Num.feq]), if_neg (by rw [gt_num, fin_lt]; exact lt_irrefl _)]
  simp only [pure_bind]
  rw [whileLoop_eq, Region3.h3_pT.pass, e3, sub_ideal, Num.fabs, if_neg (by rw [gt_num, fin_lt]; norm_num)]
  simp only [pure_bind]
  rfl

/-- a pressure with a border temperature which is a decimal number, about 50.7 MPa -/
private noncomputable def q : ℝ := 13.91883977887 + 1.0192970039326e-03 * 190 ^ 2

private theorem q_border : b23T q = 762.54459862746 := by
  rw [b23T, q, add_sub_cancel_left, mul_div_cancel_left₀ _ (by norm_num), Real.sqrt_sq (by norm_num)]
  norm_num

set_option exponentiation.threshold 2000 in
private theorem q_mid : 1700 ≤ (gamma1.h q 623.15 + gamma2.h q (b23T q)) / 2 ∧ (gamma1.h q 623.15 + gamma2.h q (b23T q)) / 2 ≤ 2500 := by
  rw [q_border]
  have a : 1400 < gamma1.h q 623.15 ∧ gamma1.h q 623.15 < 1700 := by
    simp only [q, Gamma.h, gamma1, dpoly, region1, Term.d, List.map_cons, List.map_nil, List.sum_cons, List.sum_nil, ff, R]
    norm_num
  have b : 2500 < gamma2.h q 762.54459862746 ∧ gamma2.h q 762.54459862746 < 3000 := by
    simp only [q, Gamma.h, gamma2, dpoly, region2, region2Ideal, Term.d, List.map_cons, List.map_nil, List.sum_cons, List.sum_nil, ff, R]
    norm_num
  constructor <;> linarith

/-- the temperature of the first enthalpy tried at that pressure: hypotheses and conclusion of `C80_pt` -/
example : ∃ t h ρ T v : ℝ, XSteam.h_pt .ideal .bare (.fin q) (.fin t) = pure (.fin h) ∧ Stable q ρ T ∧ |T - t| ≤ 0.02501 ∧
    (XSteam.v_pt .ideal .bare (.fin q) (.fin t)).out = .ok (.fin v) ∧ |v * ρ - 1| ≤ 0.0001 := by
  have s1 : ∀ (k : Quantity) (x : ℝ), k.si .bare x = x := fun k x => by cases k <;> norm_num [Quantity.si, Quantity.scale, Quantity.offset]
  have q0 : 22.1 ≤ q ∧ q ≤ 100 := by norm_num [q]
  obtain ⟨a, b⟩ := q_mid
  have e := h3_pT_first q0.1 q0.2
  generalize (gamma1.h q 623.15 + gamma2.h q (b23T q)) / 2 = h at a b e
  obtain ⟨ρ, T, k0, k1, k2, hs, e1, e2⟩ := isobar_stable q0.1 q0.2 a b
  obtain ⟨f, ep, e2'⟩ := stable_kernels hs e1
  rw [e2] at e2'
  have eh : Kron.h3 ρ T = h := by simpa [pure_def] using e2'.symm
  have d := t3ph_accurate f
  rw [ep, eh, abs_le] at d
  have hr : InRegion 3 q (t3ph q h) := by
    refine .inr (.inr (.inr (.inr (.inr (.inl ⟨rfl, ⟨by linarith, by linarith, by linarith, q0.2⟩, by linarith, ?_, ?_⟩)))))
    · have l : T < 765 := by
        by_contra hn
        have := b23_mono (T := 765) (T' := T) (by norm_num) (not_lt.1 hn)
        norm_num [b23, q] at this k2
        linarith
      have := b23_mono (T := t3ph q h) (T' := T + 0.025) (by linarith) (by linarith)
      refine lt_of_le_of_lt this (lt_of_le_of_lt ?_ k2)
      norm_num [b23]
      nlinarith
    · rintro ⟨l, x, hx, hd⟩
      obtain ⟨_, b, c⟩ := theta_box (T := t3ph q h) (by linarith) l
      rw [sat_unique b (by linarith) hx] at hd
      linarith [psat_below (T := t3ph q h) (by linarith) l.le, (abs_lt.1 hd).2]
  have eh : XSteam.h_pt .ideal .bare (.fin q) (.fin (t3ph q h)) = pure (.fin h) := by
    have er := region_pT_pure hr (by norm_num)
    unfold XSteam.h_pt
    simp only [si, pure_bind, s1, er]
    rw [if_neg (by norm_num), if_neg (by norm_num), if_pos trivial, e, pure_bind]
    simp only [si, Quantity.user_bare]
  obtain ⟨ρ, T, t', v, r1, -, -, r2, r3, r4, -⟩ := C80_pt .bare q (t3ph q h) h (by rw [s1, s1]; exact hr) (by rw [s1]; exact q0.1) (by rw [eh]; rfl)
    (by rw [eh]; exact Warned.nil) (by rw [s1]; exact a) (by rw [s1]; exact b)
  simp only [s1] at r1 r2 r4
  exact ⟨_, _, ρ, T, v, eh, r1, r2, r3, r4⟩

end PyX
