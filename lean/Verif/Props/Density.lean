import Verif.Lemmas.Expand1
import Verif.Lemmas.Expand2
import Verif.Lemmas.Expand5
import Verif.Lemmas.Volumes
import Verif.Lemmas.SatVolume
import Verif.Props.Converge
import Verif.Props.Stability
import Verif.Props.WetMix
import Verif.Props.HsLiquid

/-!
# C74, C75: states from pressure and density

`region_prho` takes the volume at 273.15 K for the smallest of the isobar.  Water is densest near 4 °C, so the cold liquid lies below
that limit and is refused (C74).  From 10 °C on the volume of the liquid increases with temperature, as does that of steam everywhere,
and `h_prho` finds the state (C75).
-/

namespace PyX

open Classical Py Num _root_.Spec.IF97 _root_.Spec.PT _root_.Spec.Sat Kron Univ

/-! ## Bisection where only the part of the interval that is visited behaves well -/

section
variable {c : Num → Prop} {f : Num → Py Num} {up : Num → Prop} {msg : String} {g : ℝ → ℝ} {lo lo' hi xs tol δ : ℝ}

/-- like `bisect_rest`, but `lo` itself is never visited: midpoints stay above `lo'` -/
theorem near_rest (hf : ∀ x ∈ Set.Icc lo' hi, f (.fin x) = pure (.fin (g x))) (hg : Set.InjOn g (Set.Icc lo' hi))
    (hc : ∀ r : ℝ, c (.fin r) ↔ tol < |g xs - r|)
    (hu : ∀ x ∈ Set.Icc lo' hi, up (.fin (g x)) → xs ≤ x) (hd : ∀ x ∈ Set.Icc lo' hi, ¬ up (.fin (g x)) → x ≤ xs)
    (hδ : ∀ x ∈ Set.Icc lo' hi, |xs - x| ≤ δ → |g xs - g x| ≤ tol) (hm : lo' ≤ (lo + xs) / 2) (n : ℕ) :
    ∀ a b x, lo ≤ a → a < b → b ≤ hi → a ≤ xs → xs ≤ b → (x = a ∨ x = b) → lo' ≤ x → b - a ≤ δ * 2 ^ n →
      ∃ x' ∈ Set.Icc lo' hi, |g xs - g x'| ≤ tol ∧
        (whileLoop (bisectPass .ideal c f up msg) (some (.fin x), .fin (g x), .fin b, .fin a) >>= fun s => getVar s.1) = pure (.fin x') := by
  induction n with
  | zero =>
    intro a b x h1 h2 h3 h4 h5 hx hx' hn
    have m : x ∈ Set.Icc lo' hi := ⟨hx', by rcases hx with rfl | rfl <;> linarith⟩
    have d : |xs - x| ≤ b - a := by rcases hx with rfl | rfl <;> rw [abs_le] <;> constructor <;> linarith
    have e : |g xs - g x| ≤ tol := hδ x m (d.trans (by simpa using hn))
    refine ⟨x, m, e, ?_⟩
    rw [whileLoop_eq]
    simp only [bisectPass, if_neg (fun h => absurd ((hc _).1 h) (not_lt.2 e)), pure_bind, getVar]
  | succ n ih =>
    intro a b x h1 h2 h3 h4 h5 hx hx' hn
    have m : x ∈ Set.Icc lo' hi := ⟨hx', by rcases hx with rfl | rfl <;> linarith⟩
    by_cases hs : tol < |g xs - g x|
    · have m' : (a + b) / 2 ∈ Set.Icc lo' hi := by constructor <;> linarith
      have ne : ¬ Num.feq (.fin (g x)) (.fin (g ((a + b) / 2))) := fun h => by
        have := hg m m' h
        rcases hx with rfl | rfl <;> linarith
      have hn' : (b - a) / 2 ≤ δ * 2 ^ n := by rw [pow_succ] at hn; linarith
      rw [whileLoop_eq]
      simp only [bisectPass, if_pos ((hc _).2 hs), FP.div_two, mid_ideal, pure_bind, hf _ m', if_neg ne]
      by_cases hup : up (.fin (g ((a + b) / 2)))
      · simp only [if_pos hup, pure_bind]
        exact ih a _ _ h1 (by linarith) (by linarith) h4 (hu _ m' hup) (.inr rfl) m'.1 (by linarith)
      · simp only [if_neg hup, pure_bind]
        exact ih _ b _ (by linarith) (by linarith) h3 (hd _ m' hup) h5 (.inl rfl) m'.1 (by linarith)
    · refine ⟨x, m, not_lt.1 hs, ?_⟩
      rw [whileLoop_eq]
      simp only [bisectPass, if_neg (fun h => absurd ((hc _).1 h) hs), pure_bind, getVar]

theorem bisect_near (hf : ∀ x ∈ Set.Icc lo' hi, f (.fin x) = pure (.fin (g x))) (hg : Set.InjOn g (Set.Icc lo' hi))
    (hc : ∀ r : ℝ, c (.fin r) ↔ tol < |g xs - r|)
    (hu : ∀ x ∈ Set.Icc lo' hi, up (.fin (g x)) → xs ≤ x) (hd : ∀ x ∈ Set.Icc lo' hi, ¬ up (.fin (g x)) → x ≤ xs)
    (h0 : 0 < δ) (hδ : ∀ x ∈ Set.Icc lo' hi, |xs - x| ≤ δ → |g xs - g x| ≤ tol) (hm : lo' ≤ (lo + xs) / 2)
    (hlo : lo < hi) (hx : xs ∈ Set.Icc lo hi) {r : ℝ} (hr : tol < |g xs - r|) (hne : ∀ x ∈ Set.Icc lo' hi, r ≠ g x) :
    ∃ x' ∈ Set.Icc lo' hi, |g xs - g x'| ≤ tol ∧
      (whileLoop (bisectPass .ideal c f up msg) (none, .fin r, .fin hi, .fin lo) >>= fun s => getVar s.1) = pure (.fin x') := by
  obtain ⟨n, hn⟩ := pow_unbounded_of_one_lt ((hi - lo) / δ) one_lt_two
  rw [div_lt_iff₀ h0] at hn
  have m' : (lo + hi) / 2 ∈ Set.Icc lo' hi := by constructor <;> linarith [hx.2]
  have ne : ¬ Num.feq (.fin r) (.fin (g ((lo + hi) / 2))) := fun h => hne _ m' h
  rw [whileLoop_eq]
  simp only [bisectPass, if_pos ((hc _).2 hr), FP.div_two, mid_ideal, pure_bind, hf _ m', if_neg ne]
  by_cases hup : up (.fin (g ((lo + hi) / 2)))
  · simp only [if_pos hup, pure_bind]
    exact near_rest hf hg hc hu hd hδ hm n lo _ _ le_rfl (by linarith) (by linarith) hx.1 (hu _ m' hup) (.inr rfl) m'.1 (by linarith)
  · simp only [if_neg hup, pure_bind]
    exact near_rest hf hg hc hu hd hδ hm n _ hi _ (by linarith) (by linarith) le_rfl (hd _ m' hup) hx.2 (.inl rfl) m'.1 (by linarith)
end

/-- the search for a density on an isobar, where the volume increases with temperature -/
theorem prho_search {v : ℝ → ℝ} {lo lo' hi T tol : ℝ} {l : ℚ} {f : Num → Py Num} {msg : String} (ht : FP.ideal.lit l = .fin tol) (h0 : 0 < tol) (h1 : tol ≤ 1)
    (hf : ∀ x ∈ Set.Icc lo' hi, f (.fin x) = pure (.fin (v x)))
    (hv : ∀ x ∈ Set.Icc lo' hi, 0 < v x) (hlt : ∀ x y, lo' ≤ x → y ≤ hi → x < y → v x < v y)
    (hcont : ContinuousAt v T) (hlo : lo ≤ lo') (hm : lo' ≤ (lo + T) / 2) (hT : T ∈ Set.Icc lo' hi) (hlo2 : lo < hi) :
    ∃ T' ∈ Set.Icc lo' hi, |1 / v T - 1 / v T'| ≤ tol ∧
      (whileLoop (bisectPass .ideal (fun r => Num.fabs (FP.ideal.sub (.fin (1 / v T)) r) > FP.ideal.lit l)
        (fun x => f x >>= FP.ideal.div (Num.ofInt 1)) (fun r => r < .fin (1 / v T)) msg) (none, .fin (-1000), .fin hi, .fin lo) >>= fun s => getVar s.1) = pure (.fin T') := by
  have rec_lt : ∀ x y, lo' ≤ x → y ≤ hi → x < y → 1 / v y < 1 / v x := fun x y a b c =>
    one_div_lt_one_div_of_lt (hv x ⟨a, by linarith⟩) (hlt x y a b c)
  obtain ⟨δ, d0, hd⟩ := Metric.continuousAt_iff.1 (hcont.inv₀ (hv T hT).ne') tol h0
  have pT : 0 < 1 / v T := one_div_pos.2 (hv T hT)
  refine bisect_near (g := fun x => 1 / v x) (xs := T) (δ := δ / 2) (lo' := lo') ?_ ?_ ?_ ?_ ?_ (by linarith) ?_ hm hlo2 ⟨by linarith [hT.1], hT.2⟩ ?_ ?_
  · intro x hx
    rw [hf x hx, pure_bind, ofInt_eq, Int.cast_one, div_ideal (hv x hx).ne']
  · intro x hx y hy e
    rcases lt_trichotomy x y with h | h | h
    · exact absurd e (rec_lt x y hx.1 hy.2 h).ne'
    · exact h
    · exact absurd e (rec_lt y x hy.1 hx.2 h).ne
  · intro r
    rw [ht, sub_ideal, Num.fabs, gt_num, fin_lt]
  · intro x hx hu
    rw [fin_lt] at hu
    by_contra hc
    linarith [rec_lt x T hx.1 hT.2 (not_le.1 hc)]
  · intro x hx hu
    rw [fin_lt] at hu
    by_contra hc
    exact hu (rec_lt T x hT.1 hx.2 (not_le.1 hc))
  · intro x hx hxd
    have := hd (x := x) (by rw [Real.dist_eq, abs_sub_comm]; linarith)
    rw [Real.dist_eq, abs_sub_comm] at this
    rw [one_div, one_div]
    exact this.le
  · rw [lt_abs]
    left
    linarith
  · intro x hx e
    have := one_div_pos.2 (hv x hx)
    linarith

/-! ## The upper end of the search in the liquid -/

private theorem z2 {a : ℝ} : FP.ideal.pow (.fin a) (.fin 2) = pure (.fin (a ^ 2)) := by
  have := pow_ideal_int (a := a) (n := 2) (Or.inr (by norm_num))
  rw [show ((2 : ℤ) : ℝ) = 2 by norm_num] at this
  rw [this]; norm_cast
private theorem hf {a : ℝ} (h : 0 ≤ a) : FP.ideal.pow (.fin a) (.fin 0.5) = pure (.fin (Real.sqrt a)) := by
  rw [pow_ideal_nonneg h (by norm_num), Real.sqrt_eq_rpow]; norm_num
private theorem i2 : Num.ofInt 2 = .fin 2 := by rw [ofInt_eq]; norm_num
private theorem i4 : Num.ofInt 4 = .fin 4 := by rw [ofInt_eq]; norm_num
private theorem l9 : FP.ideal.lit 0.23855557567849 = .fin (-n9) := by rw [lit_ideal, n9]; norm_num
private theorem l10 : FP.ideal.lit 650.17534844798 = .fin n10 := by rw [lit_ideal, n10]; norm_num
private theorem l1 : FP.ideal.lit 1167.0521452767 = .fin n1 := by rw [lit_ideal, n1]; norm_num
private theorem l2 : FP.ideal.lit 724213.16703206 = .fin (-n2) := by rw [lit_ideal, n2]; norm_num
private theorem l3 : FP.ideal.lit 17.073846940092 = .fin (-n3) := by rw [lit_ideal, n3]; norm_num
private theorem l4 : FP.ideal.lit 12020.82470247 = .fin n4 := by rw [lit_ideal, n4]; norm_num
private theorem l5 : FP.ideal.lit 3232555.0322333 = .fin (-n5) := by rw [lit_ideal, n5]; norm_num
private theorem l6 : FP.ideal.lit 14.91510861353 = .fin n6 := by rw [lit_ideal, n6]; norm_num
private theorem l7 : FP.ideal.lit 4823.2657361591 = .fin (-n7) := by rw [lit_ideal, n7]; norm_num
private theorem l8 : FP.ideal.lit 405113.40542057 = .fin n8 := by rw [lit_ideal, n8]; norm_num
private theorem lh : FP.ideal.lit 0.5 = .fin 0.5 := by rw [lit_ideal]; norm_num
private theorem lq : FP.ideal.lit 0.25 = .fin 0.25 := by rw [lit_ideal]; norm_num

section
variable {β : ℝ}

theorem disc_high (h0 : 2.167 ≤ β) (h1 : β ≤ 3.1623) : 0 < (-satF β) ^ 2 - 4 * -satE β * -satG β := by
  simp only [satE, satF, satG, n1, n2, n3, n4, n5, n6, n7, n8]
  have a := sub_nonneg.2 h0
  have b := sub_nonneg.2 h1
  have c1 := pow_nonneg a 4
  have c2 := mul_nonneg (pow_nonneg a 3) b
  have c3 := mul_nonneg (pow_nonneg a 2) (pow_nonneg b 2)
  have c4 := mul_nonneg a (pow_nonneg b 3)
  have c5 := pow_nonneg b 4
  ring_nf at c1 c2 c3 c4 c5 ⊢
  linarith

theorem thetaOf_high (h0 : 2.167 ≤ β) (h1 : β ≤ 3.1623) :
    0 < - -satF β + Real.sqrt ((-satF β) ^ 2 - 4 * -satE β * -satG β) ∧ 624 ≤ thetaOf β := by
  have hD := disc_high h0 h1
  have hF : 0 < satF β := by
    simp only [satF, n1, n4, n7]; nlinarith
  have hG : satG β < 0 := by
    simp only [satG, n2, n5, n8]; nlinarith
  have hb : 0 ≤ -2 * satG β / 624 - satF β := by
    simp only [satF, satG, n1, n2, n4, n5, n7, n8]; nlinarith
  have he : satE β * 624 ^ 2 + satF β * 624 + satG β ≤ 0 := by
    simp only [satE, satF, satG, n1, n2, n3, n4, n5, n6, n7, n8]
    nlinarith [mul_nonneg (sub_nonneg.2 h0) (sub_nonneg.2 h1)]
  have hd : 0 < - -satF β + Real.sqrt ((-satF β) ^ 2 - 4 * -satE β * -satG β) := by
    have := Real.sqrt_nonneg ((-satF β) ^ 2 - 4 * -satE β * -satG β)
    linarith
  refine ⟨hd, ?_⟩
  have hs : Real.sqrt ((-satF β) ^ 2 - 4 * -satE β * -satG β) ≤ -2 * satG β / 624 - satF β := by
    rw [Real.sqrt_le_left hb]
    have e : (-2 * satG β / 624 - satF β) ^ 2 - ((-satF β) ^ 2 - 4 * -satE β * -satG β) =
        4 * (-satG β) * -(satE β * 624 ^ 2 + satF β * 624 + satG β) / 624 ^ 2 := by ring
    have : 0 ≤ 4 * (-satG β) * -(satE β * 624 ^ 2 + satF β * 624 + satG β) / 624 ^ 2 := by
      apply div_nonneg _ (by norm_num)
      exact mul_nonneg (by linarith) (by linarith)
    linarith
  rw [thetaOf, le_div_iff₀ hd]
  linarith
end

/-- beyond the critical pressure the equation for the saturation temperature still gives a number: one between 623.15 K and 650.2 K -/
theorem T4_p_high {p : ℝ} (h0 : 22.06395 ≤ p) (h1 : p ≤ 100) :
    ∃ t, Region4.T4_p .ideal (.fin p) = pure (.fin t) ∧ 623.15 ≤ t ∧ t ≤ 650.2 := by
  have hp : 0 < p := by linarith
  have q := quarter_pow hp.le
  have qn : 0 ≤ p ^ (0.25 : ℝ) := Real.rpow_nonneg hp.le _
  refine ⟨tsat p, ?_⟩
  rw [tsat_eq]
  unfold Region4.T4_p
  simp only [l1, l2, l3, l4, l5, l6, l7, l8, l9, l10, lh, lq, i2, i4, pow_ideal_pos hp, pure_bind]
  generalize p ^ (0.25 : ℝ) = β at q qn
  have b0 : 2.167 ≤ β := by
    by_contra hc
    have : β ^ 4 < 2.167 ^ 4 := pow_lt_pow_left₀ (not_le.1 hc) qn (by norm_num)
    norm_num at this h0; linarith
  have b1 : β ≤ 3.1623 := by
    by_contra hc
    have : 3.1623 ^ 4 < β ^ 4 := pow_lt_pow_left₀ (not_le.1 hc) (by norm_num) (by norm_num)
    norm_num at this h1; linarith
  obtain ⟨hd, ht⟩ := thetaOf_high b0 b1
  have hD := disc_high b0 b1
  have ea : β ^ 2 - -n3 * β + n6 = satE β := by rw [satE]; ring
  have eb : n1 * β ^ 2 + n4 * β - -n7 = satF β := by rw [satF]; ring
  have ec : - -n2 * β ^ 2 - -n5 * β + n8 = satG β := by rw [satG]; ring
  have ed : satF β ^ 2 - 4 * satE β * satG β = (-satF β) ^ 2 - 4 * -satE β * -satG β := by ring
  have hd' : -satF β - Real.sqrt ((-satF β) ^ 2 - 4 * -satE β * -satG β) ≠ 0 := by
    intro h; rw [neg_neg] at hd; linarith
  have et : 2 * satG β / (-satF β - Real.sqrt ((-satF β) ^ 2 - 4 * -satE β * -satG β)) = thetaOf β := by
    rw [thetaOf, div_eq_div_iff hd' hd.ne']; ring
  have e9 : - -n9 + n10 * thetaOf β = n9 + n10 * thetaOf β := by ring
  refine ⟨?_, ?_, ?_⟩
  · simp only [sub_ideal, mul_ideal, add_ideal, neg_fin, pure_bind, z2, ea, eb, ec, ed, hf hD.le, div_ideal hd', et,
      e9, hf (temp_disc_pos _).le, div_ideal (two_ne_zero (α := ℝ))]
    rfl
  · have : Real.sqrt ((n10 + thetaOf β) ^ 2 - 4 * (n9 + n10 * thetaOf β)) ≤ n10 + thetaOf β - 1246.3 := by
      rw [Real.sqrt_le_left (by norm_num [n10]; linarith)]
      norm_num [n9, n10]
      nlinarith
    rw [tempOf]
    linarith
  · have : thetaOf β - n10 ≤ Real.sqrt ((n10 + thetaOf β) ^ 2 - 4 * (n9 + n10 * thetaOf β)) := by
      apply Real.le_sqrt_of_sq_le
      norm_num [n9, n10]
      nlinarith
    rw [tempOf]
    norm_num [n10] at this ⊢
    linarith

/-! ## Volumes along an isobar -/

section
variable {p T T' : ℝ}

private theorem x_ne (h1 : p ≤ 100) : 7.1 - p / 16.53 ≠ 0 := by
  have : p / 16.53 ≤ 100 / 16.53 := by gcongr
  norm_num at this ⊢
  intro h; linarith

private theorem y_ne (h0 : 273.15 ≤ T) (h1 : T ≤ 650.2) : 1386 / T - 1.222 ≠ 0 := by
  have : 1386 / 650.2 ≤ 1386 / T := by gcongr
  norm_num at this ⊢
  intro h; linarith

theorem Liquid.cool {p T x : ℝ} (h : Liquid p T) (h0 : 273.15 ≤ x) (h1 : x ≤ T) : Liquid p x :=
  ⟨h.p1, h0, h1.trans h.T1, (psat_mono' (by linarith) h1 (by linarith [h.T1])).trans h.sat⟩

theorem dom1_wide (h0 : 0 < p) (h1 : p ≤ 100) (hT : 273.15 ≤ T) (hT' : T ≤ 650.2) : Dom1 p T :=
  ⟨h0.ne', by linarith, x_ne h1, y_ne hT hT'⟩

theorem v1_deriv (h1 : p ≤ 100) (hT : 273.15 ≤ T) (hT' : T ≤ 650.2) : HasDerivAt (fun T => gamma1.v p T) (gamma1.vT p T) T :=
  (gamma1_at (π := p / gamma1.ps) (τ := gamma1.Ts / T) (x_ne h1) (y_ne hT hT')).vT (by linarith)

/-- the liquid expands when heated, from 4.78 °C on -/
theorem v1_slope (h1 : p ≤ 100) (hT : 277.93 ≤ T) (hT' : T ≤ 650.2) (hs : Liquid p T ∨ 16.5 ≤ p) :
    8.37e-9 < gamma1.vT p T := by
  have key : 3e-4 < gamma1.gp (p / 16.53) (1386 / T) - 1386 / T * gamma1.gpt (p / 16.53) (1386 / T) := by
    rcases le_or_gt 16.5 p with h | h
    · exact R1.slope_high h h1 hT hT'
    · exact R1.slope_low (hs.resolve_right (not_le.2 h)) (by linarith) hT
  simp only [Gamma.vT, show gamma1.ps = 16.53 from rfl, show gamma1.Ts = 1386 from rfl]
  rw [lt_div_iff₀ (by norm_num)]
  have : R = 0.461526 := rfl
  rw [this]
  norm_num at key ⊢
  linarith

theorem v1_heat (h1 : p ≤ 100) (hT : 277.93 ≤ T) (hT' : T' ≤ 650.2) (hlt : T < T') (hs : Liquid p T' ∨ 16.5 ≤ p) :
    8.37e-9 * (T' - T) < gamma1.v p T' - gamma1.v p T := by
  have := Gamma.lt_of_deriv (f := fun T => gamma1.v p T - 8.37e-9 * T) (f' := fun T => gamma1.vT p T - 8.37e-9) hlt
    (fun x a b => by
      have d := (v1_deriv (p := p) h1 (T := x) (by linarith) (by linarith)).sub ((hasDerivAt_id x).const_mul 8.37e-9)
      simp only [id, mul_one] at d
      exact d)
    (fun x a b => by
      have := v1_slope (p := p) (T := x) h1 (by linarith) (by linarith)
        (hs.imp_left fun h => Liquid.cool h (by linarith) b)
      linarith)
  linarith

/-- near the freezing point it shrinks -/
theorem v1_shrink (h0 : 0 ≤ p) (h1 : p ≤ 4) (hT : 273.15 < T) (hT' : T ≤ 276.15) : gamma1.v p T < gamma1.v p 273.15 := by
  have := Gamma.lt_of_deriv (f := fun T => -gamma1.v p T) (f' := fun T => -gamma1.vT p T) hT
    (fun x a b => (v1_deriv (p := p) (by linarith) a (by linarith)).neg)
    (fun x a b => by
      have k := R1.shrink h0 h1 a (b.trans hT')
      have := Gamma.R_pos
      simp only [Gamma.vT, show gamma1.ps = 16.53 from rfl, show gamma1.Ts = 1386 from rfl]
      rw [← neg_div]
      apply div_pos _ (by norm_num)
      nlinarith)
  linarith

theorem v2_heat (hlt : T < T') (hs : Vapour p T) (hs' : Vapour p T') : gamma2.v p T < gamma2.v p T' := by
  refine Gamma.lt_of_deriv (f := fun T => gamma2.v p T) (f' := fun T => gamma2.vT p T) hlt
    (fun x a b => (at2 (hs.up a (b.trans hs'.T1))).vT (by linarith [hs.T0])) (fun x a b => ?_)
  have k := R2.expand (hs.up a (b.trans hs'.T1))
  have := Gamma.R_pos
  simp only [Gamma.vT, show gamma2.ps = 1 from rfl, show gamma2.Ts = 540 from rfl, div_one]
  positivity

theorem v2_pos (hs : Vapour p T) : 0 < gamma2.v p T := by
  have := (R2.signs hs).1
  have hT := hs.T0
  have := Gamma.R_pos
  simp only [Gamma.v, show gamma2.ps = 1 from rfl, show gamma2.Ts = 540 from rfl, div_one]
  positivity
end

/-! ## Classification -/

private theorem c1 : FP.ideal.lit 0.000611657 = .fin 0.000611657 := by rw [lit_ideal]; norm_num
private theorem g22 : FP.ideal.lit 22.06395 = .fin 22.06395 := by rw [lit_ideal]; norm_num
private theorem c2 : Num.ofInt 100 = .fin 100 := by rw [ofInt_eq]; norm_num
private theorem c3 : FP.ideal.lit 16.5292 = .fin 16.5292 := by rw [lit_ideal]; norm_num
private theorem c4 : FP.ideal.lit 273.15 = .fin 273.15 := by rw [lit_ideal]; norm_num
private theorem c5 : FP.ideal.lit 1073.15 = .fin 1073.15 := by rw [lit_ideal]; norm_num
private theorem c6 : FP.ideal.lit 623.15 = .fin 623.15 := by rw [lit_ideal]; norm_num
private theorem c7 : Num.ofInt 1 = .fin 1 := by rw [ofInt_eq]; norm_num
private theorem c8 : Num.ofInt (-1000) = .fin (-1000) := by rw [ofInt_eq]; norm_num
private theorem c9 : FP.ideal.lit 0.00001 = .fin 0.00001 := by rw [lit_ideal]; norm_num
private theorem c10 : FP.ideal.lit 0.000001 = .fin 0.000001 := by rw [lit_ideal]; norm_num
private theorem c11 : FP.ideal.lit 16.529 = .fin 16.529 := by rw [lit_ideal]; norm_num

section
variable {p v : ℝ}

/-- the volume at 273.15 K is taken for the smallest -/
theorem region_prho_0 (hv : 0 < v) (h : p < 0.000611657 ∨ 0.000611657 ≤ p ∧ p ≤ 100 ∧ v < gamma1.v p 273.15) :
    (RegionSelection.region_prho .ideal (.fin p) (.fin (1 / v))).out = .ok 0 := by
  have hr : 1 / v ≠ 0 := (one_div_pos.2 hv).ne'
  unfold RegionSelection.region_prho
  simp only [c1, c2, c3, c4, c7, div_ideal hr, one_div_one_div, pure_bind, gt_num, fin_lt]
  rcases h with h | ⟨h0, h1, h2⟩
  · rw [if_pos (.inl h)]; rfl
  · rw [if_neg (by rintro (h | h) <;> linarith), v1_pT_eq (dom1_wide (by linarith) h1 le_rfl (by norm_num))]
    simp only [pure_bind, fin_lt, if_pos h2]
    split_ifs <;> rfl

theorem region_prho_low (hv : 0 < v) (h0 : 0.000611657 < p) (h1 : p < 16.5292) (h2 : gamma1.v p 273.15 ≤ v) :
    (v ≤ gamma1.v p (tsat p) → RegionSelection.region_prho .ideal (.fin p) (.fin (1 / v)) = pure 1) ∧
    (gamma1.v p (tsat p) < v → v < gamma2.v p (tsat p) → RegionSelection.region_prho .ideal (.fin p) (.fin (1 / v)) = pure 4) ∧
    (gamma1.v p (tsat p) < v → gamma2.v p (tsat p) ≤ v → v ≤ gamma2.v p 1073.15 → RegionSelection.region_prho .ideal (.fin p) (.fin (1 / v)) = pure 2) := by
  have hr : 1 / v ≠ 0 := (one_div_pos.2 hv).ne'
  have h3 : p < 22.06395 := by linarith
  have l := liquid_sat h0 h1
  have tr := tsat_range h0 h3
  have e1 := v1_pT_eq (dom1_wide (p := p) (by linarith) (by linarith) (le_refl 273.15) (by norm_num))
  have e2 := v1_pT_eq (dom1_of_liquid (by linarith) l)
  have e3 := v2_pT_eq' (p := p) (T := tsat p) (by linarith) (by linarith)
  have e4 := v2_pT_eq' (p := p) (T := 1073.15) (by linarith) (by norm_num)
  unfold RegionSelection.region_prho
  simp only [c1, c2, c3, c4, c5, c7, div_ideal hr, one_div_one_div, pure_bind, gt_num, fin_lt, fin_le, if_pos h1, e1, T4_p_eq h0 h3, e2, e3, e4]
  rw [if_neg (by rintro (h | h) <;> linarith), if_neg (not_lt.2 h2)]
  refine ⟨fun a => if_pos a, fun a b => ?_, fun a b c => ?_⟩
  · rw [if_neg (not_le.2 a), if_pos b]
  · rw [if_neg (not_le.2 a), if_neg (not_lt.2 b), if_pos c]

theorem region_prho_high (hv : 0 < v) (h0 : 16.5292 ≤ p) (h1 : p ≤ 100) (h2 : gamma1.v p 273.15 ≤ v) :
    (v < gamma1.v p 623.15 → RegionSelection.region_prho .ideal (.fin p) (.fin (1 / v)) = pure 1) ∧
    (gamma1.v p 623.15 ≤ v → gamma2.v p (b23T p) ≤ v → v < gamma2.v p 1073.15 → RegionSelection.region_prho .ideal (.fin p) (.fin (1 / v)) = pure 2) := by
  have hr : 1 / v ≠ 0 := (one_div_pos.2 hv).ne'
  have tr := b23T_range h0 h1
  have e1 := v1_pT_eq (dom1_wide (p := p) (by linarith) (by linarith) (le_refl 273.15) (by norm_num))
  have e2 := v1_pT_eq (dom1_wide (p := p) (T := 623.15) (by linarith) h1 (by norm_num) (by norm_num))
  have e3 := v2_pT_eq' (p := p) (T := b23T p) (by linarith) (by linarith)
  have e4 := v2_pT_eq' (p := p) (T := 1073.15) (by linarith) (by norm_num)
  have e5 : RegionBorders.B23T_p .ideal (.fin p) = pure (.fin (b23T p)) := B23T_p_eq (by linarith)
  unfold RegionSelection.region_prho
  simp only [c1, c2, c3, c4, c5, c6, c7, div_ideal hr, one_div_one_div, pure_bind, gt_num, fin_lt, if_neg (not_lt.2 h0), e1, e2, e3, e4, e5]
  rw [if_neg (by rintro (h | h) <;> linarith), if_neg (not_lt.2 h2)]
  refine ⟨fun a => if_pos a, fun a b c => ?_⟩
  rw [if_neg (not_lt.2 a), if_neg (not_lt.2 b), if_pos c]
end

/-! ## The searches -/

/-- the search for the temperature of the liquid -/
theorem T1_prho_search {p T : ℝ} (h0 : 0.000611657 < p) (h1 : p ≤ 100) (hT : 283.15 ≤ T)
    (hs : p < 16.5292 ∧ T ≤ tsat p ∨ 16.5292 ≤ p ∧ T ≤ 623.15) :
    ∃ T', 277.93 ≤ T' ∧ T' ≤ 650.2 ∧ |T' - T| ≤ 0.011 ∧ |1 / gamma1.v p T - 1 / gamma1.v p T'| ≤ 1e-5 ∧
      Region1.T1_prho .ideal (.fin p) (.fin (1 / gamma1.v p T)) = pure (.fin T') := by
  obtain ⟨hi, e, hhi, hT', hl⟩ : ∃ hi, Region4.T4_p .ideal (.fin p) = pure (.fin hi) ∧ hi ≤ 650.2 ∧ T ≤ hi ∧ (Liquid p hi ∨ 16.5 ≤ p) := by
    rcases hs with ⟨a, b⟩ | ⟨a, b⟩
    · have h3 : p < 22.06395 := by linarith
      exact ⟨tsat p, T4_p_eq h0 h3, by linarith [(tsat_range h0 h3).2], b, .inl (liquid_sat h0 a)⟩
    · rcases lt_or_ge p 22.06395 with h3 | h3
      · exact ⟨tsat p, T4_p_eq h0 h3, by linarith [(tsat_range h0 h3).2],
          b.trans (tsat_ge h0 h3 (liquid_623 a h1).sat (by norm_num)), .inr (by linarith)⟩
      · obtain ⟨t, e, t0, t1⟩ := T4_p_high h3 h1
        exact ⟨t, e, t1, b.trans t0, .inr (by linarith)⟩
  have p0 : 0 < p := by linarith
  have lt : ∀ x y, 277.93 ≤ x → y ≤ hi → x < y → 8.37e-9 * (y - x) < gamma1.v p y - gamma1.v p x := fun x y a b c =>
    v1_heat h1 a (b.trans hhi) c (hl.imp_left fun l => Liquid.cool l (by linarith) b)
  have lt' : ∀ x y, 277.93 ≤ x → y ≤ hi → x < y → gamma1.v p x < gamma1.v p y := fun x y a b c => by
    have := lt x y a b c; linarith
  have l283 : Liquid p 277.93 := by
    rcases hl with l | l
    · exact Liquid.cool l (by norm_num) (by linarith)
    · rcases hs with ⟨a, b⟩ | ⟨a, -⟩
      · exact Liquid.cool (liquid_sat h0 a) (by norm_num) (by linarith)
      · exact Liquid.cool (liquid_623 a h1) (by norm_num) (by norm_num)
  have pos : ∀ x ∈ Set.Icc 277.93 hi, 0 < gamma1.v p x := fun x hx => by
    rcases hx.1.eq_or_lt with h | h
    · rw [← h]; exact v1_pos l283
    · exact (v1_pos l283).trans (lt' _ _ le_rfl hx.2 h)
  have mT : T ∈ Set.Icc 277.93 hi := ⟨by linarith, hT'⟩
  obtain ⟨T', m, r, hw⟩ := prho_search (v := fun x => gamma1.v p x) (lo := 273.15) (lo' := 277.93) (hi := hi) (T := T)
    (f := fun x => Region1.v1_pT .ideal (.fin p) x) (msg := "T1_prho stopped iterating after %d steps because values did not converge")
    c9 (by norm_num) (by norm_num)
    (fun x hx => v1_pT_eq (dom1_wide p0 h1 (by linarith [hx.1]) (hx.2.trans hhi))) pos lt'
    (v1_deriv h1 (by linarith) (by linarith)).continuousAt (by norm_num) (by linarith) mT (by linarith)
  have vT := pos T mT
  have vT' := pos T' m
  have small : gamma1.v p T < 0.003 := by
    rcases hs with ⟨a, b⟩ | ⟨a, b⟩
    · rcases b.eq_or_lt with h | h
      · rw [h]; exact v1_sat h0 a
      · have := v1_heat h1 (by linarith) (by linarith [(liquid_sat h0 a).T1]) h (.inl (liquid_sat h0 a))
        linarith [v1_sat h0 a]
    · rcases b.eq_or_lt with h | h
      · rw [h]; linarith [v1_623 (p := p) (by linarith) h1]
      · have := v1_heat h1 (by linarith) (by norm_num) h (.inr (by linarith))
        linarith [v1_623 (p := p) (by linarith) h1]
  have small' : gamma1.v p T' < 0.0030001 := by
    by_contra hc
    have hc := not_lt.1 hc
    have a : 1 / gamma1.v p T' ≤ 1 / 0.0030001 := one_div_le_one_div_of_le (by norm_num) hc
    have b : 1 / 0.003 < 1 / gamma1.v p T := one_div_lt_one_div_of_lt vT small
    have := (abs_le.1 r).2
    norm_num at a b this
    linarith
  have dv : |gamma1.v p T - gamma1.v p T'| ≤ 9.001e-11 := by
    have e : gamma1.v p T - gamma1.v p T' = -(1 / gamma1.v p T - 1 / gamma1.v p T') * (gamma1.v p T * gamma1.v p T') := by
      field_simp; ring
    rw [e, abs_mul, abs_neg, abs_of_pos (mul_pos vT vT')]
    have : gamma1.v p T * gamma1.v p T' ≤ 0.003 * 0.0030001 := by gcongr
    have := mul_le_mul r this (by positivity) (by norm_num)
    norm_num at this ⊢
    linarith
  refine ⟨T', m.1, m.2.trans hhi, ?_, by norm_num at r ⊢; exact r, ?_⟩
  · rw [abs_le] at dv ⊢
    rcases lt_trichotomy T T' with h | h | h
    · have := lt T T' mT.1 m.2 h
      norm_num at this dv ⊢
      constructor <;> linarith
    · rw [h]; norm_num
    · have := lt T' T m.1 mT.2 h
      norm_num at this dv ⊢
      constructor <;> linarith
  · unfold Region1.T1_prho
    rw [Region1.T1_prho.pass_eq]
    simp only [c4, c8, e, pure_bind]
    exact hw

/-- the search for the temperature of steam -/
theorem T2_prho_search {p T : ℝ} (h0 : 0.000611657 < p) (hv : Vapour p T)
    (hs : p ≤ 16.5291 ∧ tsat p < T ∨ 16.5292 ≤ p ∧ b23T p < T) :
    ∃ T', Vapour p T' ∧ |1 / gamma2.v p T - 1 / gamma2.v p T'| ≤ 1e-6 ∧
      Region2.T2_prho .ideal (.fin p) (.fin (1 / gamma2.v p T)) = pure (.fin T') := by
  obtain ⟨lo, e, hlo, hl⟩ : ∃ lo, (p < 16.5292 ∧ Region4.T4_p .ideal (.fin p) = pure (.fin lo) ∨
      ¬ p < 16.5292 ∧ RegionBorders.B23T_p .ideal (.fin p) = pure (.fin lo)) ∧ lo < T ∧ Vapour p lo := by
    rcases hs with ⟨a, b⟩ | ⟨a, b⟩
    · exact ⟨tsat p, .inl ⟨by linarith, T4_p_eq h0 (by linarith)⟩, b, vapour_sat h0 a⟩
    · exact ⟨b23T p, .inr ⟨by linarith, B23T_p_eq (by linarith)⟩, b, vapour_b23T a hv.p1⟩
  have vap : ∀ x ∈ Set.Icc lo 1073.15, Vapour p x := fun x hx => hl.up hx.1 hx.2
  have mT : T ∈ Set.Icc lo 1073.15 := ⟨hlo.le, hv.T1⟩
  obtain ⟨T', m, r, hw⟩ := prho_search (v := fun x => gamma2.v p x) (lo := lo) (lo' := lo) (hi := 1073.15) (T := T)
    (f := fun x => Region2.v2_pT .ideal (.fin p) x) (msg := "T2_prho stopped iterating after %d steps because values did not converge")
    c10 (by norm_num) (by norm_num)
    (fun x hx => v2_pT_eq' hv.p0 (by linarith [(vap x hx).T0])) (fun x hx => v2_pos (vap x hx))
    (fun x y a b c => v2_heat c (vap x ⟨a, by linarith⟩) (vap y ⟨by linarith, b⟩))
    ((at2 hv).vT (by linarith [hv.T0])).continuousAt le_rfl (by linarith) mT (by linarith [hv.T1])
  refine ⟨T', vap T' m, by norm_num at r ⊢; exact r, ?_⟩
  unfold Region2.T2_prho
  rw [Region2.T2_prho.pass_eq]
  simp only [pure_bind, c3, c5, c8, fin_lt]
  rcases e with ⟨a, e⟩ | ⟨a, e⟩
  · rw [if_pos a, e, pure_bind]
    exact hw
  · rw [if_neg a, e, pure_bind]
    exact hw

/-! ## C74: the cold liquid is refused -/

private theorem uv_pos {u : UnitSystem} {v : ℝ} (hv : 0 < v) : 0 < Quantity.v.user u v :=
  user_pos (q := .v) (fun u => by cases u <;> rfl) u hv

/-- the code converts the density to a volume and back -/
theorem h_prho_region {u : UnitSystem} {p v : ℝ} (hv : 0 < v) :
    XSteam.h_prho .ideal u (.fin p) (.fin (1 / Quantity.v.user u v)) = (RegionSelection.region_prho .ideal (.fin (Quantity.p.si u p)) (.fin (1 / v)) >>= fun region =>
      if region = 1 then Region1.T1_prho .ideal (.fin (Quantity.p.si u p)) (.fin (1 / v)) >>= Region1.h1_pT .ideal (.fin (Quantity.p.si u p)) >>= UnitConverter.fromSIunit_h .ideal u
      else if region = 2 then Region2.T2_prho .ideal (.fin (Quantity.p.si u p)) (.fin (1 / v)) >>= Region2.h2_pT .ideal (.fin (Quantity.p.si u p)) >>= UnitConverter.fromSIunit_h .ideal u
      else if region = 3 then Region3.T3_prho .ideal (.fin (Quantity.p.si u p)) (.fin (1 / v)) >>= Region3.h3_rhoT .ideal (.fin (1 / v)) >>= UnitConverter.fromSIunit_h .ideal u
      else if region = 4 then (do
          let (vV, vL) ← if (Num.fin (Quantity.p.si u p)) < (FP.ideal.lit 16.529) then do
            let vV ← Region2.v2_pT .ideal (.fin (Quantity.p.si u p)) (← Region4.T4_p .ideal (.fin (Quantity.p.si u p)))
            let vL ← Region1.v1_pT .ideal (.fin (Quantity.p.si u p)) (← Region4.T4_p .ideal (.fin (Quantity.p.si u p)))
            pure (vV, vL)
          else do
            let vV ← Region3.v3_ph .ideal (.fin (Quantity.p.si u p)) (← Region4.h4V_p .ideal (.fin (Quantity.p.si u p)))
            let vL ← Region3.v3_ph .ideal (.fin (Quantity.p.si u p)) (← Region4.h4L_p .ideal (.fin (Quantity.p.si u p)))
            pure (vV, vL)
          let hV ← Region4.h4V_p .ideal (.fin (Quantity.p.si u p))
          let hL ← Region4.h4L_p .ideal (.fin (Quantity.p.si u p))
          let x ← FP.ideal.div (FP.ideal.sub (.fin v) vL) (FP.ideal.sub vV vL)
          UnitConverter.fromSIunit_h .ideal u (FP.ideal.add (FP.ideal.mul (FP.ideal.sub (Num.ofInt 1) x) hL) (FP.ideal.mul x hV)))
      else if region = 5 then Region5.T5_prho .ideal (.fin (Quantity.p.si u p)) (.fin (1 / v)) >>= Region5.h5_pT .ideal (.fin (Quantity.p.si u p)) >>= UnitConverter.fromSIunit_h .ideal u
      else do
        warn "Region switch h_prho returned unknown value %d for input p %f and rho %f"
        pure Num.nan) := by
  have hr : 1 / v ≠ 0 := (one_div_pos.2 hv).ne'
  have hu : 1 / Quantity.v.user u v ≠ 0 := (one_div_pos.2 (uv_pos hv)).ne'
  unfold XSteam.h_prho
  simp only [si, c7, pure_bind, div_ideal hu, one_div_one_div, Quantity.si_user, div_ideal hv.ne', div_ideal hr, bind_assoc]

theorem h_prho_refused {u : UnitSystem} {p v : ℝ} (hv : 0 < v)
    (h : Quantity.p.si u p < 0.000611657 ∨ 0.000611657 ≤ Quantity.p.si u p ∧ Quantity.p.si u p ≤ 100 ∧ v < gamma1.v (Quantity.p.si u p) 273.15) :
    (XSteam.h_prho .ideal u (.fin p) (.fin (1 / Quantity.v.user u v))).out = .ok .nan ∧
    Warned (XSteam.h_prho .ideal u (.fin p) (.fin (1 / Quantity.v.user u v))).logs := by
  have e := region_prho_0 hv h
  rw [h_prho_region hv]
  generalize RegionSelection.region_prho .ideal (.fin (Quantity.p.si u p)) (.fin (1 / v)) = r at e
  obtain ⟨l, o⟩ := r
  simp only at e
  subst e
  exact ⟨rfl, ⟨⟨.warning, _⟩, List.mem_append.2 (.inr (List.mem_append.2 (.inl (List.mem_singleton.2 rfl)))), rfl⟩⟩

/-- **C74** (defect): a state of liquid water below 3 °C, up to 4 MPa, is refused by `h_prho`: the density that `rho_pt` itself returns
for it gives NaN and a message, because `region_prho` takes the volume at 273.15 K for the smallest -/
theorem C74_cold_water_refused (u : UnitSystem) (p t : ℝ) (hr : InRegion 1 (Quantity.p.si u p) (Quantity.T.si u t))
    (h1 : Quantity.p.si u p ≤ 4) (h2 : Quantity.T.si u t ≤ 276.15) :
    ∃ h rho : ℝ, XSteam.h_pt .ideal u (.fin p) (.fin t) = pure (.fin h) ∧ XSteam.rho_pt .ideal u (.fin p) (.fin t) = pure (.fin rho) ∧ 0 < rho ∧
      (XSteam.h_prho .ideal u (.fin p) (.fin rho)).out = .ok .nan ∧ Warned (XSteam.h_prho .ideal u (.fin p) (.fin rho)).logs := by
  obtain ⟨v, e1, v0, e2⟩ := C44_positive_volume u 1 p t (.inl rfl) hr
  obtain ⟨hv, hh, -⟩ := kernels_of_region (k := 1) (.inl rfl) hr
  rw [hv] at e1
  cases e1
  have l := liquid_of_region1 hr
  have T0 : 273.15 < Quantity.T.si u t := by
    rcases hr with ⟨h, _⟩ | ⟨h, _⟩ | ⟨_, h⟩ | ⟨h, _⟩ | ⟨h, _⟩ | ⟨h, _⟩ | ⟨h, _⟩ | ⟨h, _⟩
    iterate 2 exact absurd h (by norm_num)
    · exact h.1.1
    all_goals exact absurd h (by norm_num)
  have p0 : 0 ≤ Quantity.p.si u p := by
    have : 0 ≤ psat (Quantity.T.si u t) := by rw [psat]; positivity
    exact this.trans l.sat
  have vp := v1_pos l
  refine ⟨_, _, hh, e2, one_div_pos.2 v0, ?_⟩
  refine h_prho_refused vp ?_
  rcases lt_or_ge (Quantity.p.si u p) 0.000611657 with h | h
  · exact .inl h
  · exact .inr ⟨h, by linarith, v1_shrink p0 h1 T0 h2⟩

/-- C74 (defect): so is every state of the regions 1, 2 and 5 between the lower limit of `region_pT`, 0.000611 MPa, and that of
`region_prho`, 0.000611657 MPa -/
theorem C74_thin_steam_refused (u : UnitSystem) (k : ℤ) (p t : ℝ) (hk : k = 1 ∨ k = 2 ∨ k = 5)
    (hr : InRegion k (Quantity.p.si u p) (Quantity.T.si u t)) (h1 : Quantity.p.si u p < 0.000611657) :
    ∃ h rho : ℝ, XSteam.h_pt .ideal u (.fin p) (.fin t) = pure (.fin h) ∧ XSteam.rho_pt .ideal u (.fin p) (.fin t) = pure (.fin rho) ∧ 0 < rho ∧
      (XSteam.h_prho .ideal u (.fin p) (.fin rho)).out = .ok .nan ∧ Warned (XSteam.h_prho .ideal u (.fin p) (.fin rho)).logs := by
  obtain ⟨v, e1, v0, e2⟩ := C44_positive_volume u k p t hk hr
  obtain ⟨hv, hh, -⟩ := kernels_of_region hk hr
  rw [hv] at e1
  cases e1
  have vp := Gamma.v_pos (stable_of_region hk hr).gp gammaOf_ps (T_pos_of_region hk hr)
  exact ⟨_, _, hh, e2, one_div_pos.2 v0, h_prho_refused vp (.inl h1)⟩

/-! ## C75: elsewhere the state is found -/

private theorem region1_parts {p T : ℝ} (hr : InRegion 1 p T) : T ≤ 623.15 ∧ psat T < p := by
  have : T ≤ 623.15 ∧ ∃ ps, Sat ps T ∧ ps < p := by
    rcases hr with ⟨h, _⟩ | ⟨h, _⟩ | ⟨_, h⟩ | ⟨h, _⟩ | ⟨h, _⟩ | ⟨h, _⟩ | ⟨h, _⟩ | ⟨h, _⟩
    iterate 2 exact absurd h (by norm_num)
    · exact ⟨h.2.1, h.2.2.2⟩
    all_goals exact absurd h (by norm_num)
  obtain ⟨a, ps, hs, lt⟩ := this
  exact ⟨a, psat_of_region1 hr hs ▸ lt⟩

/-- **C75**: for a state of region 1 at 10 °C or above, `h_prho` returns the enthalpy of the liquid at the given pressure and a temperature
within 0.011 K of that of the state, whose density is within 1e-5 kg/m³ of that given, and logs nothing -- except on the line
`T = 623.15 K` itself from 16.5292 MPa on -/
theorem C75_liquid (u : UnitSystem) (p t : ℝ) (hr : InRegion 1 (Quantity.p.si u p) (Quantity.T.si u t)) (h1 : 283.15 ≤ Quantity.T.si u t)
    (h2 : Quantity.p.si u p < 16.5292 ∨ Quantity.T.si u t < 623.15) :
    ∃ rho T' h' v v' : ℝ, XSteam.rho_pt .ideal u (.fin p) (.fin t) = pure (.fin rho) ∧
      |T' - Quantity.T.si u t| ≤ 0.011 ∧
      Region1.v1_pT .ideal (.fin (Quantity.p.si u p)) (.fin (Quantity.T.si u t)) = pure (.fin v) ∧
      Region1.v1_pT .ideal (.fin (Quantity.p.si u p)) (.fin T') = pure (.fin v') ∧ |1 / v' - 1 / v| ≤ 1e-5 ∧
      Region1.h1_pT .ideal (.fin (Quantity.p.si u p)) (.fin T') = pure (.fin h') ∧
      XSteam.h_prho .ideal u (.fin p) (.fin rho) = pure (.fin (Quantity.h.user u h')) := by
  obtain ⟨v, e1, v0, e2⟩ := C44_positive_volume u 1 p t (.inl rfl) hr
  obtain ⟨hv, -⟩ := kernels_of_region (k := 1) (.inl rfl) hr
  rw [hv] at e1
  cases e1
  have l := liquid_of_region1 hr
  obtain ⟨hT, hp⟩ := region1_parts hr
  generalize Quantity.T.si u t = T at hr h1 h2 l hT hp e2 v0
  change XSteam.rho_pt .ideal u (.fin p) (.fin t) = pure (.fin (1 / Quantity.v.user u (gamma1.v (Quantity.p.si u p) T))) at e2
  have p283 : 0.00122 < psat 283.15 := by
    have h := le_psat (T := 283.15) (Tk := 283.15) (β := 0.1870) (by norm_num) (by norm_num) (by norm_num) (by norm_num) (by norm_num)
      (by norm_num [eqQ, thQ])
    norm_num at h ⊢
    linarith
  have p0 : 0.000611657 < Quantity.p.si u p := by
    have := psat_mono' (T := 283.15) (by norm_num) h1 (by linarith)
    linarith
  have p1 := l.p1
  have hs : Quantity.p.si u p < 16.5292 ∧ T ≤ tsat (Quantity.p.si u p) ∨ 16.5292 ≤ Quantity.p.si u p ∧ T < 623.15 := by
    rcases lt_or_ge (Quantity.p.si u p) 16.5292 with h | h
    · exact .inl ⟨h, tsat_ge p0 (by linarith) hp.le (by linarith)⟩
    · exact .inr ⟨h, h2.resolve_left (not_lt.2 h)⟩
  have vp := v1_pos l
  obtain ⟨T', a0, a1, dT, dr, et⟩ := T1_prho_search p0 p1 h1 (hs.imp_right fun h => ⟨h.1, h.2.le⟩)
  have d' := dom1_wide (p := Quantity.p.si u p) (T := T') (by linarith) p1 (by linarith) a1
  have min : gamma1.v (Quantity.p.si u p) 273.15 ≤ gamma1.v (Quantity.p.si u p) T := by
    have a := v1_273_lt (p := Quantity.p.si u p) (by linarith) p1
    rcases h1.eq_or_lt with h | h
    · rw [← h]; exact a.le
    · have := v1_heat p1 (by norm_num) (by linarith) h (.inl l)
      linarith
  have er : RegionSelection.region_prho .ideal (.fin (Quantity.p.si u p)) (.fin (1 / gamma1.v (Quantity.p.si u p) T)) = pure 1 := by
    rcases hs with ⟨a, b⟩ | ⟨a, b⟩
    · refine (region_prho_low vp p0 a min).1 ?_
      rcases b.eq_or_lt with h | h
      · rw [← h]
      · have := v1_heat p1 (by linarith) (by linarith [(liquid_sat p0 a).T1]) h (.inl (liquid_sat p0 a))
        linarith
    · refine (region_prho_high vp a p1 min).1 ?_
      have := v1_heat p1 (by linarith) (by norm_num) b (.inr (by linarith))
      linarith
  refine ⟨_, T', _, _, _, e2, dT, v1_pT_eq (dom1_of_liquid (by linarith) l), v1_pT_eq d', ?_, h1_pT_eq d', ?_⟩
  · rw [abs_sub_comm]; exact dr
  · rw [h_prho_region vp, er, pure_bind, if_pos rfl, et, pure_bind, h1_pT_eq d', pure_bind]
    simp only [si]

/-- **C75**: for a state of region 2 between 0.000611657 MPa and 16.5291 MPa, or above 16.5292 MPa and off the border with region 3 by
1e-10 MPa, `h_prho` returns the enthalpy of steam at the given pressure and at a temperature where the density is within
1e-6 kg/m³ of that given, and logs nothing -/
theorem C75_steam (u : UnitSystem) (p t : ℝ) (hr : InRegion 2 (Quantity.p.si u p) (Quantity.T.si u t)) (h1 : 0.000611657 < Quantity.p.si u p)
    (h2 : Quantity.p.si u p ≤ 16.5291 ∨ 16.5292 ≤ Quantity.p.si u p ∧ Quantity.T.si u t < 1073.15 ∧ Quantity.p.si u p + 1e-10 ≤ b23 (Quantity.T.si u t)) :
    ∃ rho T' h' v v' : ℝ, XSteam.rho_pt .ideal u (.fin p) (.fin t) = pure (.fin rho) ∧
      Region2.v2_pT .ideal (.fin (Quantity.p.si u p)) (.fin (Quantity.T.si u t)) = pure (.fin v) ∧
      Region2.v2_pT .ideal (.fin (Quantity.p.si u p)) (.fin T') = pure (.fin v') ∧ |1 / v' - 1 / v| ≤ 1e-6 ∧
      273.15 ≤ T' ∧ T' ≤ 1073.15 ∧ Region2.h2_pT .ideal (.fin (Quantity.p.si u p)) (.fin T') = pure (.fin h') ∧
      XSteam.h_prho .ideal u (.fin p) (.fin rho) = pure (.fin (Quantity.h.user u h')) := by
  obtain ⟨v, e1, v0, e2⟩ := C44_positive_volume u 2 p t (.inr (.inl rfl)) hr
  obtain ⟨hv, -⟩ := kernels_of_region (k := 2) (.inr (.inl rfl)) hr
  rw [hv] at e1
  cases e1
  have l := vapour_of_region2 hr
  have strict : Quantity.T.si u t ≤ 623.15 → Quantity.p.si u p < psat (Quantity.T.si u t) := by
    intro hT
    obtain ⟨a, b, c, d⟩ := box_of_region2 hr
    rcases hr with ⟨h, _⟩ | ⟨h, _⟩ | ⟨h, _⟩ | ⟨_, h⟩ | ⟨_, h⟩ | ⟨h, _⟩ | ⟨h, _⟩ | ⟨h, _⟩
    iterate 3 exact absurd h (by norm_num)
    · obtain ⟨_, _, _, ps, hs, hp⟩ := h
      obtain ⟨_, t0, t1⟩ := theta_box a (by linarith)
      rwa [sat_unique t0 (by linarith) hs] at hp
    · linarith [h.2.1]
    all_goals exact absurd h (by norm_num)
  generalize Quantity.T.si u t = T at hr h2 l e2 v0 strict
  change XSteam.rho_pt .ideal u (.fin p) (.fin t) = pure (.fin (1 / Quantity.v.user u (gamma2.v (Quantity.p.si u p) T))) at e2
  have p1 := l.p1
  have vp := v2_pos l
  have hs : Quantity.p.si u p ≤ 16.5291 ∧ tsat (Quantity.p.si u p) < T ∨ 16.5292 ≤ Quantity.p.si u p ∧ b23T (Quantity.p.si u p) < T := by
    rcases h2 with h | ⟨h, h', h''⟩
    · refine .inl ⟨h, ?_⟩
      rcases le_or_gt T 623.15 with h3 | h3
      · exact tsat_lt h1 (by linarith) (by linarith [l.T0]) (strict h3)
      · have := tsat_lt h1 (x := 623.15) (by linarith) (by norm_num) (by linarith [psat_62315])
        linarith
    · refine .inr ⟨h, b23T_lt h p1 ?_ h''⟩
      by_contra hc
      have a := strict (by linarith)
      have b := psat_mono' (T := T) (T' := 623.15) (by linarith [l.T0]) (by linarith) (by norm_num)
      have c := (liquid_623 le_rfl (by norm_num)).sat
      linarith
  obtain ⟨T', l', dr, et⟩ := T2_prho_search h1 l hs
  have d : T ≠ 0 := by linarith [l.T0]
  have d' : T' ≠ 0 := by linarith [l'.T0]
  have cold := v1_cold (p := Quantity.p.si u p) (by linarith) p1
  have er : RegionSelection.region_prho .ideal (.fin (Quantity.p.si u p)) (.fin (1 / gamma2.v (Quantity.p.si u p) T)) = pure 2 := by
    have l2 := vapour_1073 l.p0 p1
    have top : T < 1073.15 → gamma2.v (Quantity.p.si u p) T < gamma2.v (Quantity.p.si u p) 1073.15 := fun h => v2_heat h l l2
    rcases hs with ⟨a, b⟩ | ⟨a, b⟩
    · have c := v2_sat h1 a
      have c' := v2_heat b (vapour_sat h1 a) l
      have c'' := v1_sat h1 (by linarith)
      refine (region_prho_low vp h1 (by linarith) (by linarith)).2.2 (by linarith) c'.le ?_
      rcases l.T1.eq_or_lt with h | h
      · rw [h]
      · exact (top h).le
    · have c := v2_heat b (vapour_b23T a p1) l
      have c' := v2_gt (vapour_b23T a p1) (by linarith) (b23T_range a p1).1.le
      have c'' := v1_623 (p := Quantity.p.si u p) (by linarith) p1
      refine (region_prho_high vp a p1 (by linarith)).2 (by linarith) c.le (top ?_)
      rcases h2 with h | h
      · linarith
      · exact h.2.1
  refine ⟨_, T', _, _, _, e2, v2_pT_eq' l.p0 d, v2_pT_eq' l.p0 d', ?_, l'.T0, l'.T1, h2_pT_eq (dom2_of_vapour l'), ?_⟩
  · rw [abs_sub_comm]; exact dr
  · rw [h_prho_region vp, er, pure_bind, if_neg (by norm_num), if_pos rfl, et, pure_bind, h2_pT_eq (dom2_of_vapour l'), pure_bind]
    simp only [si]

/-- **C75**: for wet steam between 0.00123 MPa (the saturation pressure at 10 °C) and 16.529 MPa, `h_prho` returns exactly what `h_px`
returns: the quality follows from the density by the lever rule -/
theorem C75_wet (u : UnitSystem) (p x : ℝ) (h0 : 0.00123 ≤ Quantity.p.si u p) (h1 : Quantity.p.si u p < 16.529) (x0 : 0 < x) (x1 : x < 1) :
    ∃ a b h : ℝ, XSteam.vL_p .ideal u (.fin p) = pure (.fin a) ∧ XSteam.vV_p .ideal u (.fin p) = pure (.fin b) ∧ 0 < a ∧ a < b ∧
      XSteam.h_px .ideal u (.fin p) (.fin x) = pure (.fin h) ∧
      XSteam.h_prho .ideal u (.fin p) (.fin (1 / (a + x * (b - a)))) = pure (.fin h) := by
  have hp0 : 0.000611657 < Quantity.p.si u p := by linarith
  have h2 : Quantity.p.si u p < 22.06395 := by linarith
  have h3 : Quantity.p.si u p ≤ 16.5291 := by linarith
  obtain ⟨a1, -, -, -, -, b1, -⟩ := kernels_sat hp0 h1
  obtain ⟨hL, hV, f1, f2, f3⟩ := C14_h_px_low u p x x0.le x1.le hp0 h1
  have ll := liquid_sat hp0 (by linarith)
  have aL := v1_sat hp0 (by linarith)
  have aV := v2_sat hp0 h3
  have aP := v1_pos ll
  have eL := h4L_p_low hp0 h1
  have eV := h4V_p_low hp0 h1
  have gL : hL = Quantity.h.user u (gamma1.h (Quantity.p.si u p) (tsat (Quantity.p.si u p))) := by
    unfold XSteam.hL_p at f1
    simp only [si, pure_bind, c1, g22, gt_num, fin_lt, if_pos (And.intro hp0 h2), eL] at f1
    cases f1; rfl
  have gV : hV = Quantity.h.user u (gamma2.h (Quantity.p.si u p) (tsat (Quantity.p.si u p))) := by
    unfold XSteam.hV_p at f2
    simp only [si, pure_bind, c1, g22, gt_num, fin_lt, if_pos (And.intro hp0 h2), eV] at f2
    cases f2; rfl
  have p283 : psat 283.15 ≤ 0.00123 := by
    have h := psat_le (T := 283.15) (Tk := 283.15) (β := 0.18722) (by norm_num) (by norm_num) (by norm_num) (by norm_num)
      (by norm_num [eqQ, thQ])
    norm_num at h ⊢
    linarith
  have ts : 283.15 ≤ tsat (Quantity.p.si u p) := tsat_ge hp0 h2 (by linarith) (by norm_num)
  have cold := v1_273_lt (p := Quantity.p.si u p) (by linarith) (by linarith)
  have cold' : gamma1.v (Quantity.p.si u p) 283.15 ≤ gamma1.v (Quantity.p.si u p) (tsat (Quantity.p.si u p)) := by
    rcases ts.eq_or_lt with h | h
    · rw [← h]
    · have := v1_heat (p := Quantity.p.si u p) (by linarith) (by norm_num) (by linarith [ll.T1]) h (.inl ll)
      linarith
  refine ⟨Quantity.v.user u (gamma1.v (Quantity.p.si u p) (tsat (Quantity.p.si u p))),
      Quantity.v.user u (gamma2.v (Quantity.p.si u p) (tsat (Quantity.p.si u p))), _, ?_, ?_, uv_pos aP,
      Quantity.v.user_strictMono u (aL.trans aV), f3, ?_⟩
  · unfold XSteam.vL_p
    simp only [si, pure_bind, c1, g22, c11, gt_num, fin_lt, if_pos (And.intro hp0 h2), if_pos h1, T4_p_eq hp0 h2, a1]
  · unfold XSteam.vV_p
    simp only [si, pure_bind, c1, g22, c11, gt_num, fin_lt, if_pos (And.intro hp0 h2), if_pos h1, T4_p_eq hp0 h2, b1]
  · subst gL gV
    generalize gamma1.h (Quantity.p.si u p) (tsat (Quantity.p.si u p)) = L at eL
    generalize gamma2.h (Quantity.p.si u p) (tsat (Quantity.p.si u p)) = V at eV
    have z : ∀ y, Quantity.v.offset y = 0 := fun y => by cases y <;> rfl
    have mix : Quantity.v.user u (gamma1.v (Quantity.p.si u p) (tsat (Quantity.p.si u p))) +
        x * (Quantity.v.user u (gamma2.v (Quantity.p.si u p) (tsat (Quantity.p.si u p))) - Quantity.v.user u (gamma1.v (Quantity.p.si u p) (tsat (Quantity.p.si u p)))) =
        Quantity.v.user u (gamma1.v (Quantity.p.si u p) (tsat (Quantity.p.si u p)) +
          x * (gamma2.v (Quantity.p.si u p) (tsat (Quantity.p.si u p)) - gamma1.v (Quantity.p.si u p) (tsat (Quantity.p.si u p)))) := by
      simp only [Quantity.user, z, sub_zero]; ring
    rw [mix]
    have reg := region_prho_low (p := Quantity.p.si u p) (v := gamma1.v (Quantity.p.si u p) (tsat (Quantity.p.si u p)) +
          x * (gamma2.v (Quantity.p.si u p) (tsat (Quantity.p.si u p)) - gamma1.v (Quantity.p.si u p) (tsat (Quantity.p.si u p))))
    generalize gamma1.v (Quantity.p.si u p) (tsat (Quantity.p.si u p)) = vL at a1 aL aP cold' reg
    generalize gamma2.v (Quantity.p.si u p) (tsat (Quantity.p.si u p)) = vV at b1 aV reg
    have k1 : 0 < x * (vV - vL) := mul_pos x0 (by linarith)
    have k2 : 0 < (1 - x) * (vV - vL) := mul_pos (by linarith) (by linarith)
    have er := (reg (by linarith) hp0 (by linarith) (by linarith)).2.1 (by linarith) (by linarith)
    have ne : vV - vL ≠ 0 := by linarith
    have ex : (vL + x * (vV - vL) - vL) / (vV - vL) = x := by field_simp; ring
    rw [h_prho_region (by linarith), er, pure_bind, if_neg (by norm_num), if_neg (by norm_num), if_neg (by norm_num), if_pos rfl]
    simp only [c7, c11, fin_lt, if_pos h1, T4_p_eq hp0 h2, pure_bind, a1, b1, eL, eV, sub_ideal, div_ideal ne, ex, mul_ideal, add_ideal, si]
    congr 2
    cases u <;> simp only [Quantity.user, Quantity.offset, Quantity.scale] <;> ring

/-! ## C76: region 5 -/

private theorem k10 : Num.ofInt 10 = .fin 10 := by rw [ofInt_eq]; norm_num
private theorem k2073 : FP.ideal.lit 2073.15 = .fin 2073.15 := by rw [lit_ideal]; norm_num

section
variable {p T T' v : ℝ}

theorem v5_heat (h0 : 0 < p) (h1 : p ≤ 50) (h2 : 1073.15 ≤ T) (h3 : T' ≤ 2273.15) (hlt : T < T') : gamma5.v p T < gamma5.v p T' := by
  refine Gamma.lt_of_deriv (f := fun T => gamma5.v p T) (f' := fun T => gamma5.vT p T) hlt
    (fun x a b => (at5 h0 (by linarith)).vT (by linarith)) (fun x a b => ?_)
  have k := R5.expand h0 h1 (h2.trans a) (b.trans h3)
  have := Gamma.R_pos
  simp only [Gamma.vT, show gamma5.ps = 1 from rfl, show gamma5.Ts = 1000 from rfl, div_one]
  positivity

/-- above 1080 K the volume exceeds that of region 2 at 1073.15 K -/
theorem v5_above (h0 : 0 < p) (h1 : p ≤ 50) (h2 : 1080 ≤ T) (h3 : T ≤ 2273.15) : gamma2.v p 1073.15 < gamma5.v p T := by
  have a := v2_lt_v5 h0 h1
  rcases h2.eq_or_lt with h | h
  · rw [← h]; exact a
  · exact a.trans (v5_heat h0 h1 (by norm_num) h3 h)

theorem region_prho_hot (h0 : 0.000611657 < p) (h1 : p ≤ 16.5291) (hv : gamma2.v p 1073.15 < v) :
    RegionSelection.region_prho .ideal (.fin p) (.fin (1 / v)) = (if 10 < p then (do warn "Preasure outside valid area"; pure 0)
      else if v ≤ gamma5.v p 2073.15 then pure 5 else RegionSelection.region_prho.rest .ideal) := by
  have h3 : p < 22.06395 := by linarith
  have l := liquid_sat h0 (by linarith)
  have l2 := vapour_sat h0 h1
  have l3 := vapour_1073 (p := p) (by linarith) (by linarith)
  have tr := tsat_lt h0 h3 (x := 623.15) (by norm_num) (by linarith [psat_62315])
  have o1 := v1_cold (p := p) (by linarith) (by linarith)
  have o2 := v1_sat h0 (by linarith)
  have o3 := v2_sat h0 h1
  have o4 := v2_heat (T := tsat p) (T' := 1073.15) (by linarith) l2 l3
  have hr : 1 / v ≠ 0 := (one_div_pos.2 (by linarith : 0 < v)).ne'
  have e1 := v1_pT_eq (dom1_wide (p := p) (by linarith) (by linarith) (le_refl 273.15) (by norm_num))
  have e2 := v1_pT_eq (dom1_of_liquid (by linarith) l)
  have e3 := v2_pT_eq' (p := p) (T := tsat p) (by linarith) (by linarith [l2.T0])
  have e4 := v2_pT_eq' (p := p) (T := 1073.15) (by linarith) (by norm_num)
  have e5 := v5_pT_eq (p := p) (T := 2073.15) ⟨by linarith, by norm_num⟩
  unfold RegionSelection.region_prho
  simp only [c1, c2, c3, c4, c5, c7, k10, k2073, div_ideal hr, one_div_one_div, pure_bind, gt_num, fin_lt, fin_le,
    if_pos (show p < 16.5292 by linarith), e1, T4_p_eq h0 h3, e2, e3, e4, e5]
  rw [if_neg (by rintro (h | h) <;> linarith), if_neg (by linarith), if_neg (by linarith), if_neg (by linarith), if_neg (by linarith)]

theorem region_prho_hot' (h0 : 16.5292 ≤ p) (h1 : p ≤ 50) (hv : gamma2.v p 1073.15 < v) :
    RegionSelection.region_prho .ideal (.fin p) (.fin (1 / v)) = RegionSelection.region_prho.rest .ideal := by
  have tr := b23T_range h0 (by linarith)
  have l2 := vapour_b23T h0 (by linarith)
  have l3 := vapour_1073 (p := p) (by linarith) (by linarith)
  have o1 := v1_cold (p := p) (by linarith) (by linarith)
  have o2 := v1_623 (p := p) (by linarith) (by linarith)
  have o3 := v2_gt l2 (by linarith) tr.1.le
  have o4 := v2_heat (by linarith) l2 l3
  have hr : 1 / v ≠ 0 := (one_div_pos.2 (by linarith : 0 < v)).ne'
  have e1 := v1_pT_eq (dom1_wide (p := p) (by linarith) (by linarith) (le_refl 273.15) (by norm_num))
  have e2 := v1_pT_eq (dom1_wide (p := p) (T := 623.15) (by linarith) (by linarith) (by norm_num) (by norm_num))
  have e3 := v2_pT_eq' (p := p) (T := b23T p) (by linarith) (by linarith)
  have e4 := v2_pT_eq' (p := p) (T := 1073.15) (by linarith) (by norm_num)
  have e5 : RegionBorders.B23T_p .ideal (.fin p) = pure (.fin (b23T p)) := B23T_p_eq (by linarith)
  unfold RegionSelection.region_prho
  simp only [c1, c2, c3, c4, c5, c6, c7, div_ideal hr, one_div_one_div, pure_bind, gt_num, fin_lt, if_neg (not_lt.2 h0), e1, e2, e3, e4, e5]
  rw [if_neg (by rintro (h | h) <;> linarith), if_neg (by linarith), if_neg (by linarith), if_neg (by linarith), if_neg (by linarith)]
end

/-- C76: steam between 1080 K and 2073.15 K is recognised as region 5 up to 10 MPa -/
theorem C76_region5 (p T v : ℝ) (h0 : 0.000611657 < p) (h1 : p ≤ 10) (h2 : 1080 ≤ T) (h3 : T ≤ 2073.15)
    (hv : Region5.v5_pT .ideal (.fin p) (.fin T) = pure (.fin v)) :
    RegionSelection.region_prho .ideal (.fin p) (.fin (1 / v)) = pure 5 := by
  rw [v5_pT_eq ⟨by linarith, by linarith⟩] at hv
  cases hv
  rw [region_prho_hot h0 (by linarith) (v5_above (by linarith) (by linarith) h2 (by linarith)), if_neg (by linarith), if_pos]
  rcases h3.eq_or_lt with h | h
  · rw [h]
  · exact (v5_heat (by linarith) (by linarith) (by linarith) (by norm_num) h).le

/-- **C76** (defect): region 5 extends to 2273.15 K and, in `region_pT`, to 50 MPa. `h_prho` refuses the density of every state above
2073.15 K (from 10 MPa on: above 1080 K), with NaN and a message -/
theorem C76_hot_steam_refused (u : UnitSystem) (p t : ℝ) (hr : InRegion 5 (Quantity.p.si u p) (Quantity.T.si u t))
    (h : 0.000611657 < Quantity.p.si u p ∧ Quantity.p.si u p ≤ 16.5291 ∧ 2073.15 < Quantity.T.si u t ∨
      10 < Quantity.p.si u p ∧ Quantity.p.si u p ≤ 16.5291 ∧ 1080 ≤ Quantity.T.si u t ∨
      16.5292 ≤ Quantity.p.si u p ∧ 1080 ≤ Quantity.T.si u t) :
    ∃ h rho : ℝ, XSteam.h_pt .ideal u (.fin p) (.fin t) = pure (.fin h) ∧ XSteam.rho_pt .ideal u (.fin p) (.fin t) = pure (.fin rho) ∧ 0 < rho ∧
      (XSteam.h_prho .ideal u (.fin p) (.fin rho)).out = .ok .nan ∧ Warned (XSteam.h_prho .ideal u (.fin p) (.fin rho)).logs := by
  obtain ⟨v, e1, v0, e2⟩ := C44_positive_volume u 5 p t (.inr (.inr rfl)) hr
  obtain ⟨hv, hh, -⟩ := kernels_of_region (k := 5) (.inr (.inr rfl)) hr
  rw [hv] at e1
  cases e1
  have vp := Gamma.v_pos (stable_of_region (.inr (.inr rfl)) hr).gp gammaOf_ps (T_pos_of_region (.inr (.inr rfl)) hr)
  have hot : Hot (Quantity.p.si u p) (Quantity.T.si u t) := by
    rcases hr with ⟨h, _⟩ | ⟨_, h⟩ | ⟨h, _⟩ | ⟨h, _⟩ | ⟨h, _⟩ | ⟨h, _⟩ | ⟨h, _⟩ | ⟨h, _⟩
    · exact absurd h (by norm_num)
    · exact h
    all_goals exact absurd h (by norm_num)
  obtain ⟨t0, t1, p0, p1⟩ := hot
  change 0 < gamma5.v (Quantity.p.si u p) (Quantity.T.si u t) at vp
  refine ⟨_, _, hh, e2, one_div_pos.2 v0, ?_⟩
  change (XSteam.h_prho .ideal u (.fin p) (.fin (1 / Quantity.v.user u (gamma5.v (Quantity.p.si u p) (Quantity.T.si u t))))).out = _ ∧
    Warned (XSteam.h_prho .ideal u (.fin p) (.fin (1 / Quantity.v.user u (gamma5.v (Quantity.p.si u p) (Quantity.T.si u t))))).logs
  have ab := v5_above (p := Quantity.p.si u p) (T := Quantity.T.si u t) (by linarith) p1.le (by rcases h with h | h | h <;> linarith [h.2]) t1.le
  have er : (RegionSelection.region_prho .ideal (.fin (Quantity.p.si u p)) (.fin (1 / gamma5.v (Quantity.p.si u p) (Quantity.T.si u t)))).out = .ok 0 := by
    rcases h with ⟨a, b, c⟩ | ⟨a, b, c⟩ | ⟨a, b⟩
    · rw [region_prho_hot a b ab]
      have := v5_heat (p := Quantity.p.si u p) (T := 2073.15) (T' := Quantity.T.si u t) (by linarith) p1.le (by norm_num) t1.le c
      split_ifs
      · rfl
      · linarith
      · rfl
    · rw [region_prho_hot (by linarith) b ab, if_pos a]; rfl
    · rw [region_prho_hot' a p1.le ab]; rfl
  rw [h_prho_region vp]
  generalize RegionSelection.region_prho .ideal (.fin (Quantity.p.si u p)) (.fin (1 / gamma5.v (Quantity.p.si u p) (Quantity.T.si u t))) = r at er
  obtain ⟨l, o⟩ := r
  simp only at er
  subst er
  exact ⟨rfl, ⟨⟨.warning, _⟩, List.mem_append.2 (.inr (List.mem_append.2 (.inl (List.mem_singleton.2 rfl)))), rfl⟩⟩

/-! ## Cases -/

/-- 1 bar and 1.85 °C: the density of the liquid is refused -/
theorem cold_point : InRegion 1 0.1 275 := by
  have h := theta_box (T := 275) (by norm_num) (by norm_num)
  have hs := psat_sat h.1 h.2.1 h.2.2
  have b := psat_le (T := 275) (Tk := 275) (β := 0.17) (by norm_num) (by norm_num) (by norm_num) (by norm_num) (by norm_num [eqQ, thQ])
  norm_num at b
  refine .inr (.inr (.inl ⟨rfl, by norm_num [Box], by norm_num, ?_, psat 275, hs, by norm_num; linarith⟩))
  rw [saturated_iff (by norm_num) (by norm_num), abs_of_nonneg (by norm_num; linarith)]
  norm_num
  linarith

example : ∃ rho : ℝ, XSteam.rho_pt .ideal .mks (.fin 1) (.fin 1.85) = pure (.fin rho) ∧ (XSteam.h_prho .ideal .mks (.fin 1) (.fin rho)).out = .ok .nan := by
  have hp : Quantity.p.si .mks 1 = 0.1 := by norm_num [Quantity.si, Quantity.scale, Quantity.offset]
  have ht : Quantity.T.si .mks 1.85 = 275 := by norm_num [Quantity.si, Quantity.scale, Quantity.offset]
  obtain ⟨_, rho, -, a, -, b, -⟩ := C74_cold_water_refused .mks 1 1.85 (by rw [hp, ht]; exact cold_point) (by rw [hp]; norm_num) (by rw [ht]; norm_num)
  exact ⟨rho, a, b⟩

/-- 0.0006112 MPa and 900 K -/
example : ∃ rho : ℝ, XSteam.rho_pt .ideal .bare (.fin 0.0006112) (.fin 900) = pure (.fin rho) ∧
    (XSteam.h_prho .ideal .bare (.fin 0.0006112) (.fin rho)).out = .ok .nan := by
  have hr : InRegion 2 0.0006112 900 := by
    refine .inr (.inr (.inr (.inr (.inl ⟨rfl, ?_, ?_, ?_⟩)))) <;> norm_num [Box, b23]
  obtain ⟨_, rho, -, a, -, b, -⟩ := C74_thin_steam_refused .bare 2 0.0006112 900 (.inr (.inl rfl)) (by simpa using hr) (by rw [Quantity.si_bare]; norm_num)
  exact ⟨rho, a, b⟩

/-- 500 bar and 126.85 °C -/
example : ∃ rho T' h' : ℝ, XSteam.rho_pt .ideal .mks (.fin 500) (.fin 126.85) = pure (.fin rho) ∧ |T' - 400| ≤ 0.011 ∧
    Region1.h1_pT .ideal (.fin 50) (.fin T') = pure (.fin h') ∧ XSteam.h_prho .ideal .mks (.fin 500) (.fin rho) = pure (.fin (Quantity.h.user .mks h')) := by
  have hp : Quantity.p.si .mks 500 = 50 := by norm_num [Quantity.si, Quantity.scale, Quantity.offset]
  have ht : Quantity.T.si .mks 126.85 = 400 := by norm_num [Quantity.si, Quantity.scale, Quantity.offset]
  obtain ⟨rho, T', h', _, _, a, b, -, -, -, c, d⟩ := C75_liquid .mks 500 126.85 (by rw [hp, ht]; exact region1_point) (by rw [ht]; norm_num) (by rw [ht]; norm_num)
  rw [ht] at b
  rw [hp] at c
  exact ⟨rho, T', h', a, b, c, d⟩

/-- steam at 10 MPa and 900 K, and at 20 MPa and 900 K -/
example : ∃ rho h' : ℝ, XSteam.rho_pt .ideal .bare (.fin 10) (.fin 900) = pure (.fin rho) ∧ XSteam.h_prho .ideal .bare (.fin 10) (.fin rho) = pure (.fin h') := by
  obtain ⟨rho, _, h', _, _, a, -, -, -, -, -, -, b⟩ := C75_steam .bare 10 900 (by simpa using region2_point) (by rw [Quantity.si_bare]; norm_num)
    (.inl (by rw [Quantity.si_bare]; norm_num))
  exact ⟨rho, _, a, b⟩
example : ∃ rho h' : ℝ, XSteam.rho_pt .ideal .bare (.fin 20) (.fin 900) = pure (.fin rho) ∧ XSteam.h_prho .ideal .bare (.fin 20) (.fin rho) = pure (.fin h') := by
  have hr : InRegion 2 20 900 := by
    refine .inr (.inr (.inr (.inr (.inl ⟨rfl, ?_, ?_, ?_⟩)))) <;> norm_num [Box, b23]
  obtain ⟨rho, _, h', _, _, a, -, -, -, -, -, -, b⟩ := C75_steam .bare 20 900 (by simpa using hr) (by rw [Quantity.si_bare]; norm_num)
    (.inr ⟨by rw [Quantity.si_bare]; norm_num, by rw [Quantity.si_bare]; norm_num, by rw [Quantity.si_bare, Quantity.si_bare]; norm_num [b23]⟩)
  exact ⟨rho, _, a, b⟩

/-- wet steam of quality 1/2 at 1 MPa -/
example : ∃ a b h : ℝ, XSteam.vL_p .ideal .bare (.fin 1) = pure (.fin a) ∧ XSteam.vV_p .ideal .bare (.fin 1) = pure (.fin b) ∧ a < b ∧
    XSteam.h_prho .ideal .bare (.fin 1) (.fin (1 / (a + 0.5 * (b - a)))) = pure (.fin h) := by
  obtain ⟨a, b, h, e1, e2, -, e3, -, e4⟩ := C75_wet .bare 1 0.5 (by rw [Quantity.si_bare]; norm_num) (by rw [Quantity.si_bare]; norm_num) (by norm_num) (by norm_num)
  exact ⟨a, b, h, e1, e2, e3, e4⟩

/-- steam at 1 MPa: 2100 K is refused, 1200 K is not -/
example : ∃ rho : ℝ, XSteam.rho_pt .ideal .bare (.fin 1) (.fin 2100) = pure (.fin rho) ∧ (XSteam.h_prho .ideal .bare (.fin 1) (.fin rho)).out = .ok .nan := by
  have hr : InRegion 5 1 2100 := .inr (.inl ⟨rfl, by norm_num [Hot]⟩)
  obtain ⟨_, rho, -, a, -, b, -⟩ := C76_hot_steam_refused .bare 1 2100 (by simpa using hr)
    (.inl ⟨by rw [Quantity.si_bare]; norm_num, by rw [Quantity.si_bare]; norm_num, by rw [Quantity.si_bare]; norm_num⟩)
  exact ⟨rho, a, b⟩
example : ∃ v : ℝ, Region5.v5_pT .ideal (.fin 1) (.fin 1200) = pure (.fin v) ∧ RegionSelection.region_prho .ideal (.fin 1) (.fin (1 / v)) = pure 5 :=
  ⟨_, v5_pT_eq ⟨by norm_num, by norm_num⟩, C76_region5 1 1200 _ (by norm_num) (by norm_num) (by norm_num) (by norm_num) (v5_pT_eq ⟨by norm_num, by norm_num⟩)⟩

end PyX
