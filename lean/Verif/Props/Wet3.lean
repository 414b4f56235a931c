import Verif.Props.Sat3
import Verif.Props.Converge
import Verif.Props.Phases

/-!
# C68: the enthalpies of saturated liquid and steam in region 3

From 16.529 MPa on `h4L_p` and `h4V_p` search for the enthalpy at which the saturation pressure of region 3 takes the given value.
-/

namespace PyX

open Classical Py Num Spec.Sat Spec.Sat3

section
variable {c : Num → Prop} {f : Num → Py Num} {up : Num → Prop} {msg : String} {g : ℝ → ℝ} {lo hi lo' hi' xs tol L : ℝ}

/-- the passes after the first, where the function need not be one-to-one at the ends of the interval, since the search does not come there -/
theorem bisect_inner (hf : ∀ x ∈ Set.Icc lo hi, f (.fin x) = pure (.fin (g x))) (hg : Set.InjOn g (Set.Icc lo' hi'))
    (hc : ∀ r : ℝ, c (.fin r) ↔ tol < |g xs - r|)
    (hu : ∀ x ∈ Set.Icc lo hi, up (.fin (g x)) → xs ≤ x) (hd : ∀ x ∈ Set.Icc lo hi, ¬ up (.fin (g x)) → x ≤ xs)
    (hL : ∀ x ∈ Set.Icc lo hi, |g xs - g x| ≤ L * |xs - x|) (hL0 : 0 ≤ L) (hlo : lo ≤ lo') (hhi : hi' ≤ hi)
    (hl : ∀ x ∈ Set.Icc lo hi, tol < |g xs - g x| → up (.fin (g x)) → lo' ≤ (lo + x) / 2)
    (hh : ∀ x ∈ Set.Icc lo hi, tol < |g xs - g x| → ¬ up (.fin (g x)) → (x + hi) / 2 ≤ hi') (n : ℕ) :
    ∀ a b x, lo ≤ a → a < b → b ≤ hi → a ≤ xs → xs ≤ b → x ∈ Set.Icc lo' hi' →
      (x = a ∧ ¬ up (.fin (g a)) ∧ (b = hi ∨ b ≤ hi' ∧ lo' ≤ (lo + b) / 2) ∨ x = b ∧ up (.fin (g b)) ∧ (a = lo ∨ lo' ≤ a ∧ (a + hi) / 2 ≤ hi')) →
      L * (b - a) ≤ tol * 2 ^ n →
      ∃ x' ∈ Set.Icc lo' hi', |g xs - g x'| ≤ tol ∧
        (whileLoop (bisectPass .ideal c f up msg) (some (.fin x), .fin (g x), .fin b, .fin a) >>= fun s => getVar s.1) = pure (.fin x') := by
  induction n with
  | zero =>
    intro a b x h1 h2 h3 h4 h5 hx0 hx hn
    have m : x ∈ Set.Icc lo hi := ⟨hlo.trans hx0.1, hx0.2.trans hhi⟩
    have d : |xs - x| ≤ b - a := by rcases hx with ⟨rfl, -⟩ | ⟨rfl, -⟩ <;> rw [abs_le] <;> constructor <;> linarith
    have e : |g xs - g x| ≤ tol := (hL x m).trans ((mul_le_mul_of_nonneg_left d hL0).trans (by simpa using hn))
    refine ⟨x, hx0, e, ?_⟩
    rw [whileLoop_eq]
    simp only [bisectPass, if_neg (fun h => absurd ((hc _).1 h) (not_lt.2 e)), pure_bind, getVar]
  | succ n ih =>
    intro a b x h1 h2 h3 h4 h5 hx0 hx hn
    have m : x ∈ Set.Icc lo hi := ⟨hlo.trans hx0.1, hx0.2.trans hhi⟩
    by_cases hs : tol < |g xs - g x|
    · have m' : (a + b) / 2 ∈ Set.Icc lo hi := by constructor <;> linarith
      obtain ⟨pa, pb, m2⟩ : (a = lo ∨ lo' ≤ a ∧ (a + hi) / 2 ≤ hi') ∧ (b = hi ∨ b ≤ hi' ∧ lo' ≤ (lo + b) / 2) ∧
          (a + b) / 2 ∈ Set.Icc lo' hi' := by
        rcases hx with ⟨rfl, hx1, hx2⟩ | ⟨rfl, hx1, hx2⟩
        · have := hh _ m hs hx1
          refine ⟨.inr ⟨hx0.1, this⟩, hx2, by linarith [hx0.1], ?_⟩
          rcases hx2 with rfl | hx2
          · exact this
          · linarith [hx0.2]
        · have := hl _ m hs hx1
          refine ⟨hx2, .inr ⟨hx0.2, this⟩, ?_, by linarith [hx0.2]⟩
          rcases hx2 with rfl | hx2
          · exact this
          · linarith [hx0.1]
      have ne : ¬ Num.feq (.fin (g x)) (.fin (g ((a + b) / 2))) := fun h => by
        have := hg hx0 m2 h
        rcases hx with ⟨rfl, -⟩ | ⟨rfl, -⟩ <;> linarith
      have hn' : L * ((b - a) / 2) ≤ tol * 2 ^ n := by rw [pow_succ] at hn; linarith
      rw [whileLoop_eq]
      simp only [bisectPass, if_pos ((hc _).2 hs), FP.div_two, mid_ideal, pure_bind, hf _ m', if_neg ne]
      by_cases hup : up (.fin (g ((a + b) / 2)))
      · simp only [if_pos hup, pure_bind]
        exact ih a _ _ h1 (by linarith) (by linarith) h4 (hu _ m' hup) m2 (.inr ⟨rfl, hup, pa⟩) (by linarith)
      · simp only [if_neg hup, pure_bind]
        exact ih _ b _ (by linarith) (by linarith) h3 (hd _ m' hup) h5 m2 (.inl ⟨rfl, hup, pb⟩) (by linarith)
    · refine ⟨x, hx0, not_lt.1 hs, ?_⟩
      rw [whileLoop_eq]
      simp only [bisectPass, if_neg (fun h => absurd ((hc _).1 h) hs), pure_bind, getVar]

theorem bisect_inner_converges (hf : ∀ x ∈ Set.Icc lo hi, f (.fin x) = pure (.fin (g x))) (hg : Set.InjOn g (Set.Icc lo' hi'))
    (hc : ∀ r : ℝ, c (.fin r) ↔ tol < |g xs - r|)
    (hu : ∀ x ∈ Set.Icc lo hi, up (.fin (g x)) → xs ≤ x) (hd : ∀ x ∈ Set.Icc lo hi, ¬ up (.fin (g x)) → x ≤ xs)
    (hL : ∀ x ∈ Set.Icc lo hi, |g xs - g x| ≤ L * |xs - x|) (hL0 : 0 ≤ L) (hlo : lo ≤ lo') (hhi : hi' ≤ hi)
    (hl : ∀ x ∈ Set.Icc lo hi, tol < |g xs - g x| → up (.fin (g x)) → lo' ≤ (lo + x) / 2)
    (hh : ∀ x ∈ Set.Icc lo hi, tol < |g xs - g x| → ¬ up (.fin (g x)) → (x + hi) / 2 ≤ hi') (ht : 0 < tol) (hlh : lo < hi)
    (hx : xs ∈ Set.Icc lo hi) (hmid : (lo + hi) / 2 ∈ Set.Icc lo' hi') {r : ℝ} (hr : tol < |g xs - r|) (hm : r ≠ g ((lo + hi) / 2)) :
    ∃ x' ∈ Set.Icc lo' hi', |g xs - g x'| ≤ tol ∧
      (whileLoop (bisectPass .ideal c f up msg) (none, .fin r, .fin hi, .fin lo) >>= fun s => getVar s.1) = pure (.fin x') := by
  obtain ⟨n, hn⟩ := pow_unbounded_of_one_lt (L * (hi - lo) / tol) one_lt_two
  rw [div_lt_iff₀ ht] at hn
  have m' : (lo + hi) / 2 ∈ Set.Icc lo hi := by constructor <;> linarith
  have hL1 : L * ((hi - lo) / 2) ≤ tol * 2 ^ n := by
    have : 0 ≤ L * (hi - lo) := mul_nonneg hL0 (by linarith)
    linarith
  have ne : ¬ Num.feq (.fin r) (.fin (g ((lo + hi) / 2))) := fun h => hm h
  rw [whileLoop_eq]
  simp only [bisectPass, if_pos ((hc _).2 hr), FP.div_two, mid_ideal, pure_bind, hf _ m', if_neg ne]
  by_cases hup : up (.fin (g ((lo + hi) / 2)))
  · simp only [if_pos hup, pure_bind]
    exact bisect_inner hf hg hc hu hd hL hL0 hlo hhi hl hh n lo _ _ le_rfl (by linarith) (by linarith) hx.1 (hu _ m' hup) hmid
      (.inr ⟨rfl, hup, .inl rfl⟩) (by linarith)
  · simp only [if_neg hup, pure_bind]
    exact bisect_inner hf hg hc hu hd hL hL0 hlo hhi hl hh n _ hi _ (by linarith) (by linarith) le_rfl (hd _ m' hup) hx.2 hmid
      (.inl ⟨rfl, hup, .inl rfl⟩) (by linarith)
end

/-! ## Roots -/

variable {p h : ℝ}

theorem psH_num : psH 1670.858218 < 16.5285 ∧ 22.06395 < psH 2086.7 ∧ 22.06395 < psH 2087.8 ∧ psH 2568.592004 < 16.4 ∧
    0 < psH 1879.04660982432 ∧ 0 < psH 2327.91350282432 := by
  have e : ∀ h : ℝ, psH h = psH h * Univ.hDen / Univ.hDen := fun h => by
    rw [mul_div_cancel_right₀]
    norm_num [Univ.hDen]
  refine ⟨?_, ?_, ?_, ?_, ?_, ?_⟩ <;> rw [e, psH_eq] <;> norm_num [Univ.hTs, Univ.psum, Univ.hDen]

/-- the enthalpy of saturated liquid: the root on the rising branch -/
theorem liquid_root (h0 : 16.529 ≤ p) (h1 : p < 22.06395) : ∃ a ∈ Set.Icc (1670.858218 : ℝ) 2086.7, psH a = p :=
  intermediate_value_Icc (by norm_num) psH_cont.continuousOn (show p ∈ Set.Icc _ _ by
    have := psH_num
    constructor <;> linarith)

/-- the enthalpy of saturated steam: the root on the falling branch -/
theorem vapour_root (h0 : 16.529 ≤ p) (h1 : p < 22.06395) : ∃ b ∈ Set.Icc (2087.8 : ℝ) 2568.592004, psH b = p :=
  intermediate_value_Icc' (by norm_num) psH_cont.continuousOn (show p ∈ Set.Icc _ _ by
    have := psH_num
    constructor <;> linarith)

theorem psH_lt_iff_liquid {a : ℝ} (ha : a ∈ Set.Icc (1500 : ℝ) 2087) (hp : psH a < 22.06395) (h0 : 1500 ≤ h) (h1 : h < 2087.5) :
    psH h < psH a ↔ h < a := by
  rcases le_or_gt h 2087 with h2 | h2
  · exact psH_strictMono.lt_iff_lt ⟨h0, h2⟩ ha
  · have := psH_mid h2.le h1
    constructor
    · intro; linarith
    · intro; linarith [ha.2]

theorem psH_lt_iff_vapour {b : ℝ} (hb : b ∈ Set.Icc (2087.5 : ℝ) 2880) (hp : psH b < 22.06395) (h0 : 2087 ≤ h) (h1 : h ≤ 2880) :
    psH h < psH b ↔ b < h := by
  rcases le_or_gt 2087.5 h with h2 | h2
  · exact psH_strictAnti.lt_iff_gt ⟨h2, h1⟩ hb
  · have := psH_mid h0 h2
    constructor
    · intro; linarith
    · intro; linarith [hb.1]

private theorem q1 : FP.ideal.lit 0.000611657 = .fin 0.000611657 := by rw [lit_ideal]; norm_num
private theorem q2 : FP.ideal.lit 22.06395 = .fin 22.06395 := by rw [lit_ideal]; norm_num
private theorem q3 : FP.ideal.lit 16.529 = .fin 16.529 := by rw [lit_ideal]; norm_num
private theorem q4 : FP.ideal.lit 1670.858218 = .fin 1670.858218 := by rw [lit_ideal]; norm_num
private theorem q5 : FP.ideal.lit 2087.23500164864 = .fin 2087.23500164864 := by rw [lit_ideal]; norm_num
private theorem q6 : FP.ideal.add (FP.ideal.lit 2563.592004) (Num.ofInt 5) = .fin 2568.592004 := by
  rw [lit_ideal, ofInt_eq, add_ideal]; norm_num
private theorem q7 : FP.ideal.lit 0.00001 = .fin 0.00001 := by rw [lit_ideal]; norm_num
private theorem q8 : FP.ideal.lit 0.000001 = .fin 0.000001 := by rw [lit_ideal]; norm_num
private theorem q9 : Num.ofInt (-1000) = .fin (-1000) := by rw [ofInt_eq]; norm_num

/-- **C68**: the enthalpy of saturated liquid in region 3 is found: at it the saturation pressure is the one given, to within 10⁻⁵ MPa -/
theorem C68_h4L_p (p : ℝ) (h0 : 16.529 ≤ p) (h1 : p < 22.06395) :
    ∃ h : ℝ, Region4.h4L_p .ideal (.fin p) = pure (.fin h) ∧ h ∈ Set.Icc (1670.858218 : ℝ) 2087 ∧ |psH h - p| ≤ 1e-5 := by
  obtain ⟨a, ha, ea⟩ := liquid_root h0 h1
  have ha' : a ∈ Set.Icc (1500 : ℝ) 2087 := ⟨by linarith [ha.1], by linarith [ha.2]⟩
  have lt : ∀ x : ℝ, 1670.858218 ≤ x → x ≤ 2087.23500164864 → (psH x < p ↔ x < a) := fun x x0 x1 => by
    rw [← ea]
    exact psH_lt_iff_liquid ha' (by rw [ea]; exact h1) (by linarith) (by linarith)
  obtain ⟨h, m, e, r⟩ := bisect_inner_converges (g := psH) (xs := a) (tol := 0.00001) (L := 1) (lo := 1670.858218) (hi := 2087.23500164864)
    (lo' := 1670.858218) (hi' := 2087) (r := -1000)
    (c := fun r => Num.fabs (FP.ideal.sub (.fin p) r) > FP.ideal.lit 0.00001) (f := fun x => RegionBorders.p3sat_h .ideal x)
    (up := fun r => r > .fin p) (msg := "h4L_p stopped iterating after %d steps because values did not converge")
    (fun x _ => p3sat_h_eq x) ((psH_strictMono.mono fun x hx => ⟨by linarith [hx.1], hx.2⟩).injOn)
    (fun r => by rw [q7, sub_ideal, Num.fabs, gt_num, fin_lt, ea])
    (fun x hx hu => by
      rw [gt_num, fin_lt] at hu
      by_contra hc
      linarith [(lt x hx.1 hx.2).2 (not_le.1 hc)])
    (fun x hx hu => by
      rw [gt_num, fin_lt, not_lt] at hu
      by_contra hc
      have hx' := not_le.1 hc
      rcases le_or_gt x 2087 with h2 | h2
      · have := psH_strictMono ha' ⟨by linarith [hx.1], h2⟩ hx'
        linarith
      · linarith [psH_mid h2.le (by linarith [hx.2])])
    (fun x hx => psH_lip ⟨by linarith [ha.1], by linarith [ha.2]⟩ ⟨by linarith [hx.1], by linarith [hx.2]⟩) (by norm_num) le_rfl (by norm_num)
    (fun x hx _ _ => by linarith [hx.1])
    (fun x hx ht hu => by
      rw [gt_num, fin_lt, not_lt] at hu
      have hx2 : x < 2086.7 := by
        by_contra hc
        rcases le_or_gt x 2087 with h2 | h2
        · have := psH_strictMono.monotoneOn (show (2086.7 : ℝ) ∈ _ by norm_num) ⟨by linarith [hx.1], h2⟩ (not_lt.1 hc)
          linarith [psH_num.2.1]
        · linarith [psH_mid h2.le (by linarith [hx.2])]
      linarith) (by norm_num) (by norm_num) ⟨ha.1, by linarith [ha.2]⟩ (by norm_num)
    (by rw [ea, abs_of_nonneg (by linarith)]; linarith)
    (by have := psH_num.2.2.2.2.1; norm_num at this ⊢; intro h; linarith)
  refine ⟨h, ?_, m, by rw [abs_sub_comm, ← ea]; norm_num at e ⊢; exact e⟩
  unfold Region4.h4L_p
  rw [Region4.h4L_p.pass_eq]
  simp only [q1, q2, q3, q4, q5, q9, gt_num, fin_lt, T4_p_eq (show 0.000611657 < p by linarith) h1, pure_bind, bind_pure]
  rw [if_pos ⟨by linarith, h1⟩, if_neg (by linarith)]
  exact r

/-- **C68**: the enthalpy of saturated steam in region 3 is found: at it the saturation pressure is the one given, to within 10⁻⁶ MPa -/
theorem C68_h4V_p (p : ℝ) (h0 : 16.529 ≤ p) (h1 : p < 22.06395) :
    ∃ h : ℝ, Region4.h4V_p .ideal (.fin p) = pure (.fin h) ∧ h ∈ Set.Icc (2087.5 : ℝ) 2568.592004 ∧ |psH h - p| ≤ 1e-6 := by
  obtain ⟨a, ha, ea⟩ := vapour_root h0 h1
  have ha' : a ∈ Set.Icc (2087.5 : ℝ) 2880 := ⟨by linarith [ha.1], by linarith [ha.2]⟩
  have lt : ∀ x : ℝ, 2087.23500164864 ≤ x → x ≤ 2568.592004 → (psH x < p ↔ a < x) := fun x x0 x1 => by
    rw [← ea]
    exact psH_lt_iff_vapour ha' (by rw [ea]; exact h1) (by linarith) (by linarith)
  obtain ⟨h, m, e, r⟩ := bisect_inner_converges (g := psH) (xs := a) (tol := 0.000001) (L := 1) (lo := 2087.23500164864) (hi := 2568.592004)
    (lo' := 2087.5) (hi' := 2568.592004) (r := -1000)
    (c := fun r => Num.fabs (FP.ideal.sub (.fin p) r) > FP.ideal.lit 0.000001) (f := fun x => RegionBorders.p3sat_h .ideal x)
    (up := fun r => r < .fin p) (msg := "h4V_p stopped iterating after %d steps because values did not converge")
    (fun x _ => p3sat_h_eq x) ((psH_strictAnti.mono fun x hx => ⟨hx.1, by linarith [hx.2]⟩).injOn)
    (fun r => by rw [q8, sub_ideal, Num.fabs, gt_num, fin_lt, ea])
    (fun x hx hu => by
      rw [fin_lt] at hu
      exact ((lt x hx.1 hx.2).1 hu).le)
    (fun x hx hu => by
      rw [fin_lt] at hu
      by_contra hc
      exact hu ((lt x hx.1 hx.2).2 (not_le.1 hc)))
    (fun x hx => psH_lip ⟨by linarith [ha.1], by linarith [ha.2]⟩ ⟨by linarith [hx.1], by linarith [hx.2]⟩) (by norm_num) (by norm_num) le_rfl
    (fun x hx ht hu => by
      rw [fin_lt] at hu
      have hx2 : 2087.8 < x := by
        by_contra hc
        rcases le_or_gt 2087.5 x with h2 | h2
        · have := psH_strictAnti.antitoneOn ⟨h2, by linarith [hx.2]⟩ (show (2087.8 : ℝ) ∈ _ by norm_num) (not_lt.1 hc)
          linarith [psH_num.2.2.1]
        · linarith [psH_mid (by linarith [hx.1]) h2]
      linarith)
    (fun x hx _ _ => by linarith [hx.2]) (by norm_num) (by norm_num) ⟨by linarith [ha.1], ha.2⟩ (by norm_num)
    (by rw [ea, abs_of_nonneg (by linarith)]; linarith)
    (by have := psH_num.2.2.2.2.2; norm_num at this ⊢; intro h; linarith)
  refine ⟨h, ?_, m, by rw [abs_sub_comm, ← ea]; norm_num at e ⊢; exact e⟩
  unfold Region4.h4V_p
  rw [Region4.h4V_p.pass_eq]
  simp only [q1, q2, q3, q5, q6, q9, gt_num, fin_lt, T4_p_eq (show 0.000611657 < p by linarith) h1, pure_bind, bind_pure]
  rw [if_pos ⟨by linarith, h1⟩, if_neg (by linarith)]
  exact r

end PyX
