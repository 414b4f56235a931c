import Verif.Props.Total
import Verif.Spec.Rough

/-!
# C45: `t_hs`, `p_hs` and `tc_hs` always stop

`T4_hs` searches the pressure of wet steam between 0.000611 MPa and the pressure `p3sat_h` of the saturation line of region 3. For
enthalpies far from that line this pressure is no pressure at all. Up to 10⁶ MPa the bracket shrinks below 10⁻⁷ MPa
(`width_terminates`); otherwise the first pass already raises or gives NaN, because the specific volume it computes is not positive.
-/

namespace PyX

open Classical Py Num

variable {F : FP} {D : Prop}

/-- a loop that meets NaN in its first pass ends -/
theorem width_nan {c : Num → Prop} {f : Num → Py Num} {up : Num → Prop} {tol : ℚ} (hc : ¬ c .nan) (x : Option Num) (r hi lo : Num)
    (hf : Clean D (f (F.mid lo hi))) (hn : Post (f (F.mid lo hi)) (fun _ r => r = .nan) (fun _ => True) True) :
    Clean D (whileLoop (widthPass F c tol f up) (x, r, hi, lo)) := by
  rw [whileLoop_eq]
  simp only [widthPass]
  split
  swap
  · exact Clean.ret _
  rw [FP.div_two, pure_bind, bind_assoc]
  generalize f (F.mid lo hi) = y at hf hn
  rcases y with ⟨l, o⟩
  cases o with
  | raise e => exact hf
  | diverge => exact hf
  | ok r' =>
    have : r' = .nan := hn
    subst this
    have pre : ∀ y : Py BState, Clean D y → Clean D (Py.prepend l y) := by
      intro y hy
      rcases y with ⟨l', o⟩
      cases o <;> exact hy
    have e : ∀ a b d, Clean D (whileLoop (widthPass F c tol f up) (a, .nan, b, d)) := by
      intro a b d
      rw [whileLoop_eq]
      simp only [widthPass, hc, false_and, if_false]
      exact Clean.ret _
    apply pre
    beta_reduce
    split
    · rw [pure_bind]; exact e _ _ _
    · rw [pure_bind]; exact e _ _ _

/-! ## Region 3 at a density that is not positive -/

/-- not a positive number -/
def NotPos : Num → Prop
  | .nan => True
  | .inf s => s = true
  | .fin r => r ≤ 0

theorem rnd_nonpos (hF : F.Grid) {x : ℝ} (h : x ≤ 0) : NotPos (F.rnd x) := by
  have z : F.rnd 0 = .fin 0 := by simpa using hF.int_exact 0 (by norm_num)
  rcases e : F.rnd x with _ | s | y
  · trivial
  · cases s with
    | true => rfl
    | false => exact absurd (hF.inf_pos x 0 h e) (by rw [z]; simp)
  · exact hF.mono x 0 y 0 h e z

theorem log_notPos {a : Num} (h : NotPos a) : Post (F.log a) (fun _ r => r = .nan) (fun _ => True) True := by
  rcases a with _ | s | r
  · exact Post.ret rfl
  · rw [show s = true from h]
    exact Post.raise trivial
  · rw [FP.log, if_pos (show r ≤ 0 from h)]
    exact Post.raise trivial

theorem div_nan_right (a : Num) : Post (F.div a .nan) (fun _ r => r = .nan) (fun _ => True) True := by
  cases a <;> exact Post.ret rfl

theorem div_notPos (hF : F.Grid) {a : Num} (h : NotPos a) {b : ℝ} (hb : 0 < b) :
    Post (F.div a (.fin b)) (fun _ r => NotPos r) (fun _ => True) True := by
  rcases a with _ | s | r <;> simp only [FP.div, if_neg hb.ne']
  · exact Post.ret trivial
  · refine Post.ret ?_
    rw [show s = true from h]
    simp [NotPos, hb.le]
  · exact Post.ret (rnd_nonpos hF (div_nonpos_of_nonpos_of_nonneg h hb.le))

theorem one_div_notPos (hF : F.Grid) {v : Num} (h : ∀ r : ℝ, v = .fin r → r ≤ 0) :
    Post (F.div (.ofInt 1) v) (fun _ r => NotPos r) (fun _ => True) True := by
  rcases v with _ | s | r
  · exact Post.ret trivial
  · exact Post.ret le_rfl
  · simp only [FP.div, Num.ofInt]
    split
    · exact Post.raise trivial
    · exact Post.ret (rnd_nonpos hF (div_nonpos_of_nonneg_of_nonpos (by norm_num) (h r rfl)))

theorem Grid.lit_pos (hF : F.Grid) (q : ℚ) (h0 : (1e-6 : ℝ) ≤ q) (h1 : (q : ℝ) ≤ 4000000) : ∃ y : ℝ, F.lit q = .fin y ∧ 0 < y ∧ |y - q| ≤ 1e-9 := by
  obtain ⟨y, hy, e⟩ := hF.fine q (by rw [abs_le]; constructor <;> linarith)
  exact ⟨y, hy, by linarith [(abs_le.1 e).1], e⟩

theorem s3_notPos (hF : F.Grid) {rho : Num} (h : NotPos rho) (T : Num) :
    Post (Region3.s3_rhoT F rho T) (fun _ r => r = .nan) (fun _ => True) True := by
  unfold Region3.s3_rhoT
  obtain ⟨y, hy, y0, -⟩ := Grid.lit_pos hF 322.0 (by norm_num) (by norm_num)
  simp only [hy]
  apply Post.bind
  refine (div_notPos hF h y0).mono (fun _ d hd => ?_) (fun _ _ => trivial) id
  apply Post.bind
  refine Post.any (fun _ tau => ?_) (fun _ => trivial) trivial
  apply Post.bind
  refine Post.any (fun _ st => ?_) (fun _ => trivial) trivial
  apply Post.bind
  refine Post.any (fun _ n0 => ?_) (fun _ => trivial) trivial
  apply Post.bind
  refine (log_notPos hd).mono (fun _ g hg => ?_) (fun _ _ => trivial) id
  subst hg
  refine Post.ret ?_
  simp only [mul_nan_right, add_nan_right, sub_nan_right]

theorem s3_nan (rho : Num) : Post (Region3.s3_rhoT F rho .nan) (fun _ r => r = .nan) (fun _ => True) True := by
  unfold Region3.s3_rhoT
  apply Post.bind
  refine Post.any (fun _ d => ?_) (fun _ => trivial) trivial
  apply Post.bind
  refine (div_nan_right _).mono (fun _ tau ht => ?_) (fun _ _ => trivial) id
  subst ht
  apply Post.bind
  refine Post.any (fun _ st => ?_) (fun _ => trivial) trivial
  apply Post.bind
  refine Post.any (fun _ n0 => ?_) (fun _ => trivial) trivial
  apply Post.bind
  refine Post.any (fun _ g => ?_) (fun _ => trivial) trivial
  refine Post.ret ?_
  simp only [mul_nan_left, mul_nan_right, sub_nan_left]

/-! ## The specific volume at an absurd pressure -/

theorem Post.forRange' {σ : Type} {b : ℕ} {s : σ} {f : ℕ → σ → Py σ} {E : Err → Prop} {D : Prop}
    (I : ℕ → σ → Prop) (h0 : I 0 s) (h : ∀ i s, i < b → I i s → Post (f i s) (fun _ s' => I (i + 1) s') E D) :
    Post (PyX.forRange 0 b s f) (fun _ s' => I b s') E D := by
  have key : ∀ k a s, I a s → (∀ i s, i < a + k → I i s → Post (f i s) (fun _ s' => I (i + 1) s') E D) →
      Post (PyX.forRange a (a + k) s f) (fun _ s' => I (a + k) s') E D := by
    intro k
    induction k with
    | zero => intro a s h0 _; simpa [forRange_self] using Post.ret h0
    | succ k ih =>
      intro a s h0 h
      rw [forRange_lt (by omega)]
      apply Post.bind
      refine (h a s (by omega) h0).mono (fun l s' hs' => ?_) (fun _ h => h) (fun h => h)
      have := ih (a + 1) s' hs' (fun i s h1 h2 => h i s (by omega) h2)
      rwa [show a + 1 + k = a + (k + 1) by omega] at this
  simpa using key b 0 s h0 (by simpa using h)

section
variable (hF : F.Grid) (hR : F.Rough)
include hR

theorem FP.Rough.le {x y : ℝ} (h : F.rnd x = .fin y) : |y| ≤ (1 + 1e-6) * |x| + 1e-200 := by
  have := hR.rel x y h
  have := abs_sub_abs_le_abs_sub y x
  linarith

/-- the value of an integer power, where it has one -/
theorem FP.Rough.pow_le {x : ℝ} (hx : x ≠ 0) (n : ℤ) :
    Post (F.pow (.fin x) (.ofInt n)) (fun _ r => ∃ y, r = .fin y ∧ |y - x ^ n| ≤ 1e-6 * |x ^ n| + 1e-200) (fun _ => True) True := by
  simp only [FP.pow, Num.ofInt]
  split_ifs with h1 h2
  · have : n = 0 := by exact_mod_cast h1
    subst this
    refine Post.ret ⟨1, rfl, ?_⟩
    norm_num
  · exact absurd h2.2 (not_not.2 ⟨n, rfl⟩)
  · split
    · exact Post.raise trivial
    · rename_i hn
      rcases e : F.powr x n with _ | s | y
      · exact absurd e (hR.pow_not_nan _ _)
      · exact absurd e (hn s)
      · exact Post.ret ⟨y, rfl, hR.pow_rel x n y e⟩

theorem FP.Rough.pow_le' {x : ℝ} (hx : x ≠ 0) (n : ℤ) (hn0 : n ≠ 0 := by norm_num) :
    Post (F.pow (.fin x) (.ofInt n))
      (fun _ r => ∃ y, r = .fin y ∧ |y - x ^ n| ≤ 1e-6 * |x ^ n| + 1e-200 ∧ F.rnd y = .fin y) (fun _ => True) True := by
  simp only [FP.pow, Num.ofInt]
  split_ifs with h1 h2
  · exact absurd (by exact_mod_cast h1) hn0
  · exact absurd h2.2 (not_not.2 ⟨n, rfl⟩)
  · split
    · exact Post.raise trivial
    · rename_i hn
      rcases e : F.powr x n with _ | s | y
      · exact absurd e (hR.pow_not_nan _ _)
      · exact absurd e (hn s)
      · exact Post.ret ⟨y, rfl, hR.pow_rel x n y e, hR.pow_float _ _ _ e⟩

omit hR in
theorem v3_table : ∀ i < 31, |Region3.v3_ph.ni.getD i 0| * 49 ^ (Region3.v3_ph.Ji.getD i 0).toNat ≤
      1000000 * 5000 ^ (5 - Region3.v3_ph.Ii.getD i 0).toNat ∧ 0 ≤ Region3.v3_ph.Ji.getD i 0 ∧ Region3.v3_ph.Ii.getD i 0 ≤ 5 ∧
      -12 ≤ Region3.v3_ph.Ii.getD i 0 ∧ 1e-6 ≤ |Region3.v3_ph.ni.getD i 0| := by
  decide +kernel

/-- one term of the sum but the last -/
theorem v3_term {x y : ℝ} (hx : 5000 ≤ x) (hy1 : -49 ≤ y) (hy2 : y ≤ -48) {n : ℚ} {I J : ℤ}
    (hn : |n| * 49 ^ J.toNat ≤ 1000000 * 5000 ^ (5 - I).toNat) (hJ : 0 ≤ J) (hI : I ≤ 5) (hI' : -12 ≤ I) (hn' : 1e-6 ≤ |n|)
    {n' u w m t : ℝ} (h1 : F.lit n = .fin n') (h2 : |u - x ^ I| ≤ 1e-6 * |x ^ I| + 1e-200) (h3 : |w - y ^ J| ≤ 1e-6 * |y ^ J| + 1e-200)
    (h4 : F.rnd (n' * u) = .fin m) (h5 : F.rnd (m * w) = .fin t) : |t| ≤ 1.3e8 * x ^ 5 := by
  have hn : |(n : ℝ)| * 49 ^ J.toNat ≤ 1000000 * 5000 ^ (5 - I).toNat := by exact_mod_cast hn
  have hn' : (1e-6 : ℝ) ≤ |(n : ℝ)| := by
    have : ((1e-6 : ℚ) : ℝ) ≤ ((|n| : ℚ) : ℝ) := by exact_mod_cast hn'
    push_cast at this
    norm_num at this ⊢
    exact this
  obtain ⟨k, rfl⟩ : ∃ k : ℕ, I = 5 - k := ⟨(5 - I).toNat, by omega⟩
  obtain ⟨j, rfl⟩ : ∃ j : ℕ, J = j := ⟨J.toNat, by omega⟩
  rw [show (5 - (5 - (k : ℤ))).toNat = k by omega] at hn
  rw [Int.toNat_natCast] at hn
  have k17 : k ≤ 17 := by omega
  rw [zpow_natCast] at h3
  have x0 : 0 < x := by linarith
  -- the powers
  set X : ℝ := x ^ 5 / 5000 ^ k with hX
  set Y : ℝ := 49 ^ j with hY
  have eI : x ^ (5 - (k : ℤ)) ≤ X := by
    rw [zpow_sub₀ x0.ne', zpow_natCast, hX]
    have : x ^ (5 : ℤ) = x ^ 5 := by norm_cast
    rw [this]
    exact div_le_div_of_nonneg_left (by positivity) (by positivity) (pow_le_pow_left₀ (by norm_num) hx k)
  have X0 : (1e-46 : ℝ) ≤ X := by
    rw [hX, le_div_iff₀ (by positivity)]
    have a : (5000 : ℝ) ^ k ≤ 5000 ^ 17 := pow_le_pow_right₀ (by norm_num) k17
    have b : (5000 : ℝ) ^ 5 ≤ x ^ 5 := pow_le_pow_left₀ (by norm_num) hx 5
    have c : (1e-46 : ℝ) * 5000 ^ 17 ≤ 5000 ^ 5 := by norm_num
    nlinarith
  have Y1 : (1 : ℝ) ≤ Y := one_le_pow₀ (by norm_num)
  have eJ : |y ^ j| ≤ Y := by
    rw [abs_pow]
    exact pow_le_pow_left₀ (abs_nonneg _) (abs_le.2 ⟨hy1, by linarith⟩) j
  have xp : 0 < x ^ (5 - (k : ℤ)) := zpow_pos x0 _
  have small : (0 : ℝ) ≤ 1e-200 := by norm_num
  have u1 : |u| ≤ 1.1 * X := by
    have := abs_sub_abs_le_abs_sub u (x ^ (5 - (k : ℤ)))
    rw [abs_of_pos xp] at h2 this
    have : (1e-200 : ℝ) ≤ 1e-2 * 1e-46 := by norm_num
    linarith
  have w1 : |w| ≤ 1.1 * Y := by
    have := abs_sub_abs_le_abs_sub w (y ^ j)
    have : (1e-200 : ℝ) ≤ 1e-2 * 1 := by norm_num
    linarith
  have n1 : |n'| ≤ 1.1 * |(n : ℝ)| := by
    have := hR.le h1
    have : (1e-200 : ℝ) ≤ 1e-2 * 1e-6 := by norm_num
    linarith
  have nX : (1e-52 : ℝ) ≤ |(n : ℝ)| * X := by
    have := mul_le_mul hn' X0 (by norm_num) (abs_nonneg _)
    norm_num at this ⊢
    linarith
  have m1 : |m| ≤ 1.3 * (|(n : ℝ)| * X) := by
    have := hR.le h4
    rw [abs_mul] at this
    have a := mul_le_mul n1 u1 (abs_nonneg _) (by positivity)
    have : (1e-200 : ℝ) ≤ 1e-2 * 1e-52 := by norm_num
    nlinarith
  have t1 : |t| ≤ 1.3 * 1.2 * (|(n : ℝ)| * X) * Y := by
    have := hR.le h5
    rw [abs_mul] at this
    have a := mul_le_mul m1 w1 (abs_nonneg _) (by positivity)
    have : (1e-200 : ℝ) ≤ 1e-2 * 1e-52 := by norm_num
    have : |(n : ℝ)| * X ≤ |(n : ℝ)| * X * Y := le_mul_of_one_le_right (by positivity) Y1
    nlinarith
  have fin : |(n : ℝ)| * X * Y ≤ 1000000 * x ^ 5 := by
    have : |(n : ℝ)| * X * Y = |(n : ℝ)| * Y / 5000 ^ k * x ^ 5 := by
      rw [hX]
      ring
    rw [this]
    refine mul_le_mul_of_nonneg_right ?_ (by positivity)
    rw [div_le_iff₀ (by positivity)]
    exact hn
  have : 0 < x ^ 5 := by positivity
  nlinarith

omit hR in
theorem add_fin {a b : Num} {r : ℝ} (h : F.add a b = .fin r) : ∃ x y, a = .fin x ∧ b = .fin y ∧ F.rnd (x + y) = .fin r := by
  rcases a with _ | m | x <;> rcases b with _ | n | y <;> simp only [FP.add, reduceCtorEq] at h
  · split at h <;> cases h
  · exact ⟨x, y, rfl, rfl, h⟩

omit hR in
theorem mul_fin {a b : Num} {r : ℝ} (h : F.mul a b = .fin r) : ∃ x y, a = .fin x ∧ b = .fin y ∧ F.rnd (x * y) = .fin r := by
  rcases a with _ | m | x <;> rcases b with _ | n | y <;> simp only [FP.mul, reduceCtorEq] at h
  · split at h <;> cases h
  · split at h <;> cases h
  · exact ⟨x, y, rfl, rfl, h⟩

omit hR in
theorem Post.idxD {α : Type} (l : List α) (i : ℕ) (d : α) : Post (PyX.idx l i) (fun _ a => a = l.getD i d) (fun _ => True) True := by
  unfold PyX.idx
  rcases e : l[i]? with _ | a
  · exact Post.raise trivial
  · refine Post.ret ?_
    simp [List.getD, e]

/-- the last term of the sum -/
theorem v3_last {x y : ℝ} (hx : 5000 ≤ x) (hy2 : y ≤ -48) {n : ℚ} (hn : n ≤ -0.04)
    {n' u w m t : ℝ} (h1 : F.lit n = .fin n') (h2 : |u - x ^ (8 : ℤ)| ≤ 1e-6 * |x ^ (8 : ℤ)| + 1e-200)
    (h3 : |w - y ^ (2 : ℤ)| ≤ 1e-6 * |y ^ (2 : ℤ)| + 1e-200)
    (h4 : F.rnd (n' * u) = .fin m) (h5 : F.rnd (m * w) = .fin t) : t ≤ -(x ^ 8) := by
  have hn : (n : ℝ) ≤ -0.04 := by
    have : ((n : ℚ) : ℝ) ≤ ((-0.04 : ℚ) : ℝ) := by exact_mod_cast hn
    norm_num at this ⊢
    exact this
  have e8 : x ^ (8 : ℤ) = x ^ 8 := by norm_cast
  have e2 : y ^ (2 : ℤ) = y ^ 2 := by norm_cast
  rw [e8, abs_of_nonneg (show 0 ≤ x ^ 8 by positivity)] at h2
  rw [e2, abs_of_nonneg (show 0 ≤ y ^ 2 by positivity)] at h3
  have x8 : (1 : ℝ) ≤ x ^ 8 := one_le_pow₀ (by linarith)
  have y2 : (2304 : ℝ) ≤ y ^ 2 := by nlinarith
  have tiny : (1e-200 : ℝ) ≤ 1e-6 := by norm_num
  have u1 : 0.9 * x ^ 8 ≤ u := by
    have := (abs_le.1 h2).1
    linarith
  have w1 : 2000 ≤ w := by
    have := (abs_le.1 h3).1
    linarith
  have n1 : n' ≤ -0.03 := by
    have := (abs_le.1 (hR.rel _ _ h1)).2
    rw [abs_of_nonpos (by linarith)] at this
    linarith
  have m1 : m ≤ -0.02 * x ^ 8 := by
    have a : n' * u ≤ -0.03 * (0.9 * x ^ 8) := by nlinarith
    have := (abs_le.1 (hR.rel _ _ h4)).2
    rw [abs_of_nonpos (by linarith)] at this
    linarith
  have a : m * w ≤ -0.02 * x ^ 8 * 2000 := by nlinarith
  have := (abs_le.1 (hR.rel _ _ h5)).2
  rw [abs_of_nonpos (by linarith)] at this
  linarith

include hF in
theorem v3_sum {x y : ℝ} (hx : 5000 ≤ x) (hy1 : -49 ≤ y) (hy2 : y ≤ -48) :
    Post (PyX.forRange 0 32 (Num.ofInt 0) fun i vs => do
      let vs := (F.add vs (F.mul (F.mul (F.lit (← idx Region3.v3_ph.ni i)) (← F.pow (.fin x) (Num.ofInt (← idx Region3.v3_ph.Ii i))))
        (← F.pow (.fin y) (Num.ofInt (← idx Region3.v3_ph.Ji i)))))
      pure vs) (fun _ v => ∀ r : ℝ, v = .fin r → r ≤ 0) (fun _ => True) True := by
  have x0 : 0 < x := by linarith
  have x5 : (1 : ℝ) ≤ x ^ 5 := one_le_pow₀ (by linarith)
  have tiny : (1e-200 : ℝ) ≤ 1e-6 := by norm_num
  refine (Post.forRange' (E := fun _ => True) (D := True) (fun k S => (k ≤ 31 → ∀ r : ℝ, S = .fin r → |r| ≤ 2e8 * k * x ^ 5) ∧ (k = 32 → ∀ r : ℝ, S = .fin r → r ≤ 0))
    ⟨fun _ r h => ?_, fun h => by omega⟩ (fun i S hi hS => ?_)).mono (fun _ v h => h.2 rfl) (fun _ _ => trivial) id
  · have : r = 0 := by simpa [Num.ofInt] using h.symm
    subst this
    simp
  apply Post.bind
  refine (Post.idxD _ i 0).mono (fun _ n hn => ?_) (fun _ _ => trivial) id
  apply Post.bind
  refine (Post.idxD _ i 0).mono (fun _ I hI => ?_) (fun _ _ => trivial) id
  apply Post.bind
  refine (hR.pow_le x0.ne' I).mono (fun _ u hu => ?_) (fun _ _ => trivial) id
  apply Post.bind
  refine (Post.idxD _ i 0).mono (fun _ J hJ => ?_) (fun _ _ => trivial) id
  apply Post.bind
  refine (hR.pow_le (by linarith : y < 0).ne J).mono (fun _ w hw => ?_) (fun _ _ => trivial) id
  refine Post.ret ?_
  obtain ⟨u, rfl, hu⟩ := hu
  obtain ⟨w, rfl, hw⟩ := hw
  refine ⟨fun hi' r hr => ?_, fun hi' r hr => ?_⟩ <;> obtain ⟨a, t, rfl, ht, hr⟩ := add_fin hr <;>
    obtain ⟨m, _, hm, ⟨⟩, ht⟩ := mul_fin ht <;> obtain ⟨n', _, hn', ⟨⟩, hm⟩ := mul_fin hm
  · have hi : i < 31 := by omega
    obtain ⟨t1, t2, t3, t4, t5⟩ := v3_table i hi
    rw [← hn, ← hJ, ← hI] at t1
    have T := v3_term hR hx hy1 hy2 t1 (hJ ▸ t2) (hI ▸ t3) (hI ▸ t4) (hn ▸ t5) hn' hu hw hm ht
    have A := hS.1 (by omega) a rfl
    have R := hR.le hr
    have := abs_add_le a t
    have i31 : (i : ℝ) ≤ 31 := by exact_mod_cast hi.le
    push_cast
    nlinarith [mul_nonneg (sub_nonneg.2 i31) (by linarith : (0 : ℝ) ≤ x ^ 5)]
  · have hi : i = 31 := by omega
    subst hi
    have hI : I = 8 := hI
    have hJ : J = 2 := hJ
    subst hI hJ
    have hn : n ≤ -0.04 := by
      rw [hn]
      decide +kernel
    have T := v3_last hR hx hy2 hn hn' hu hw hm ht
    have A := hS.1 le_rfl a rfl
    have x3 : (5000 : ℝ) ^ 3 ≤ x ^ 3 := pow_le_pow_left₀ (by norm_num) hx 3
    have : a + t ≤ 0 := by
      have := (abs_le.1 A).2
      have e : x ^ 8 = x ^ 5 * x ^ 3 := by ring
      rw [e] at T
      push_cast at this
      nlinarith
    have := rnd_nonpos hF this
    rw [hr] at this
    exact this

omit hR in
include hF in
/-- the rounding of a number between zero and a float is finite -/
theorem rnd_fin_of_le {x y : ℝ} (h0 : 0 ≤ x) (hxy : x ≤ y) (hy : F.rnd y = .fin y) : ∃ z : ℝ, F.rnd x = .fin z ∧ 0 ≤ z := by
  have z : F.rnd 0 = .fin 0 := by simpa using hF.int_exact 0 (by norm_num)
  rcases e : F.rnd x with _ | s | r
  · exact absurd e (hF.not_nan x)
  · cases s
    · exact absurd (hF.inf_pos x y hxy e) (by rw [hy]; simp)
    · exact absurd (hF.inf_neg 0 x h0 e) (by rw [z]; simp)
  · exact ⟨r, rfl, hF.mono 0 x 0 r h0 z e⟩

set_option maxHeartbeats 1000000 in
include hF in
/-- at pressures above 5·10⁵ MPa the boundary enthalpy of region 3 is positive -/
theorem h3ab_pos {p : ℝ} (hp : 500000 ≤ p) {p2 p3 : ℝ} (h2 : |p2 - p ^ (2 : ℤ)| ≤ 1e-6 * |p ^ (2 : ℤ)| + 1e-200)
    (h3 : |p3 - p ^ (3 : ℤ)| ≤ 1e-6 * |p ^ (3 : ℤ)| + 1e-200) (h3f : F.rnd p3 = .fin p3) :
    Num.ofInt (-99999) < F.add (F.sub (F.add (F.lit 2014.64004206875) (F.mul (F.lit 3.74696550136983) (.fin p)))
      (F.mul (F.lit 2.19921901054187e-02) (.fin p2))) (F.mul (F.lit 8.7513168600995e-05) (.fin p3)) := by
  have e2 : p ^ (2 : ℤ) = p ^ 2 := by norm_cast
  have e3 : p ^ (3 : ℤ) = p ^ 2 * p := by norm_cast
  rw [e2, abs_of_nonneg (show 0 ≤ p ^ 2 by positivity)] at h2
  rw [e3, abs_of_nonneg (show 0 ≤ p ^ 2 * p by positivity)] at h3
  have tiny : (1e-200 : ℝ) ≤ 1e-6 := by norm_num
  have tiny0 : (0 : ℝ) ≤ 1e-200 := by norm_num
  have q2 : 500000 * p ≤ p ^ 2 := by nlinarith
  have q3 : 500000 * p ^ 2 ≤ p ^ 2 * p := by nlinarith
  obtain ⟨l2, u2⟩ := abs_le.1 h2
  obtain ⟨l3, u3⟩ := abs_le.1 h3
  obtain ⟨a, ha, a0, ae⟩ := Grid.lit_pos hF 2014.64004206875 (by norm_num) (by norm_num)
  obtain ⟨b, hb, b0, be⟩ := Grid.lit_pos hF 3.74696550136983 (by norm_num) (by norm_num)
  obtain ⟨c, hc, c0, ce⟩ := Grid.lit_pos hF 2.19921901054187e-02 (by norm_num) (by norm_num)
  obtain ⟨d, hd, d0, de⟩ := Grid.lit_pos hF 8.7513168600995e-05 (by norm_num) (by norm_num)
  norm_num at ae be ce de
  obtain ⟨ae1, ae2⟩ := abs_le.1 ae
  obtain ⟨be1, be2⟩ := abs_le.1 be
  obtain ⟨ce1, ce2⟩ := abs_le.1 ce
  obtain ⟨de1, de2⟩ := abs_le.1 de
  norm_num at ae1 ae2 be1 be2 ce1 ce2 de1 de2
  have bp : b * p ≤ 4 * p := by nlinarith
  have cp : c * p2 ≤ 0.03 * p ^ 2 := by nlinarith
  have dp : d * p3 ≤ p3 := by nlinarith
  have dl : 8e-5 * (p ^ 2 * p) ≤ d * p3 := by nlinarith
  obtain ⟨A, hA, A0⟩ := rnd_fin_of_le hF (show 0 ≤ b * p by positivity) (show b * p ≤ p3 by nlinarith) h3f
  obtain ⟨B, hB, B0⟩ := rnd_fin_of_le hF (show 0 ≤ c * p2 by nlinarith) (show c * p2 ≤ p3 by nlinarith) h3f
  obtain ⟨C, hC, C0⟩ := rnd_fin_of_le hF (show 0 ≤ d * p3 by nlinarith) dp h3f
  have A1 := hR.le hA
  rw [abs_of_nonneg A0, abs_of_nonneg (by positivity)] at A1
  have B1 := hR.le hB
  rw [abs_of_nonneg B0, abs_of_nonneg (by nlinarith)] at B1
  have C1 := (abs_le.1 (hR.rel _ _ hC)).1
  rw [abs_of_nonneg (show 0 ≤ d * p3 by nlinarith)] at C1
  obtain ⟨Z, hZ, Z0⟩ := rnd_fin_of_le hF (show 0 ≤ a + A by positivity) (show a + A ≤ p3 by nlinarith) h3f
  simp only [ha, hb, hc, hd, FP.mul, FP.add, hA, hB, hC, hZ, FP.sub]
  have z : F.rnd 0 = .fin 0 := by simpa using hF.int_exact 0 (by norm_num)
  rcases e : F.rnd (Z - B) with _ | s | W
  · exact absurd e (hF.not_nan _)
  · cases s
    · exact absurd (hF.inf_pos (Z - B) Z (by linarith) e) (by rw [hF.idem _ _ hZ]; simp)
    · exact absurd (hF.inf_neg (-p3) (Z - B) (by nlinarith) e) (by rw [hR.neg_float _ h3f]; simp)
  · have W1 : -(0.05 * p ^ 2) ≤ W := by
      have := (abs_le.1 (hR.rel _ _ e)).1
      have Z1 := hR.le hZ
      rw [abs_of_nonneg Z0, abs_of_nonneg (by positivity)] at Z1
      have : |Z - B| ≤ p ^ 2 := by
        rw [abs_le]
        constructor <;> nlinarith
      nlinarith
    have nn : 0 ≤ W + C := by nlinarith
    simp only
    rcases e' : F.rnd (W + C) with _ | s | V
    · exact absurd e' (hF.not_nan _)
    · cases s
      · trivial
      · exact absurd (hF.inf_neg 0 (W + C) nn e') (by rw [z]; simp)
    · have := hF.mono 0 _ _ _ nn z e'
      show ((-99999 : ℤ) : ℝ) < V
      push_cast
      linarith

include hF in
theorem v3_bad {p : ℝ} (hp : 500000 ≤ p) (hpf : F.rnd p = .fin p) :
    Post (Region3.v3_ph F (.fin p) (.ofInt (-99999))) (fun _ v => ∀ r : ℝ, v = .fin r → r ≤ 0) (fun _ => True) True := by
  unfold Region3.v3_ph
  have p0 : p ≠ 0 := by linarith
  apply Post.bind
  refine (hR.pow_le' p0 2).mono (fun _ p2 h2 => ?_) (fun _ _ => trivial) id
  apply Post.bind
  refine (hR.pow_le' p0 3).mono (fun _ p3 h3 => ?_) (fun _ _ => trivial) id
  obtain ⟨p2, rfl, h2, h2f⟩ := h2
  obtain ⟨p3, rfl, h3, h3f⟩ := h3
  rw [if_pos (h3ab_pos hF hR hp h2 h3 h3f)]
  -- the reduced pressure
  have e100 : F.div (.fin p) (.ofInt 100) = pure (F.rnd (p / 100)) := by simp [FP.div, Num.ofInt]
  obtain ⟨ps, hps, ps0⟩ := rnd_fin_of_le hF (show 0 ≤ p / 100 by linarith) (show p / 100 ≤ p by linarith) hpf
  have f5 : F.rnd 5000 = .fin 5000 := by simpa using hF.int_exact 5000 (by norm_num)
  have ps5 : 5000 ≤ ps := hF.mono 5000 (p / 100) 5000 ps (by linarith) f5 hps
  have psp : ps ≤ 0.5 * p := by
    have := hR.le hps
    rw [abs_of_nonneg ps0, abs_of_nonneg (by linarith)] at this
    have tiny : (1e-200 : ℝ) ≤ 1e-6 := by norm_num
    linarith
  obtain ⟨q, hq, q0, qe⟩ := Grid.lit_pos hF 0.128 (by norm_num) (by norm_num)
  have q1 : q ≤ 1 := by
    have := (abs_le.1 qe).2
    norm_num at this
    linarith
  obtain ⟨x, hx, x0⟩ := rnd_fin_of_le hF (show 0 ≤ ps + q by linarith) (show ps + q ≤ p by linarith) hpf
  have x5 : 5000 ≤ x := hF.mono 5000 (ps + q) 5000 x (by linarith) f5 hx
  -- the reduced enthalpy
  have e2100 : F.div (.ofInt (-99999)) (.ofInt 2100) = pure (F.rnd (-99999 / 2100)) := by simp [FP.div, Num.ofInt]
  obtain ⟨hs, hhs, hse⟩ := hF.fine (-99999 / 2100) (by norm_num [abs_le])
  obtain ⟨c, hc, c0, ce⟩ := Grid.lit_pos hF 0.727 (by norm_num) (by norm_num)
  norm_num at hse ce
  obtain ⟨g1, g2⟩ := abs_le.1 hse
  obtain ⟨g3, g4⟩ := abs_le.1 ce
  obtain ⟨y, hy, ye⟩ := hF.fine (hs - c) (by rw [abs_le]; constructor <;> linarith)
  obtain ⟨g5, g6⟩ := abs_le.1 ye
  rw [e100, pure_bind, e2100, pure_bind, hps, hhs, hq, hc]
  simp only [FP.add, FP.sub, hx, hy]
  apply Post.bind
  refine (v3_sum hF hR x5 (by linarith) (by linarith)).mono (fun _ v hv => ?_) (fun _ _ => trivial) id
  refine Post.ret ?_
  intro r hr
  obtain ⟨l, hl, l0, -⟩ := Grid.lit_pos hF 0.0028 (by norm_num) (by norm_num)
  obtain ⟨v', l', rfl, hl', hr⟩ := mul_fin hr
  rw [hl] at hl'
  cases hl'
  have := rnd_nonpos hF (mul_nonpos_of_nonpos_of_nonneg (hv v' rfl) l0.le)
  rw [hr] at this
  exact this

end

/-! ## The entropy of wet steam at a pressure that is none -/

/-- no pressure: NaN, infinite, negative, or a float above 5·10⁵ MPa -/
def Absurd (F : FP) : Num → Prop
  | .fin p => p < 0 ∨ 500000 ≤ p ∧ F.rnd p = .fin p
  | _ => True

theorem pow_nan {b : ℝ} (hb : b ≠ 0) : F.pow .nan (.fin b) = pure .nan := by simp [FP.pow, hb]

theorem T4_p_nan (hF : F.Grid) : Region4.T4_p F .nan = pure .nan := by
  obtain ⟨a, ha, a0, -⟩ := Grid.lit_pos hF 0.25 (by norm_num) (by norm_num)
  obtain ⟨b, hb, b0, -⟩ := Grid.lit_pos hF 0.5 (by norm_num) (by norm_num)
  have p2 : F.pow .nan (.ofInt 2) = pure .nan := pow_nan (by norm_num)
  have d2 : F.div .nan (.ofInt 2) = pure .nan := by simp [FP.div, Num.ofInt]
  have dn : F.div .nan .nan = pure .nan := rfl
  unfold Region4.T4_p
  simp only [ha, hb, pow_nan a0.ne', pow_nan b0.ne', p2, pure_bind, mul_nan_right, add_nan_left, add_nan_right, sub_nan_left,
    sub_nan_right, d2, Num.neg, dn]

theorem T4_p_inf (hF : F.Grid) : Post (Region4.T4_p F (.inf false)) (fun _ r => r = .nan) (fun _ => True) True := by
  obtain ⟨a, ha, a0, -⟩ := Grid.lit_pos hF 0.25 (by norm_num) (by norm_num)
  obtain ⟨b, hb, b0, -⟩ := Grid.lit_pos hF 0.5 (by norm_num) (by norm_num)
  obtain ⟨c, hc, c0, -⟩ := Grid.lit_pos hF 17.073846940092 (by norm_num) (by norm_num)
  have p2 : F.pow .nan (.ofInt 2) = pure .nan := pow_nan (by norm_num)
  have i2 : F.pow (.inf false) (.ofInt 2) = pure (.inf false) := by simp [FP.pow, Num.ofInt]
  have i4 : F.pow (.inf false) (.fin a) = pure (.inf false) := by simp [FP.pow, a0.ne', a0]
  have m : F.mul (.fin c) (.inf false) = .inf false := by simp [FP.mul, c0.ne', c0.le]
  have e : F.sub (.inf false) (.inf false) = .nan := by simp [FP.sub]
  have d2 : F.div .nan (.ofInt 2) = pure .nan := by simp [FP.div, Num.ofInt]
  unfold Region4.T4_p
  simp only [ha, hb, hc, i4, pure_bind, i2, m, e, add_nan_left, mul_nan_left, mul_nan_right]
  apply Post.bind
  refine Post.any (fun _ f2 => ?_) (fun _ => trivial) trivial
  simp only [sub_nan_right, pow_nan b0.ne', pure_bind]
  apply Post.bind
  refine (div_nan_right _).mono (fun _ D hD => ?_) (fun _ _ => trivial) id
  subst hD
  simp only [add_nan_right, mul_nan_right, p2, pure_bind, sub_nan_left, sub_nan_right, pow_nan b0.ne', d2]
  exact Post.ret rfl

theorem T4_p_neg (hF : F.Grid) {p : ℝ} (hp : p < 0) : Post (Region4.T4_p F (.fin p)) (fun _ _ => False) (fun _ => True) True := by
  obtain ⟨a, ha, a0, ae⟩ := Grid.lit_pos hF 0.25 (by norm_num) (by norm_num)
  have hn : ¬ FP.IsInt a := by
    rintro ⟨n, rfl⟩
    norm_num at ae
    obtain ⟨h1, h2⟩ := abs_le.1 ae
    have h1 : (0 : ℝ) < n := by linarith
    have h2 : (n : ℝ) < 1 := by linarith
    have h1 : 0 < n := by exact_mod_cast h1
    have h2 : n < 1 := by exact_mod_cast h2
    omega
  unfold Region4.T4_p
  apply Post.bind
  simp only [ha, FP.pow, if_neg a0.ne', if_neg hp.ne, if_pos (And.intro hp hn)]
  exact Post.raise trivial

theorem s2_neginf (T : Num) : Post (Region2.s2_pT F (.inf true) T) (fun _ _ => False) (fun _ => True) True := by
  unfold Region2.s2_pT
  apply Post.bind
  refine Post.any (fun _ tau => ?_) (fun _ => trivial) trivial
  apply Post.bind
  exact Post.raise trivial

open Region4 in
theorem entropy_absurd (hF : F.Grid) (hR : F.Rough) (h : Num) {p : Num} (hp : Absurd F p) :
    Post (T4_hs.entropy F h p) (fun _ r => r = .nan) (fun _ => True) True := by
  obtain ⟨a, ha, a0, ae⟩ := Grid.lit_pos hF 16.529 (by norm_num) (by norm_num)
  obtain ⟨b, hb, b0, be⟩ := Grid.lit_pos hF 22.06395 (by norm_num) (by norm_num)
  norm_num at ae be
  have a1 := (abs_le.1 ae).2
  have b1 := (abs_le.1 be).2
  unfold T4_hs.entropy
  apply Post.bind
  -- the saturation temperature is NaN
  have nanT : ¬ p < F.lit 16.529 → Post (do
      let xs ← x4_ph F p h
      let (s4v, s4L) ← if p < (F.lit 16.529) then do
        let s4v ← Region2.s2_pT F p .nan
        let s4L ← Region1.s1_pT F p .nan
        pure (s4v, s4L)
      else do
        let v4v ← Region3.v3_ph F p (← Region4.h4V_p F p)
        let s4v ← Region3.s3_rhoT F (← F.div (Num.ofInt 1) v4v) .nan
        let v4L ← Region3.v3_ph F p (← Region4.h4L_p F p)
        let s4L ← Region3.s3_rhoT F (← F.div (Num.ofInt 1) v4L) .nan
        pure (s4v, s4L)
      pure (F.add (F.mul xs s4v) (F.mul (F.sub (Num.ofInt 1) xs) s4L))) (fun _ r => r = .nan) (fun _ => True) True := by
    intro hn
    apply Post.bind
    refine Post.any (fun _ xs => ?_) (fun _ => trivial) trivial
    rw [if_neg hn]
    apply Post.bind
    refine Post.any (fun _ hv => ?_) (fun _ => trivial) trivial
    apply Post.bind
    refine Post.any (fun _ vv => ?_) (fun _ => trivial) trivial
    apply Post.bind
    refine Post.any (fun _ rv => ?_) (fun _ => trivial) trivial
    apply Post.bind
    refine (s3_nan rv).mono (fun _ sv hsv => ?_) (fun _ _ => trivial) id
    subst hsv
    apply Post.bind
    refine Post.any (fun _ hl => ?_) (fun _ => trivial) trivial
    apply Post.bind
    refine Post.any (fun _ vl => ?_) (fun _ => trivial) trivial
    apply Post.bind
    refine Post.any (fun _ rl => ?_) (fun _ => trivial) trivial
    apply Post.bind
    refine Post.any (fun _ sl => ?_) (fun _ => trivial) trivial
    simp only [pure_bind]
    refine Post.ret ?_
    simp only [mul_nan_right, add_nan_left]
  rcases p with _ | s | p
  · rw [T4_p_nan hF]
    refine Post.ret (nanT ?_)
    rw [ha]
    exact id
  · cases s
    · refine (T4_p_inf hF).mono (fun _ T hT => ?_) (fun _ _ => trivial) id
      subst hT
      refine nanT ?_
      rw [ha]
      exact Bool.false_ne_true
    · refine Post.any (fun _ T => ?_) (fun _ => trivial) trivial
      apply Post.bind
      refine Post.any (fun _ xs => ?_) (fun _ => trivial) trivial
      rw [if_pos (by rw [ha]; trivial)]
      apply Post.bind
      refine (s2_neginf T).mono (fun _ _ hf => hf.elim) (fun _ _ => trivial) id
  · rcases hp with hp | ⟨hp, hpf⟩
    · refine (T4_p_neg hF hp).mono (fun _ _ hf => hf.elim) (fun _ _ => trivial) id
    · refine Post.any (fun _ T => ?_) (fun _ => trivial) trivial
      apply Post.bind
      refine Post.any (fun _ xs => ?_) (fun _ => trivial) trivial
      have n16 : ¬ (Num.fin p < F.lit 16.529) := by
        rw [ha]
        show ¬ p < a
        linarith
      have n22 : ¬ (Num.fin p < F.lit 22.06395) := by
        rw [hb]
        show ¬ p < b
        linarith
      have hV : h4V_p F (.fin p) = pure (.ofInt (-99999)) := by
        unfold h4V_p
        rw [if_neg (fun h => n22 h.2)]
        rfl
      have hL : h4L_p F (.fin p) = pure (.ofInt (-99999)) := by
        unfold h4L_p
        rw [if_neg (fun h => n22 h.2)]
        rfl
      rw [if_neg n16, hV, hL]
      simp only [pure_bind]
      apply Post.bind
      refine (v3_bad hF hR hp hpf).mono (fun _ v hv => ?_) (fun _ _ => trivial) id
      apply Post.bind
      refine (one_div_notPos hF hv).mono (fun _ rho hrho => ?_) (fun _ _ => trivial) id
      apply Post.bind
      refine (s3_notPos hF hrho T).mono (fun _ sv hsv => ?_) (fun _ _ => trivial) id
      subst hsv
      apply Post.bind
      refine Post.any (fun _ vl => ?_) (fun _ => trivial) trivial
      apply Post.bind
      refine Post.any (fun _ rl => ?_) (fun _ => trivial) trivial
      apply Post.bind
      refine Post.any (fun _ sl => ?_) (fun _ => trivial) trivial
      refine Post.ret ?_
      simp only [mul_nan_right, add_nan_left]

/-- the middle of an absurd bracket is absurd -/
theorem mid_absurd (hF : F.Grid) {l : ℝ} (l0 : 0 ≤ l) (l1 : l ≤ 1) {P : Num} (hP : F.IsFloat P)
    (hw : ¬ ∃ x : ℝ, P = .fin x ∧ |x| ≤ 1000000) : Absurd F (F.mid (.fin l) P) := by
  rcases P with _ | s | x
  · trivial
  · trivial
  have hx : F.rnd x = .fin x := hP
  have hw : 1000000 < |x| := not_le.1 fun h => hw ⟨x, rfl, h⟩
  have z : F.rnd 0 = .fin 0 := by simpa using hF.int_exact 0 (by norm_num)
  simp only [FP.mid, FP.add]
  rcases e : F.rnd (l + x) with _ | s | a
  · trivial
  · trivial
  rcases lt_abs.1 hw with h | h
  · have ax : x ≤ a := hF.mono x (l + x) x a (by linarith) hx e
    obtain ⟨p, hp, p0⟩ := rnd_fin_of_le hF (show 0 ≤ a / 2 by linarith) (show a / 2 ≤ a by linarith) (hF.idem _ _ e)
    have h5 : F.rnd 500000 = .fin 500000 := by simpa using hF.int_exact 500000 (by norm_num)
    simp only [hp]
    exact Or.inr ⟨hF.mono 500000 (a / 2) _ _ (by linarith) h5 hp, hF.idem _ _ hp⟩
  · have h1 : F.rnd (-1 : ℤ) = .fin (-1 : ℤ) := hF.int_exact (-1) (by norm_num)
    have h2 : F.rnd (-2 : ℤ) = .fin (-2 : ℤ) := hF.int_exact (-2) (by norm_num)
    push_cast at h1 h2
    have a1 : a ≤ -2 := hF.mono (l + x) (-2) a (-2) (by linarith) e h2
    show Absurd F (F.rnd (a / 2))
    rcases e' : F.rnd (a / 2) with _ | s | p
    · trivial
    · trivial
    · have := hF.mono (a / 2) (-1) p (-1) (by linarith) e' h1
      exact Or.inl (by linarith)

/-! ## C45 -/

theorem T4_hs_ends (hF : F.Grid) (hR : F.Rough) (h s : Num) : Clean False (Region4.T4_hs F h s) := by
  have : DivOK F False := ⟨fun h => h hF⟩
  refine Region4.T4_hs.clean_of' F False h s fun _ _ PL hPL => ?_
  obtain ⟨l, hl, l0, le⟩ := Grid.lit_pos hF 0.000611 (by norm_num) (by norm_num)
  have l1 : l ≤ 1 := by
    have := (abs_le.1 le).2
    norm_num at this
    linarith
  rw [Region4.T4_hs.pass2_eq]
  by_cases hw : ∃ x : ℝ, PL = .fin x ∧ |x| ≤ 1000000
  · obtain ⟨x, rfl, hx⟩ := hw
    rw [hl]
    refine width_terminates hF (by norm_num) (by norm_num) (fun p => ?_) x l hPL (hF.idem _ _ hl) hx
      (by rw [abs_le]; constructor <;> linarith) _ _
    exact Region4.T4_hs.entropy.clean F False h p
  · refine width_nan ?_ _ _ _ _ (Region4.T4_hs.entropy.clean F False h _) ?_
    · simp [sub_nan_right, not_lt_nan, Num.fabs]
    · rw [hl]
      exact entropy_absurd hF hR h (mid_absurd hF l0.le l1 hPL hw)

/-- C45: in finite precision the search of wet steam by enthalpy and entropy ends, for all arguments -/
theorem C45_T4_hs_ends (F : FP) (hF : F.Grid) (hR : F.Rough) (h s : Num) : (Region4.T4_hs F h s).out ≠ .diverge :=
  fun e => (T4_hs_ends hF hR h s).elimDiv e

/-- C45: in finite precision every call of a public method ends, for all arguments and unit systems -/
theorem C45_calls_end (F : FP) (hF : F.Grid) (hR : F.Rough) (u : UnitSystem) (c : Call) : (c.run F u).out ≠ .diverge := by
  have : DivOK F False := ⟨fun h => h hF⟩
  by_cases hc : ∃ h s, c = .t_hs h s ∨ c = .p_hs h s ∨ c = .tc_hs h s
  · obtain ⟨h, s, hc⟩ := hc
    have hT : ∀ h' s', Clean False (Region4.T4_hs F h' s') := T4_hs_ends hF hR
    have hp := XSteam.p_hs.clean_of' F False u h s fun h' s' _ _ _ => hT h' s'
    rcases hc with rfl | rfl | rfl
    · exact fun e => (XSteam.t_hs.clean_of' F False u h s fun h' s' _ _ _ => hT h' s').elimDiv e
    · exact fun e => hp.elimDiv e
    · intro e
      have : Clean False (XSteam.tc_hs F u h s) := by
        unfold XSteam.tc_hs
        refine Clean.bind hp (fun _ => ?_)
        clean_walk
      exact this.elimDiv e
  · exact C25_calls_end F hF u c fun h s h' => absurd ⟨h, s, h'⟩ hc

/-- C45 in binary64 -/
theorem C45_calls_end_binary64 (u : UnitSystem) (c : Call) : (c.run .binary64 u).out ≠ .diverge :=
  C45_calls_end .binary64 Binary64.grid Binary64.rough u c

/-- the enthalpy 1030 kJ/kg at entropy 4.5 kJ/(kg K), whose bracket reaches to 5·10¹⁵ MPa -/
example : (XSteam.t_hs .binary64 .mks (.ofInt 1030) (FP.binary64.lit 4.5)).out ≠ .diverge :=
  C45_calls_end_binary64 .mks (.t_hs (.ofInt 1030) (FP.binary64.lit 4.5))

end PyX
