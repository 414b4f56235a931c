import Verif.Props.Rounding

/-!
# Forward error analysis

`Approx n x δ`: the floating point number `n` is finite and at most `δ` away from the real `x`.  Each operation of the
arithmetic carries such a statement from its arguments to its result.
-/

namespace PyX

open Classical Py Num

/-- `n` is a finite number at most `δ` away from `x` -/
def Approx (n : Num) (x δ : ℝ) : Prop := ∃ y, n = .fin y ∧ |y - x| ≤ δ

/-- An arithmetic with about fifteen digits: rounding and `pow` have a relative error of at most 1e-15 for results of ordinary
size, tiny powers stay tiny, and the literals 0.5 and 0.25 are represented exactly. -/
structure FP.Digits15 (F : FP) : Prop where
  round : F.Round 1e-15
  pow : ∀ a b : ℝ, a ≠ 0 → (0 < a ∨ FP.IsInt b) → 1e-200 ≤ |a ^ b| → |a ^ b| ≤ 1e200 →
    ∃ y, F.powr a b = .fin y ∧ |y - a ^ b| ≤ 1e-15 * |a ^ b|
  pow_tiny : ∀ a b : ℝ, a ≠ 0 → (0 < a ∨ FP.IsInt b) → |a ^ b| ≤ 1e-200 → ∃ y, F.powr a b = .fin y ∧ |y| ≤ 1e-199
  half : F.rnd 0.5 = .fin 0.5
  quarter : F.rnd 0.25 = .fin 0.25

theorem FP.Digits15.ideal : FP.ideal.Digits15 where
  round := .ideal (by norm_num) (by norm_num)
  pow a b _ _ _ _ := ⟨_, rfl, by simp; positivity⟩
  pow_tiny a b _ _ h := ⟨_, rfl, h.trans (by norm_num)⟩
  half := rfl
  quarter := rfl

theorem FP.Round.mono {F : FP} {ε ε' : ℝ} (h : F.Round ε) (h1 : ε ≤ ε') (h2 : ε' ≤ 1 / 2) : F.Round ε' where
  pos := h.pos.trans h1
  small := h2
  int_exact := h.int_exact
  rel x a b := by
    obtain ⟨y, e, d⟩ := h.rel x a b
    exact ⟨y, e, d.trans (mul_le_mul_of_nonneg_right h1 (abs_nonneg x))⟩
  tiny := h.tiny

/-- binary64 with correctly rounded elementary functions -/
theorem Binary64.digits15 : FP.binary64.Digits15 where
  round := Binary64.round.mono (by norm_num) (by norm_num)
  pow a b _ _ h1 h2 := by
    obtain ⟨y, e, d⟩ := Binary64.round.rel (a ^ b) (le_trans (by norm_num) h1) (h2.trans (by norm_num))
    exact ⟨y, e, d.trans (mul_le_mul_of_nonneg_right (by norm_num) (abs_nonneg _))⟩
  pow_tiny a b _ _ h := by
    obtain ⟨y, e, d⟩ := Binary64.round.abs h (by norm_num)
    refine ⟨y, e, ?_⟩
    have := abs_add_le (y - a ^ b) (a ^ b)
    rw [sub_add_cancel] at this
    refine this.trans ((add_le_add d h).trans ?_)
    norm_num
  half := Binary64.rnd_float ⟨1, -1, by norm_num, by norm_num, by norm_num, by norm_num⟩
  quarter := Binary64.rnd_float ⟨1, -2, by norm_num, by norm_num, by norm_num, by norm_num⟩

namespace Approx

variable {F : FP} {a b : Num} {x y δ δ' M : ℝ}

theorem of_eq (h : |y - x| ≤ δ) : Approx (.fin y) x δ := ⟨y, rfl, h⟩

theorem exact (x : ℝ) : Approx (.fin x) x 0 := ⟨x, rfl, by simp⟩

theorem mono (h : Approx a x δ) (hd : δ ≤ δ') : Approx a x δ' := by
  obtain ⟨y, e, d⟩ := h
  exact ⟨y, e, d.trans hd⟩

theorem nonneg (h : Approx a x δ) : 0 ≤ δ := by
  obtain ⟨y, -, d⟩ := h
  exact (abs_nonneg _).trans d

theorem neg (h : Approx a x δ) : Approx (Num.neg a) (-x) δ := by
  obtain ⟨y, rfl, d⟩ := h
  refine ⟨-y, rfl, ?_⟩
  rwa [show -y - -x = -(y - x) by ring, abs_neg]

/-- rounding a number that is `δ` away from `x` -/
theorem rnd (hF : F.Digits15) {z : ℝ} (hz : |z - x| ≤ δ) (hx : |x| ≤ M) (hM : M + δ ≤ 1e200)
    (hd : δ + 1e-15 * (M + δ) + 1e-200 ≤ δ') : Approx (F.rnd z) x δ' := by
  have hz' : |z| ≤ M + δ := by
    have := abs_add_le x (z - x)
    rw [add_sub_cancel] at this
    linarith
  obtain ⟨w, e, d⟩ := hF.round.abs hz' (hM.trans (by norm_num))
  refine ⟨w, e, ?_⟩
  have : |w - x| ≤ |w - z| + |z - x| := by
    have := abs_add_le (w - z) (z - x)
    rwa [sub_add_sub_cancel] at this
  have h0 : (1e-250 : ℝ) ≤ 1e-200 := by norm_num
  linarith

theorem lit (hF : F.Digits15) (q : ℚ) (h : (q : ℝ) = x) (hx : |x| ≤ M) (hd : M ≤ 1e199 ∧ 1e-15 * M + 1e-200 ≤ δ') :
    Approx (F.lit q) x δ' := by
  rw [FP.lit, h]
  have := (abs_nonneg x).trans hx
  exact rnd hF (δ := 0) (by simp) hx (by norm_num at hd ⊢; linarith [hd.1]) (by simpa using hd.2)

theorem add (hF : F.Digits15) {δ₁ δ₂ : ℝ} (ha : Approx a x δ₁) (hb : Approx b y δ₂) (hx : |x + y| ≤ M)
    (hd : M + (δ₁ + δ₂) ≤ 1e200 ∧ (δ₁ + δ₂) + 1e-15 * (M + (δ₁ + δ₂)) + 1e-200 ≤ δ') : Approx (F.add a b) (x + y) δ' := by
  obtain ⟨a, rfl, da⟩ := ha
  obtain ⟨b, rfl, db⟩ := hb
  refine rnd hF ?_ hx hd.1 hd.2
  have := abs_add_le (a - x) (b - y)
  rw [show a + b - (x + y) = a - x + (b - y) by ring]
  linarith

theorem sub (hF : F.Digits15) {δ₁ δ₂ : ℝ} (ha : Approx a x δ₁) (hb : Approx b y δ₂) (hx : |x - y| ≤ M)
    (hd : M + (δ₁ + δ₂) ≤ 1e200 ∧ (δ₁ + δ₂) + 1e-15 * (M + (δ₁ + δ₂)) + 1e-200 ≤ δ') : Approx (F.sub a b) (x - y) δ' := by
  obtain ⟨a, rfl, da⟩ := ha
  obtain ⟨b, rfl, db⟩ := hb
  refine rnd hF ?_ hx hd.1 hd.2
  have := abs_sub (a - x) (b - y)
  rw [show a - b - (x - y) = a - x - (b - y) by ring]
  linarith

private theorem mul_dist {a b x y δ₁ δ₂ X Y : ℝ} (da : |a - x| ≤ δ₁) (db : |b - y| ≤ δ₂) (hx : |x| ≤ X) (hy : |y| ≤ Y) :
    |a * b - x * y| ≤ X * δ₂ + Y * δ₁ + δ₁ * δ₂ := by
  have e : a * b - x * y = x * (b - y) + (a - x) * y + (a - x) * (b - y) := by ring
  have h1 : |x * (b - y)| ≤ X * δ₂ := by rw [abs_mul]; exact mul_le_mul hx db (abs_nonneg _) ((abs_nonneg _).trans hx)
  have h2 : |(a - x) * y| ≤ δ₁ * Y := by rw [abs_mul]; exact mul_le_mul da hy (abs_nonneg _) ((abs_nonneg _).trans da)
  have h3 : |(a - x) * (b - y)| ≤ δ₁ * δ₂ := by
    rw [abs_mul]; exact mul_le_mul da db (abs_nonneg _) ((abs_nonneg _).trans da)
  rw [e]
  have := abs_add_le (x * (b - y) + (a - x) * y) ((a - x) * (b - y))
  have := abs_add_le (x * (b - y)) ((a - x) * y)
  linarith

theorem mul (hF : F.Digits15) {δ₁ δ₂ X Y : ℝ} (ha : Approx a x δ₁) (hb : Approx b y δ₂) (hx : |x| ≤ X) (hy : |y| ≤ Y)
    (hd : X * Y + (X * δ₂ + Y * δ₁ + δ₁ * δ₂) ≤ 1e200 ∧
      (X * δ₂ + Y * δ₁ + δ₁ * δ₂) + 1e-15 * (X * Y + (X * δ₂ + Y * δ₁ + δ₁ * δ₂)) + 1e-200 ≤ δ') :
    Approx (F.mul a b) (x * y) δ' := by
  obtain ⟨a, rfl, da⟩ := ha
  obtain ⟨b, rfl, db⟩ := hb
  refine rnd hF (mul_dist da db hx hy) ?_ hd.1 hd.2
  rw [abs_mul]
  exact mul_le_mul hx hy (abs_nonneg _) ((abs_nonneg _).trans hx)

/-- a quotient `q` with a divisor of at least `m` -/
theorem div (hF : F.Digits15) {δ₁ δ₂ m : ℝ} (ha : Approx a x δ₁) (hb : Approx b y δ₂) (hm : m ≤ |y|) (hq : |x / y| ≤ M)
    (hd : δ₂ < m ∧ M + (δ₁ + M * δ₂) / (m - δ₂) ≤ 1e200 ∧
      (δ₁ + M * δ₂) / (m - δ₂) + 1e-15 * (M + (δ₁ + M * δ₂) / (m - δ₂)) + 1e-200 ≤ δ') :
    ∃ n, F.div a b = pure n ∧ Approx n (x / y) δ' := by
  obtain ⟨h0, h1, h2⟩ := hd
  obtain ⟨a, rfl, da⟩ := ha
  obtain ⟨b, rfl, db⟩ := hb
  have hδ := (abs_nonneg _).trans db
  have hy : y ≠ 0 := abs_pos.1 (by linarith)
  have hb' : m - δ₂ ≤ |b| := by
    have := abs_sub_abs_le_abs_sub y b
    rw [abs_sub_comm y b] at this
    linarith
  have hb0 : 0 < |b| := by linarith
  have hbn : b ≠ 0 := abs_pos.1 hb0
  refine ⟨F.rnd (a / b), by simp [FP.div, hbn], rnd hF ?_ hq h1 h2⟩
  have e : a / b - x / y = ((a - x) - x / y * (b - y)) / b := by field_simp; ring
  rw [e, abs_div]
  have n1 : |x / y * (b - y)| ≤ M * δ₂ := by
    rw [abs_mul]; exact mul_le_mul hq db (abs_nonneg _) ((abs_nonneg _).trans hq)
  have n2 := abs_sub (a - x) (x / y * (b - y))
  exact div_le_div₀ (by linarith [(abs_nonneg _).trans da, (abs_nonneg _).trans n1]) (by linarith) (by linarith) hb'

private theorem rpow_two' (a : ℝ) : a ^ (2 : ℝ) = a ^ 2 := by
  have := Real.rpow_natCast a 2
  exact_mod_cast this
private theorem rpow_four' (a : ℝ) : a ^ (4 : ℝ) = a ^ 4 := by
  have := Real.rpow_natCast a 4
  exact_mod_cast this

/-- `a ** 2` -/
theorem sq (hF : F.Digits15) {δ₁ m : ℝ} (ha : Approx a x δ₁) (hm : m ≤ |x|) (hx : |x| ≤ M)
    (hd : 1e-90 ≤ m - δ₁ ∧ M + δ₁ ≤ 1e90 ∧ (2 * M * δ₁ + δ₁ * δ₁) + 1e-15 * ((M + δ₁) * (M + δ₁)) ≤ δ') :
    ∃ n, F.pow a (.fin 2) = pure n ∧ Approx n (x ^ 2) δ' := by
  obtain ⟨h0, h1, h2⟩ := hd
  obtain ⟨a, rfl, da⟩ := ha
  have n1 := abs_sub_abs_le_abs_sub x a
  have n2 := abs_sub_abs_le_abs_sub a x
  rw [abs_sub_comm x a] at n1
  have a1 : 1e-90 ≤ |a| := by linarith
  have a2 : |a| ≤ M + δ₁ := by linarith
  have ha0 : a ≠ 0 := abs_pos.1 (lt_of_lt_of_le (by norm_num) a1)
  have e : |a ^ (2 : ℝ)| = |a| * |a| := by rw [rpow_two', abs_pow, pow_two]
  have l1 : 1e-200 ≤ |a| * |a| := le_trans (by norm_num) (mul_le_mul a1 a1 (by norm_num) (abs_nonneg _))
  have l2 : |a| * |a| ≤ (M + δ₁) * (M + δ₁) := mul_le_mul a2 a2 (abs_nonneg _) ((abs_nonneg _).trans a2)
  have l3 : |a| * |a| ≤ 1e200 := by
    refine (mul_le_mul (a2.trans h1) (a2.trans h1) (abs_nonneg _) (by norm_num)).trans (by norm_num)
  obtain ⟨z, ez, dz⟩ := hF.pow a 2 ha0 (.inr ⟨2, by norm_num⟩) (by rw [e]; exact l1) (by rw [e]; exact l3)
  refine ⟨.fin z, ?_, z, rfl, ?_⟩
  · have : FP.IsInt 2 := ⟨2, by norm_num⟩
    simp [FP.pow, ha0, this, ez]
  · rw [e, rpow_two'] at dz
    have d2 := mul_dist da da hx hx
    have : |z - x ^ 2| ≤ |z - a ^ 2| + |a * a - x * x| := by
      have := abs_add_le (z - a ^ 2) (a * a - x * x)
      rwa [show z - a ^ 2 + (a * a - x * x) = z - x ^ 2 by ring] at this
    linarith

/-- `a ** 2` of a number that may be zero -/
theorem sq' (hF : F.Digits15) {δ₁ : ℝ} (ha : Approx a x δ₁) (hx : |x| ≤ M)
    (hd : M + δ₁ ≤ 1e90 ∧ (2 * M * δ₁ + δ₁ * δ₁) + 1e-15 * ((M + δ₁) * (M + δ₁)) + 1e-198 ≤ δ') :
    ∃ n, F.pow a (.fin 2) = pure n ∧ Approx n (x ^ 2) δ' := by
  obtain ⟨h1, h2⟩ := hd
  obtain ⟨a, rfl, da⟩ := ha
  have n2 := abs_sub_abs_le_abs_sub a x
  have a2 : |a| ≤ M + δ₁ := by linarith
  have d2 := mul_dist da da hx hx
  have q : 0 ≤ 1e-15 * ((M + δ₁) * (M + δ₁)) := by
    have := mul_self_nonneg (M + δ₁)
    positivity
  have tri : ∀ z : ℝ, |z - x ^ 2| ≤ |z - a ^ 2| + |a * a - x * x| := fun z => by
    have := abs_add_le (z - a ^ 2) (a * a - x * x)
    rwa [show z - a ^ 2 + (a * a - x * x) = z - x ^ 2 by ring] at this
  have two : FP.IsInt 2 := ⟨2, by norm_num⟩
  have t198 : (0 : ℝ) < 1e-198 := by norm_num
  by_cases ha0 : a = 0
  · refine ⟨.fin 0, by simp [FP.pow, ha0], 0, rfl, ?_⟩
    have := tri 0
    rw [ha0] at this d2
    norm_num at this d2 q t198 h2 ⊢
    linarith
  have e : |a ^ (2 : ℝ)| = |a| * |a| := by rw [rpow_two', abs_pow, pow_two]
  have l2 : |a| * |a| ≤ (M + δ₁) * (M + δ₁) := mul_le_mul a2 a2 (abs_nonneg _) ((abs_nonneg _).trans a2)
  have l3 : |a| * |a| ≤ 1e200 :=
    (mul_le_mul (a2.trans h1) (a2.trans h1) (abs_nonneg _) (by norm_num)).trans (by norm_num)
  rcases le_total (1e-200) (|a| * |a|) with l1 | l1
  · obtain ⟨z, ez, dz⟩ := hF.pow a 2 ha0 (.inr two) (by rw [e]; exact l1) (by rw [e]; exact l3)
    refine ⟨.fin z, by simp [FP.pow, ha0, two, ez], z, rfl, ?_⟩
    rw [e, rpow_two'] at dz
    have := tri z
    linarith
  · obtain ⟨z, ez, dz⟩ := hF.pow_tiny a 2 ha0 (.inr two) (by rw [e]; exact l1)
    refine ⟨.fin z, by simp [FP.pow, ha0, two, ez], z, rfl, ?_⟩
    have := tri z
    have k : |z - a ^ 2| ≤ 1e-198 := by
      refine (abs_sub _ _).trans ?_
      rw [abs_pow, pow_two]
      exact (add_le_add dz l1).trans (by norm_num)
    linarith

/-- `a ** 4`, relative error -/
theorem fourth (hF : F.Digits15) {η : ℝ} (ha : Approx a x (η * x)) (h0 : 1e-40 ≤ x) (h1 : x ≤ 1e40) (hη : 0 ≤ η ∧ η ≤ 1e-3) :
    ∃ n, F.pow a (.fin 4) = pure n ∧ Approx n (x ^ 4) ((5 * η + 2e-15) * x ^ 4) := by
  obtain ⟨a, rfl, da⟩ := ha
  have hx : 0 < x := lt_of_lt_of_le (by norm_num) h0
  obtain ⟨t, rfl⟩ : ∃ t, a = t * x := ⟨a / x, by field_simp⟩
  have dt : |t - 1| ≤ η := by
    rw [show t * x - x = (t - 1) * x by ring, abs_mul, abs_of_pos hx] at da
    exact le_of_mul_le_mul_right da hx
  obtain ⟨t1, t2⟩ := abs_le.1 dt
  have ht : 0 < t := by linarith [hη.2]
  have ha0 : 0 < t * x := mul_pos ht hx
  have p4 : |t ^ 4 - 1| ≤ 9 / 2 * η := by
    have e : t ^ 4 - 1 = (t - 1) * (t ^ 3 + t ^ 2 + t + 1) := by ring
    have u : t ≤ 1.001 := by norm_num at hη ⊢; linarith [hη.2]
    have s0 : 0 ≤ t ^ 3 + t ^ 2 + t + 1 := by positivity
    have s1 : t ^ 3 + t ^ 2 + t + 1 ≤ 9 / 2 := by
      have := pow_le_pow_left₀ ht.le u 3
      have := pow_le_pow_left₀ ht.le u 2
      norm_num at *; linarith
    rw [e, abs_mul, abs_of_nonneg s0]
    have := mul_le_mul dt s1 s0 hη.1
    linarith
  obtain ⟨p5, p6⟩ := abs_le.1 p4
  have x4 : 0 < x ^ 4 := by positivity
  have t4 : t ^ 4 ≤ 1.01 := by norm_num at hη ⊢; linarith [hη.2]
  have t4' : 0.9 ≤ t ^ 4 := by norm_num at hη ⊢; linarith [hη.2]
  have e4 : (t * x) ^ (4 : ℝ) = t ^ 4 * x ^ 4 := by rw [rpow_four', mul_pow]
  have ep : |(t * x) ^ (4 : ℝ)| = t ^ 4 * x ^ 4 := by rw [e4, abs_of_pos (by positivity)]
  have b1 : (1e-160 : ℝ) ≤ x ^ 4 := by
    have := pow_le_pow_left₀ (by norm_num) h0 4
    exact le_trans (by norm_num) this
  have b2 : x ^ 4 ≤ 1e160 := (pow_le_pow_left₀ hx.le h1 4).trans (by norm_num)
  have c1 : 0.9 * x ^ 4 ≤ t ^ 4 * x ^ 4 := mul_le_mul_of_nonneg_right t4' x4.le
  have c2 : t ^ 4 * x ^ 4 ≤ 1.01 * x ^ 4 := mul_le_mul_of_nonneg_right t4 x4.le
  obtain ⟨z, ez, dz⟩ := hF.pow (t * x) 4 ha0.ne' (.inl ha0)
    (by rw [ep]; refine le_trans ?_ c1; norm_num at b1 ⊢; linarith)
    (by rw [ep]; refine c2.trans ?_; norm_num at b2 ⊢; linarith)
  refine ⟨.fin z, ?_, z, rfl, ?_⟩
  · simp [FP.pow, ha0.ne', not_lt.2 ha0.le, ez]
  · rw [ep, e4] at dz
    have d2 : |t ^ 4 * x ^ 4 - x ^ 4| ≤ 9 / 2 * η * x ^ 4 := by
      rw [show t ^ 4 * x ^ 4 - x ^ 4 = (t ^ 4 - 1) * x ^ 4 by ring, abs_mul, abs_of_pos x4]
      exact mul_le_mul_of_nonneg_right p4 x4.le
    have d3 := abs_add_le (z - t ^ 4 * x ^ 4) (t ^ 4 * x ^ 4 - x ^ 4)
    rw [sub_add_sub_cancel] at d3
    have hη4 := mul_nonneg hη.1 x4.le
    norm_num at dz c2 ⊢
    nlinarith

/-- `a ** 0.5` of a number of at least `r ^ 2` -/
theorem half (hF : F.Digits15) {δ₁ r : ℝ} (ha : Approx a x δ₁) (hr : 1 ≤ r) (hx0 : r ^ 2 ≤ x) (hx : x ≤ M ^ 2) (hM : 0 ≤ M)
    (hd1 : δ₁ ≤ r ^ 2 / 2 ∧ M ≤ 1e90) (hd' : δ₁ / r + 1e-15 * (M + δ₁ / r) ≤ δ') :
    ∃ n, F.pow a (F.lit 0.5) = pure n ∧ Approx n (Real.sqrt x) δ' := by
  have eh : F.lit 0.5 = .fin 0.5 := by rw [FP.lit, show ((0.5 : ℚ) : ℝ) = 0.5 by norm_num, hF.half]
  have hr2 : 1 ≤ r ^ 2 := one_le_pow₀ hr
  obtain ⟨a, rfl, da⟩ := ha
  obtain ⟨d1, d2⟩ := abs_le.1 da
  have ha0 : 1 / 2 ≤ a := by linarith [hd1.1]
  have hap : 0 < a := by linarith
  have es : a ^ (0.5 : ℝ) = Real.sqrt a := by rw [Real.sqrt_eq_rpow]; norm_num
  have sx : r ≤ Real.sqrt x := Real.le_sqrt_of_sq_le hx0
  have sM : Real.sqrt x ≤ M := Real.sqrt_le_iff.2 ⟨hM, hx⟩
  have hx1 : 0 ≤ x := by linarith
  have diff : |Real.sqrt a - Real.sqrt x| ≤ δ₁ / r := by
    have h := Real.mul_self_sqrt hap.le
    have h' := Real.mul_self_sqrt hx1
    have e : Real.sqrt a - Real.sqrt x = (a - x) / (Real.sqrt a + Real.sqrt x) := by
      rw [eq_div_iff (by linarith [Real.sqrt_nonneg a])]; linarith
    rw [e, abs_div]
    refine div_le_div₀ ((abs_nonneg _).trans da) da (by linarith) ?_
    exact le_trans (by linarith [Real.sqrt_nonneg a]) (le_abs_self _)
  have dn := (abs_nonneg _).trans diff
  obtain ⟨f1, f2⟩ := abs_le.1 diff
  have sa : 1 / 2 ≤ Real.sqrt a := Real.le_sqrt_of_sq_le (by linarith)
  have sr : δ₁ / r ≤ r / 2 := by rw [div_le_iff₀ (by linarith)]; nlinarith [hd1.1]
  have hub : Real.sqrt a ≤ M + δ₁ / r := by linarith
  have hM9 := hd1.2
  obtain ⟨z, ez, dz⟩ := hF.pow a 0.5 hap.ne' (.inl hap)
    (by rw [es, abs_of_nonneg (Real.sqrt_nonneg a)]; exact le_trans (by norm_num) sa)
    (by rw [es, abs_of_nonneg (Real.sqrt_nonneg a)]; norm_num at hM9 ⊢; linarith)
  rw [es, abs_of_nonneg (Real.sqrt_nonneg a)] at dz
  refine ⟨.fin z, ?_, z, rfl, ?_⟩
  · rw [eh]
    have : (0.5 : ℝ) ≠ 0 := by norm_num
    simp only [FP.pow, this, if_false, hap.ne', not_lt.2 hap.le, false_and, ez]
  · have := abs_add_le (z - Real.sqrt a) (Real.sqrt a - Real.sqrt x)
    rw [sub_add_sub_cancel] at this
    have : 1e-15 * Real.sqrt a ≤ 1e-15 * (M + δ₁ / r) := mul_le_mul_of_nonneg_left hub (by norm_num)
    linarith

end Approx

end PyX
