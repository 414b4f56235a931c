import Verif.Lemmas.Approx
import Verif.Lemmas.Terms
import Mathlib.Analysis.SpecialFunctions.Exponential

/-!
# Relative errors, integer powers and sums of terms in floating point arithmetic
-/

namespace PyX

open Classical Py Num

/-- `n` is a finite number with a relative distance of at most `η` from `x` -/
def Rel (n : Num) (x η : ℝ) : Prop := Approx n x (η * |x|)

/-- zero, or of a magnitude between `10 ^ -k` and `10 ^ k` -/
def Rng (z : ℝ) (k : ℕ) : Prop := z = 0 ∨ (10 ^ k)⁻¹ ≤ |z| ∧ |z| ≤ 10 ^ k

namespace Rng

variable {x y : ℝ} {k l : ℕ}

theorem mono (h : Rng x k) (hk : k ≤ l) : Rng x l := by
  have e : (10 : ℝ) ^ k ≤ 10 ^ l := pow_le_pow_right₀ (by norm_num) hk
  rcases h with h | ⟨h1, h2⟩
  · exact .inl h
  · exact .inr ⟨le_trans (inv_anti₀ (by positivity) e) h1, h2.trans e⟩

theorem mul (hx : Rng x k) (hy : Rng y l) : Rng (x * y) (k + l) := by
  rcases hx with rfl | ⟨h1, h2⟩
  · exact .inl (zero_mul y)
  rcases hy with rfl | ⟨h3, h4⟩
  · exact .inl (mul_zero x)
  rw [Rng, abs_mul, pow_add, mul_inv]
  exact .inr ⟨mul_le_mul h1 h3 (by positivity) (abs_nonneg _), mul_le_mul h2 h4 (abs_nonneg _) (by positivity)⟩

private theorem pow {z : ℝ} (h : (10 ^ k)⁻¹ ≤ z ∧ z ≤ 10 ^ k) (j : ℕ) : (10 ^ (k * j))⁻¹ ≤ z ^ j ∧ z ^ j ≤ 10 ^ (k * j) := by
  have z0 : 0 ≤ z := le_trans (by positivity) h.1
  rw [pow_mul, ← inv_pow]
  exact ⟨pow_le_pow_left₀ (by positivity) h.1 j, pow_le_pow_left₀ z0 h.2 j⟩

theorem zpow (hx : Rng x k) (x0 : x ≠ 0) (n : ℤ) : Rng (x ^ n) (k * n.natAbs) := by
  have h := hx.resolve_left x0
  right
  rw [abs_zpow]
  obtain ⟨j, rfl | rfl⟩ := n.eq_nat_or_neg
  · simpa using pow h j
  · have := pow h j
    simp only [zpow_neg, zpow_natCast, Int.natAbs_neg, Int.natAbs_natCast]
    have z0 : 0 < |x| ^ j := pow_pos (abs_pos.2 x0) j
    exact ⟨inv_anti₀ z0 this.2, by rw [inv_le_comm₀ z0 (by positivity)]; exact this.1⟩

theorem int (n : ℤ) (hn : |(n : ℝ)| ≤ 10 ^ k) : Rng n k := by
  by_cases h : n = 0
  · exact .inl (by simp [h])
  · refine .inr ⟨?_, hn⟩
    have : (1 : ℝ) ≤ |(n : ℝ)| := by exact_mod_cast Int.one_le_abs h
    exact le_trans (inv_le_one_of_one_le₀ (one_le_pow₀ (by norm_num))) this

end Rng

variable {F : FP}

namespace Rel

variable {a b : Num} {x y η η₁ η₂ η' : ℝ}

theorem exact (x : ℝ) : Rel (.fin x) x 0 := ⟨x, rfl, by simp⟩

theorem mono (h : Rel a x η) (hη : η ≤ η') : Rel a x η' :=
  Approx.mono h (mul_le_mul_of_nonneg_right hη (abs_nonneg x))

theorem lit (hF : F.Digits15) (q : ℚ) (h : (q : ℝ) = x) (h0 : 1e-100 ≤ |x|) (h1 : |x| ≤ 1e100) : Rel (F.lit q) x 1e-15 := by
  rw [FP.lit, h]
  exact hF.round.rel x (le_trans (by norm_num) h0) (h1.trans (by norm_num))

theorem mul (hF : F.Digits15) (ha : Rel a x η₁) (hb : Rel b y η₂) {k : ℕ} (hr : Rng (x * y) k) (hk : k ≤ 150)
    (hη : 0 ≤ η₁ ∧ 0 ≤ η₂ ∧ η₁ + η₂ + η₁ * η₂ ≤ 1 / 2 ∧ (η₁ + η₂ + η₁ * η₂) + 1e-15 * (1 + (η₁ + η₂ + η₁ * η₂)) ≤ η') :
    Rel (F.mul a b) (x * y) η' := by
  obtain ⟨a, rfl, da⟩ := ha
  obtain ⟨b, rfl, db⟩ := hb
  change Rel (F.rnd (a * b)) (x * y) η'
  set κ := η₁ + η₂ + η₁ * η₂ with hκ
  have d : |a * b - x * y| ≤ κ * |x * y| := by
    have e : a * b - x * y = x * (b - y) + (a - x) * y + (a - x) * (b - y) := by ring
    have k1 : |x * (b - y)| ≤ |x| * (η₂ * |y|) := by rw [abs_mul]; exact mul_le_mul_of_nonneg_left db (abs_nonneg _)
    have k2 : |(a - x) * y| ≤ η₁ * |x| * |y| := by rw [abs_mul]; exact mul_le_mul_of_nonneg_right da (abs_nonneg _)
    have k3 : |(a - x) * (b - y)| ≤ η₁ * |x| * (η₂ * |y|) := by
      rw [abs_mul]; exact mul_le_mul da db (abs_nonneg _) ((abs_nonneg _).trans da)
    have n1 := abs_add_le (x * (b - y) + (a - x) * y) ((a - x) * (b - y))
    have n2 := abs_add_le (x * (b - y)) ((a - x) * y)
    rw [e, abs_mul, hκ]
    calc _ ≤ |x| * (η₂ * |y|) + η₁ * |x| * |y| + η₁ * |x| * (η₂ * |y|) := by linarith
      _ = _ := by ring
  rcases hr.mono hk with h0 | ⟨h0, h1⟩
  rotate_left
  · have t1 := abs_sub_abs_le_abs_sub (x * y) (a * b)
    have t2 := abs_sub_abs_le_abs_sub (a * b) (x * y)
    rw [abs_sub_comm (x * y)] at t1
    have hm := mul_le_mul_of_nonneg_right hη.2.2.1 (abs_nonneg (x * y))
    obtain ⟨z, ez, dz⟩ := hF.round.rel (a * b) (le_trans (b := 1 / 2 * (10 ^ 150)⁻¹) (by norm_num) (by linarith))
      (le_trans (b := 3 / 2 * 10 ^ 150) (by linarith) (by norm_num))
    refine ⟨z, ez, ?_⟩
    have t3 := abs_add_le (z - a * b) (a * b - x * y)
    rw [sub_add_sub_cancel] at t3
    have t4 : 1e-15 * |a * b| ≤ 1e-15 * ((1 + κ) * |x * y|) := mul_le_mul_of_nonneg_left (by linarith) (by norm_num)
    have t5 := mul_le_mul_of_nonneg_right hη.2.2.2 (abs_nonneg (x * y))
    linarith
  · rw [h0, abs_zero, mul_zero, sub_zero] at d
    have : a * b = 0 := abs_eq_zero.1 (le_antisymm d (abs_nonneg _))
    rw [this, h0]
    exact ⟨0, by simpa using hF.round.int_exact 0 (by norm_num), by simp⟩

theorem div (hF : F.Digits15) (ha : Rel a x η₁) (hb : Rel b y η₂) (hy : y ≠ 0) {k : ℕ} (hr : Rng (x / y) k) (hk : k ≤ 150)
    (hη : 0 ≤ η₁ ∧ 0 ≤ η₂ ∧ η₁ + η₂ ≤ 1e-6 ∧ 1.001 * (η₁ + η₂) + 2e-15 ≤ η') :
    ∃ n, F.div a b = pure n ∧ Rel n (x / y) η' := by
  obtain ⟨a, rfl, da⟩ := ha
  obtain ⟨b, rfl, db⟩ := hb
  obtain ⟨p1, p2, p3, p4⟩ := hη
  have y0 : 0 < |y| := abs_pos.2 hy
  have hb1 : (1 - 1e-6) * |y| ≤ |b| := by
    have := abs_sub_abs_le_abs_sub y b
    rw [abs_sub_comm] at this
    have h2 : η₂ * |y| ≤ 1e-6 * |y| := mul_le_mul_of_nonneg_right (by linarith) y0.le
    linarith
  have b0 : 0 < |b| := lt_of_lt_of_le (mul_pos (by norm_num) y0) hb1
  have hb0 : b ≠ 0 := abs_pos.1 b0
  have d : |a / b - x / y| ≤ 1.0001 * (η₁ + η₂) * |x / y| := by
    have e : a / b - x / y = ((a - x) * y - x * (b - y)) / (b * y) := by field_simp; ring
    have k1 : |(a - x) * y| ≤ η₁ * |x| * |y| := by rw [abs_mul]; exact mul_le_mul_of_nonneg_right da (abs_nonneg _)
    have k2 : |x * (b - y)| ≤ |x| * (η₂ * |y|) := by rw [abs_mul]; exact mul_le_mul_of_nonneg_left db (abs_nonneg _)
    have k3 := abs_sub ((a - x) * y) (x * (b - y))
    rw [e, abs_div, abs_mul b y, abs_div, div_le_iff₀ (mul_pos b0 y0)]
    have k4 : |x| / |y| * ((1 - 1e-6) * |y| * |y|) ≤ |x| / |y| * (|b| * |y|) :=
      mul_le_mul_of_nonneg_left (mul_le_mul_of_nonneg_right hb1 y0.le) (by positivity)
    rw [show |x| / |y| * ((1 - 1e-6) * |y| * |y|) = (1 - 1e-6) * (|x| * |y|) by field_simp] at k4
    have k5 := mul_le_mul_of_nonneg_left k4 (show 0 ≤ 1.0001 * (η₁ + η₂) by positivity)
    have k6 : 0 ≤ (η₁ + η₂) * (|x| * |y|) := by positivity
    calc _ ≤ (η₁ + η₂) * (|x| * |y|) := by linarith
      _ ≤ 1.0001 * (η₁ + η₂) * ((1 - 1e-6) * (|x| * |y|)) := by
        rw [show 1.0001 * (η₁ + η₂) * ((1 - 1e-6) * (|x| * |y|)) = 1.0001 * (1 - 1e-6) * ((η₁ + η₂) * (|x| * |y|)) by ring]
        norm_num at *; linarith
      _ ≤ _ := by rw [mul_assoc (1.0001 * (η₁ + η₂))]; exact k5
  rw [show F.div (.fin a) (.fin b) = pure (F.rnd (a / b)) by simp [FP.div, hb0]]
  refine ⟨_, rfl, ?_⟩
  have hκ : 1.0001 * (η₁ + η₂) ≤ 1 / 2 := by norm_num at *; linarith
  rcases hr.mono hk with h0 | ⟨h0, h1⟩
  · rw [h0, abs_zero, mul_zero, sub_zero] at d
    have : a / b = 0 := abs_eq_zero.1 (le_antisymm d (abs_nonneg _))
    rw [this, h0]
    exact ⟨0, by simpa using hF.round.int_exact 0 (by norm_num), by simp⟩
  · have t1 := abs_sub_abs_le_abs_sub (x / y) (a / b)
    have t2 := abs_sub_abs_le_abs_sub (a / b) (x / y)
    rw [abs_sub_comm (x / y)] at t1
    have hm := mul_le_mul_of_nonneg_right hκ (abs_nonneg (x / y))
    obtain ⟨z, ez, dz⟩ := hF.round.rel (a / b) (le_trans (b := 1 / 2 * (10 ^ 150)⁻¹) (by norm_num) (by linarith))
      (le_trans (b := 3 / 2 * 10 ^ 150) (by linarith) (by norm_num))
    refine ⟨z, ez, ?_⟩
    have t3 := abs_add_le (z - a / b) (a / b - x / y)
    rw [sub_add_sub_cancel] at t3
    have t4 : 1e-15 * |a / b| ≤ 1e-15 * (3 / 2 * |x / y|) := mul_le_mul_of_nonneg_left (by linarith) (by norm_num)
    have t5 := mul_le_mul_of_nonneg_right p4 (abs_nonneg (x / y))
    have t6 : 0 ≤ (η₁ + η₂) * |x / y| := by positivity
    generalize |x / y| = X at *
    generalize |a / b| = A at *
    generalize |z - x / y| = Z at *
    norm_num at *
    linarith

theorem abs (h : Rel a x η) {δ : ℝ} (hd : η * |x| ≤ δ) : Approx a x δ := Approx.mono h hd

private theorem pow_near {t κ : ℝ} (k : ℕ) (K : ℝ) (h : |t - 1| ≤ η) (hk : (k : ℝ) ≤ K) (hκ : κ = K * η) (hs : κ ≤ 1e-3) (h1 : η ≤ 1e-3) :
    |t ^ k - 1| ≤ 1.01 * κ := by
  have h0 : 0 ≤ η := (abs_nonneg _).trans h
  obtain ⟨a, b⟩ := abs_le.1 h
  have ht : 0 ≤ t := by norm_num at h1; linarith
  have hkη : (k : ℝ) * η ≤ κ := by rw [hκ]; exact mul_le_mul_of_nonneg_right hk h0
  have hk0 : 0 ≤ (k : ℝ) * η := by positivity
  have lo : 1 - κ ≤ t ^ k := by
    have := one_add_mul_le_pow (a := -η) (by norm_num at h1; linarith) k
    have h2 : (1 + -η) ^ k ≤ t ^ k := pow_le_pow_left₀ (by norm_num at h1; linarith) (by linarith) k
    linarith
  have hi : t ^ k ≤ 1 + 1.01 * κ := by
    have h2 : t ^ k ≤ Real.exp η ^ k := pow_le_pow_left₀ ht (by linarith [Real.add_one_le_exp η]) k
    rw [← Real.exp_nat_mul] at h2
    have h3 : Real.exp (k * η) ≤ Real.exp κ := Real.exp_le_exp.2 hkη
    have h4 := (abs_le.1 (Real.abs_exp_sub_one_sub_id_le (x := κ) (by rw [abs_le]; norm_num at hs; constructor <;> linarith))).2
    have h5 : κ ^ 2 ≤ 0.01 * κ := by rw [pow_two]; exact mul_le_mul_of_nonneg_right (by norm_num at hs ⊢; linarith) (by linarith)
    norm_num at h5 ⊢; linarith
  rw [abs_le]
  constructor <;> norm_num at * <;> linarith

private theorem zpow_near {t κ K : ℝ} (n : ℤ) (h : |t - 1| ≤ η) (hn : |(n : ℝ)| ≤ K) (hκ : κ = K * η) (hs : κ ≤ 1e-3) (h1 : η ≤ 1e-3) :
    |t ^ n - 1| ≤ 1.1 * κ := by
  have h0 : 0 ≤ η := (abs_nonneg _).trans h
  have hκ0 : 0 ≤ κ := by rw [hκ]; exact mul_nonneg ((abs_nonneg _).trans hn) h0
  obtain ⟨k, rfl | rfl⟩ := n.eq_nat_or_neg
  · have := pow_near (t := t) k K h (by simpa using hn) hκ hs h1
    rw [zpow_natCast]
    norm_num at *; linarith
  · have := pow_near (t := t) k K h (by simpa using hn) hκ hs h1
    rw [zpow_neg, zpow_natCast]
    obtain ⟨a, b⟩ := abs_le.1 this
    have hp : 0.99 ≤ t ^ k := by norm_num at *; linarith
    have hp0 : 0 < t ^ k := lt_of_lt_of_le (by norm_num) hp
    rw [show (t ^ k)⁻¹ - 1 = -(t ^ k - 1) / t ^ k by field_simp; ring, abs_div, abs_neg, abs_of_pos hp0, div_le_iff₀ hp0]
    have : 1.1 * κ * 0.99 ≤ 1.1 * κ * t ^ k := mul_le_mul_of_nonneg_left hp (by positivity)
    norm_num at *; linarith

/-- `a ** n` for a positive number and an integer -/
theorem zpow (hF : F.Digits15) (ha : Rel a x η) (hx : 0 < x) (n : ℤ) (K : ℝ) (hn : |(n : ℝ)| ≤ K) {k : ℕ} (hr : Rng (x ^ n) k) (hk : k ≤ 150)
    (hK : K * η ≤ 1e-3 ∧ 0 ≤ η ∧ η ≤ 1e-3) (hη' : 1.2 * (K * η) + 2e-15 ≤ η') :
    ∃ m, F.pow a (Num.ofInt n) = pure m ∧ Rel m (x ^ n) η' := by
  obtain ⟨a, rfl, da⟩ := ha
  rw [abs_of_pos hx] at da
  obtain ⟨t, rfl⟩ : ∃ t, a = t * x := ⟨a / x, by field_simp⟩
  have dt : |t - 1| ≤ η := by
    rw [show t * x - x = (t - 1) * x by ring, abs_mul, abs_of_pos hx] at da
    exact le_of_mul_le_mul_right da hx
  have ht : 0 < t := by have := (abs_le.1 dt).1; have := hK.2.2; norm_num at *; linarith
  have hKη : 0 ≤ K * η := mul_nonneg ((abs_nonneg _).trans hn) hK.2.1
  rw [ofInt_eq]
  by_cases n0 : n = 0
  · subst n0
    exact ⟨.fin 1, by simp [FP.pow], 1, rfl, by simp; linarith⟩
  have nr : (n : ℝ) ≠ 0 := by exact_mod_cast n0
  have ha0 : 0 < t * x := mul_pos ht hx
  have z := zpow_near n dt hn rfl hK.1 hK.2.2
  obtain ⟨z1, z2⟩ := abs_le.1 z
  have hKs := hK.1
  have e : (t * x) ^ (n : ℝ) = t ^ n * x ^ n := by rw [Real.rpow_intCast, mul_zpow]
  have px : 0 < x ^ n := zpow_pos hx n
  have pt : 0 < t ^ n := zpow_pos ht n
  have ep : |(t * x) ^ (n : ℝ)| = t ^ n * x ^ n := by rw [e, abs_of_pos (mul_pos pt px)]
  have bx : (10 ^ 150)⁻¹ ≤ x ^ n ∧ x ^ n ≤ 10 ^ 150 := by
    have := (hr.mono hk).resolve_left px.ne'
    rwa [abs_of_pos px] at this
  have t1 : 0.9 ≤ t ^ n := by norm_num at *; linarith
  have t2 : t ^ n ≤ 1.1 := by norm_num at *; linarith
  have c1 : 0.9 * x ^ n ≤ t ^ n * x ^ n := mul_le_mul_of_nonneg_right t1 px.le
  have c2 : t ^ n * x ^ n ≤ 1.1 * x ^ n := mul_le_mul_of_nonneg_right t2 px.le
  obtain ⟨w, ew, dw⟩ := hF.pow (t * x) n ha0.ne' (.inl ha0)
    (by rw [ep]; refine le_trans ?_ c1; norm_num at bx ⊢; linarith [bx.1])
    (by rw [ep]; refine c2.trans ?_; norm_num at bx ⊢; linarith [bx.2])
  refine ⟨.fin w, ?_, w, rfl, ?_⟩
  · simp [FP.pow, nr, ha0.ne', not_lt.2 ha0.le, ew]
  · rw [ep, e] at dw
    rw [abs_of_pos px]
    have d2 : |t ^ n * x ^ n - x ^ n| ≤ 1.1 * (K * η) * x ^ n := by
      rw [show t ^ n * x ^ n - x ^ n = (t ^ n - 1) * x ^ n by ring, abs_mul, abs_of_pos px]
      exact mul_le_mul_of_nonneg_right z px.le
    have d3 := abs_add_le (w - t ^ n * x ^ n) (t ^ n * x ^ n - x ^ n)
    rw [sub_add_sub_cancel] at d3
    have d4 := mul_le_mul_of_nonneg_right hη' px.le
    have d5 := mul_nonneg hKη px.le
    have d6 : 1e-15 * (t ^ n * x ^ n) ≤ 1e-15 * (1.1 * x ^ n) := mul_le_mul_of_nonneg_left c2 (by norm_num)
    norm_num at *; linarith

end Rel

/-- the product in the terms of the equations -/
theorem Rel.prod4 (hF : F.Digits15) {a b c d : Num} {x y z w η₁ η₂ η₃ η₄ η' : ℝ} (ha : Rel a x η₁) (hb : Rel b y η₂) (hc : Rel c z η₃) (hd : Rel d w η₄)
    {k₁ k₂ k₃ k₄ : ℕ} (ra : Rng x k₁) (rb : Rng y k₂) (rc : Rng z k₃) (rd : Rng w k₄) (hk : k₁ + k₂ + k₃ + k₄ ≤ 150)
    (h0 : 0 ≤ η₁ ∧ 0 ≤ η₂ ∧ 0 ≤ η₃ ∧ 0 ≤ η₄ ∧ η₁ + η₂ + η₃ + η₄ ≤ 1e-6) (h1 : 1.001 * (η₁ + η₂ + η₃ + η₄) + 4e-15 ≤ η') :
    Rel (F.mul (F.mul (F.mul a b) c) d) (x * y * z * w) η' := by
  obtain ⟨p1, p2, p3, p4, p5⟩ := h0
  have q1 : η₁ * η₂ ≤ 1e-6 * η₂ := mul_le_mul_of_nonneg_right (by linarith) p2
  have q1' : 0 ≤ η₁ * η₂ := mul_nonneg p1 p2
  have m1 := ha.mul hF hb (η' := 1.00001 * (η₁ + η₂) + 1.1e-15) (ra.mul rb) (by omega) (by norm_num at *; refine ⟨p1, p2, ?_, ?_⟩ <;> linarith)
  set e1 := 1.00001 * (η₁ + η₂) + 1.1e-15 with he1
  have e10 : 0 ≤ e1 := by rw [he1]; norm_num at *; linarith
  have q2 : e1 * η₃ ≤ 1e-5 * η₃ := mul_le_mul_of_nonneg_right (by rw [he1]; norm_num at *; linarith) p3
  have q2' : 0 ≤ e1 * η₃ := mul_nonneg e10 p3
  have m2 := m1.mul hF hc (η' := 1.0001 * (e1 + η₃) + 1.1e-15) ((ra.mul rb).mul rc) (by omega)
    (by refine ⟨e10, p3, ?_, ?_⟩ <;> norm_num at * <;> linarith)
  set e2 := 1.0001 * (e1 + η₃) + 1.1e-15 with he2
  have e20 : 0 ≤ e2 := by rw [he2]; norm_num at *; linarith
  have q3 : e2 * η₄ ≤ 1e-5 * η₄ := mul_le_mul_of_nonneg_right (by rw [he2]; norm_num at *; linarith) p4
  have q3' : 0 ≤ e2 * η₄ := mul_nonneg e20 p4
  exact m2.mul hF hd (((ra.mul rb).mul rc).mul rd) (by omega) (by refine ⟨e20, p4, ?_, ?_⟩ <;> norm_num at * <;> linarith)

/-- a number `c` and a sum of terms, each with an error of at most `η` times its bound `X` -/
theorem loop_float_all (hF : F.Digits15) {α : Type} (t : List α) {N : ℕ} (hN : t.length = N) (g X : α → ℝ) (c : ℝ) {η S δ : ℝ} (f : ℕ → Num → Py Num)
    (hX : ∀ a ∈ t, |g a| ≤ X a) (hS : |c| + (t.map X).sum ≤ S) (hη : 0 ≤ η ∧ η ≤ 1e-3 ∧ 1 ≤ S ∧ S ≤ 1e20 ∧ N ≤ 100) (hd : S * (η + 2e-13) ≤ δ)
    (hf : ∀ i (hi : i < t.length), ∃ m : ℝ, |m - g t[i]| ≤ η * X t[i] ∧ ∀ s : ℝ, f i (.fin s) = pure (F.rnd (s + m))) :
    (∀ k ≤ N, ∃ r : ℝ, forRange 0 k (.fin c) f = pure (.fin r)) ∧
      ∃ r, forRange 0 N (.fin c) f = pure r ∧ Approx r (c + (t.map g).sum) δ := by
  subst hN
  obtain ⟨η0, η1, S1, S2, N1⟩ := hη
  have X0 : ∀ a ∈ t, 0 ≤ X a := fun a ha => (abs_nonneg _).trans (hX a ha)
  have part : ∀ k ≤ t.length, |((t.take k).map g).sum| ≤ ((t.take k).map X).sum ∧ 0 ≤ ((t.take k).map X).sum ∧
      |c| + ((t.take k).map X).sum ≤ S := by
    intro k hk
    have sub : ∀ a ∈ t.take k, a ∈ t := fun a ha => List.mem_of_mem_take ha
    refine ⟨?_, List.sum_nonneg fun y hy => by
      obtain ⟨a, ha, rfl⟩ := List.mem_map.1 hy
      exact X0 a (sub a ha), ?_⟩
    · generalize t.take k = l at sub
      induction l with
      | nil => simp
      | cons a l ih =>
        simp only [List.map_cons, List.sum_cons]
        have h1 := ih fun b hb => sub b (List.mem_cons_of_mem _ hb)
        have h2 := hX a (sub a List.mem_cons_self)
        exact (abs_add_le _ _).trans (add_le_add h2 h1)
    · refine le_trans ?_ hS
      conv_rhs => rw [← List.take_append_drop k t, List.map_append, List.sum_append]
      have : 0 ≤ ((t.drop k).map X).sum :=
        List.sum_nonneg fun y hy => by
          obtain ⟨a, ha, rfl⟩ := List.mem_map.1 hy
          exact X0 a (List.mem_of_mem_drop ha)
      linarith
  have main : ∀ k ≤ t.length, ∃ r : ℝ, forRange 0 k (.fin c) f = pure (.fin r) ∧
      |r - (c + ((t.take k).map g).sum)| ≤ η * ((t.take k).map X).sum + k * (2e-15 * S) := by
    intro k
    induction k with
    | zero => intro _; exact ⟨c, by simp [forRange], by simp⟩
    | succ k ih =>
      intro hk
      obtain ⟨r, er, dr⟩ := ih (by omega)
      obtain ⟨m, dm, em⟩ := hf k (by omega)
      have es : forRange 0 (k + 1) (.fin c) f = forRange 0 k (.fin c) f >>= fun s => f k s := by
        simp only [forRange, Nat.sub_zero]
        rw [List.range'_1_concat, List.foldlM_append]
        simp
      have st : ∀ h : α → ℝ, ((t.take (k + 1)).map h).sum = ((t.take k).map h).sum + h (t[k]'(by omega)) := fun h => by
        rw [List.take_succ_eq_append_getElem (by omega), List.map_append, List.sum_append]; simp
      have tg := st g
      have tX := st X
      obtain ⟨p1, p2, p3⟩ := part (k + 1) hk
      obtain ⟨q1, q2, q3⟩ := part k (by omega)
      have kN : (k : ℝ) ≤ 100 := by exact_mod_cast (by omega : k ≤ 100)
      have k0 : (0 : ℝ) ≤ k := Nat.cast_nonneg k
      have d1 : |r + m - (c + ((t.take (k + 1)).map g).sum)| ≤ η * ((t.take (k + 1)).map X).sum + k * (2e-15 * S) := by
        rw [tg, tX]
        have := abs_add_le (r - (c + ((t.take k).map g).sum)) (m - g t[k])
        rw [show r - (c + ((t.take k).map g).sum) + (m - g t[k]) = r + m - (c + (((t.take k).map g).sum + g t[k])) by ring] at this
        linarith
      have e1 : η * ((t.take (k + 1)).map X).sum ≤ 1e-3 * S := mul_le_mul η1 (by linarith [abs_nonneg c]) p2 (by norm_num)
      have e2 : (k : ℝ) * (2e-15 * S) ≤ 100 * (2e-15 * S) := mul_le_mul_of_nonneg_right kN (by positivity)
      have hb : |r + m| ≤ 1.1 * S := by
        have := abs_add_le (r + m - (c + ((t.take (k + 1)).map g).sum)) (c + ((t.take (k + 1)).map g).sum)
        rw [sub_add_cancel] at this
        have hc := abs_add_le c ((t.take (k + 1)).map g).sum
        norm_num at *; linarith
      obtain ⟨z, ez, dz⟩ := hF.round.abs hb (by norm_num at *; linarith)
      refine ⟨z, by rw [es, er, pure_bind, em, ez], ?_⟩
      have := abs_add_le (z - (r + m)) (r + m - (c + ((t.take (k + 1)).map g).sum))
      rw [sub_add_sub_cancel] at this
      push_cast
      norm_num at *; linarith
  refine ⟨fun k hk => ?_, ?_⟩
  · obtain ⟨r, er, -⟩ := main k hk
    exact ⟨r, er⟩
  obtain ⟨r, er, dr⟩ := main t.length le_rfl
  obtain ⟨-, q2, q3⟩ := part t.length le_rfl
  rw [List.take_length] at dr q2 q3
  refine ⟨_, er, r, rfl, dr.trans (le_trans ?_ hd)⟩
  have kN : (t.length : ℝ) ≤ 100 := by exact_mod_cast N1
  have e1 : η * (t.map X).sum ≤ η * S := mul_le_mul_of_nonneg_left (by linarith [abs_nonneg c]) η0
  have e2 : (t.length : ℝ) * (2e-15 * S) ≤ 100 * (2e-15 * S) := mul_le_mul_of_nonneg_right kN (by positivity)
  norm_num at *; linarith

theorem loop_float (hF : F.Digits15) {α : Type} (t : List α) {N : ℕ} (hN : t.length = N) (g X : α → ℝ) {η S δ : ℝ} (f : ℕ → Num → Py Num)
    (hX : ∀ a ∈ t, |g a| ≤ X a) (hS : (t.map X).sum ≤ S) (hη : 0 ≤ η ∧ η ≤ 1e-3 ∧ 1 ≤ S ∧ S ≤ 1e20 ∧ N ≤ 100) (hd : S * (η + 2e-13) ≤ δ)
    (hf : ∀ i (hi : i < t.length), ∃ m : ℝ, |m - g t[i]| ≤ η * X t[i] ∧ ∀ s : ℝ, f i (.fin s) = pure (F.rnd (s + m))) :
    ∃ r, forRange 0 N (Num.ofInt 0) f = pure r ∧ Approx r (t.map g).sum δ := by
  have := (loop_float_all hF t hN g X 0 f hX (by simpa using hS) hη hd hf).2
  rwa [zero_add, show (Num.fin 0 : Num) = Num.ofInt 0 by rw [ofInt_eq]; simp] at this

private theorem forRange_succ {σ : Type} (k : ℕ) (s : σ) (f : ℕ → σ → Py σ) :
    forRange 0 (k + 1) s f = forRange 0 k s f >>= fun s => f k s := by
  simp only [forRange, Nat.sub_zero]
  rw [List.range'_1_concat, List.foldlM_append]
  simp

/-- two sums in one loop, starting from `c` and `c'` -/
theorem loop_float2_from (hF : F.Digits15) {α : Type} (t : List α) {N : ℕ} (hN : t.length = N) (g g' X X' : α → ℝ) (c c' : ℝ) {η S S' δ δ' : ℝ}
    (f : ℕ → Num × Num → Py (Num × Num))
    (hX : ∀ a ∈ t, |g a| ≤ X a) (hS : |c| + (t.map X).sum ≤ S) (hη : 0 ≤ η ∧ η ≤ 1e-3 ∧ 1 ≤ S ∧ S ≤ 1e20 ∧ N ≤ 100) (hd : S * (η + 2e-13) ≤ δ)
    (hX' : ∀ a ∈ t, |g' a| ≤ X' a) (hS' : |c'| + (t.map X').sum ≤ S') (hη' : 1 ≤ S' ∧ S' ≤ 1e20) (hd' : S' * (η + 2e-13) ≤ δ')
    (hf : ∀ i (hi : i < t.length), ∃ m m' : ℝ, |m - g t[i]| ≤ η * X t[i] ∧ |m' - g' t[i]| ≤ η * X' t[i] ∧
      ∀ s s' : ℝ, f i (.fin s, .fin s') = pure (F.rnd (s + m), F.rnd (s' + m'))) :
    ∃ r r', forRange 0 N (.fin c, .fin c') f = pure (r, r') ∧ Approx r (c + (t.map g).sum) δ ∧ Approx r' (c' + (t.map g').sum) δ' := by
  have hc : ∀ i, ∃ m m' : ℝ, ∀ hi : i < t.length, |m - g t[i]| ≤ η * X t[i] ∧ |m' - g' t[i]| ≤ η * X' t[i] ∧
      ∀ s s' : ℝ, f i (.fin s, .fin s') = pure (F.rnd (s + m), F.rnd (s' + m')) := fun i => by
    by_cases hi : i < t.length
    · obtain ⟨m, m', h⟩ := hf i hi
      exact ⟨m, m', fun _ => h⟩
    · exact ⟨0, 0, fun h => absurd h hi⟩
  choose m m' h using hc
  let f0 : (ℕ → ℝ) → ℕ → Num → Py Num := fun m i s => match s with
    | .fin s => pure (F.rnd (s + m i))
    | s => pure s
  obtain ⟨a1, r, er, hr⟩ := loop_float_all hF t hN g X c (f0 m) hX hS hη hd fun i hi => ⟨m i, (h i hi).1, fun s => rfl⟩
  obtain ⟨a2, r', er', hr'⟩ := loop_float_all hF t hN g' X' c' (f0 m') hX' hS' ⟨hη.1, hη.2.1, hη'.1, hη'.2, hη.2.2.2.2⟩ hd'
    fun i hi => ⟨m' i, (h i hi).2.1, fun s => rfl⟩
  have key : ∀ k ≤ N, ∀ r r' : Num, forRange 0 k (.fin c) (f0 m) = pure r → forRange 0 k (.fin c') (f0 m') = pure r' →
      forRange 0 k (.fin c, .fin c') f = pure (r, r') := by
    intro k
    induction k with
    | zero =>
      intro _ r r' e e'
      simp only [forRange, Nat.sub_self, List.range'_zero, List.foldlM_nil] at e e' ⊢
      have e1 : Num.fin c = r := by injection e with _ o; injection o
      have e2 : Num.fin c' = r' := by injection e' with _ o; injection o
      rw [← e1, ← e2]
    | succ k ih =>
      intro hk r r' e e'
      obtain ⟨z, ez⟩ := a1 k (by omega)
      obtain ⟨z', ez'⟩ := a2 k (by omega)
      rw [forRange_succ, ez, pure_bind] at e
      rw [forRange_succ, ez', pure_bind] at e'
      rw [forRange_succ, ih (by omega) _ _ ez ez', pure_bind, (h k (by omega)).2.2]
      have e1 : F.rnd (z + m k) = r := by injection e with _ o; injection o
      have e2 : F.rnd (z' + m' k) = r' := by injection e' with _ o; injection o
      rw [e1, e2]
  exact ⟨r, r', key N le_rfl r r' er er', hr, hr'⟩

/-- two sums in one loop -/
theorem loop_float2 (hF : F.Digits15) {α : Type} (t : List α) {N : ℕ} (hN : t.length = N) (g g' X X' : α → ℝ) {η S S' δ δ' : ℝ}
    (f : ℕ → Num × Num → Py (Num × Num))
    (hX : ∀ a ∈ t, |g a| ≤ X a) (hS : (t.map X).sum ≤ S) (hη : 0 ≤ η ∧ η ≤ 1e-3 ∧ 1 ≤ S ∧ S ≤ 1e20 ∧ N ≤ 100) (hd : S * (η + 2e-13) ≤ δ)
    (hX' : ∀ a ∈ t, |g' a| ≤ X' a) (hS' : (t.map X').sum ≤ S') (hη' : 1 ≤ S' ∧ S' ≤ 1e20) (hd' : S' * (η + 2e-13) ≤ δ')
    (hf : ∀ i (hi : i < t.length), ∃ m m' : ℝ, |m - g t[i]| ≤ η * X t[i] ∧ |m' - g' t[i]| ≤ η * X' t[i] ∧
      ∀ s s' : ℝ, f i (.fin s, .fin s') = pure (F.rnd (s + m), F.rnd (s' + m'))) :
    ∃ r r', forRange 0 N (Num.ofInt 0, Num.ofInt 0) f = pure (r, r') ∧ Approx r (t.map g).sum δ ∧ Approx r' (t.map g').sum δ' := by
  have := loop_float2_from hF t hN g g' X X' 0 0 f hX (by simpa using hS) hη hd hX' (by simpa using hS') hη' hd' hf
  rwa [zero_add, zero_add, show (Num.fin 0 : Num) = Num.ofInt 0 by rw [ofInt_eq]; simp] at this

end PyX
