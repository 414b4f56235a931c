import Mathlib.Analysis.SpecialFunctions.Log.Deriv
import Mathlib.Analysis.Complex.ExponentialBounds
import Mathlib.Tactic.Linarith
import Mathlib.Tactic.Positivity
import Mathlib.Tactic.FieldSimp
import Mathlib.Tactic.Ring
import Mathlib.Tactic.NormNum

/-!
# Certified polynomials near the logarithm

`logErr` bounds, by integer arithmetic alone, the difference between a polynomial in `A x - a` and a multiple of `log x` on the
interval `|A x - a| ≤ b`.
-/

namespace PyX.Kron

open Finset Real

/-! ## Logarithms of rational numbers -/

/-- lower bound for `2^48 log ((zd + zn)/(zd - zn))` from `n` terms of the series -/
def atLo (zn zd : ℕ) : ℕ → ℕ
  | 0 => 0
  | n + 1 => Nat.add (atLo zn zd n) (Nat.div (Nat.mul (Nat.pow 2 49) (Nat.pow zn (Nat.succ (Nat.mul 2 n))))
      (Nat.mul (Nat.succ (Nat.mul 2 n)) (Nat.pow zd (Nat.succ (Nat.mul 2 n)))))

/-- what is missing at most -/
def atRem (zn zd n : ℕ) : ℕ :=
  Nat.add n (Nat.succ (Nat.div (Nat.mul (Nat.pow 2 49) (Nat.mul (Nat.pow zn (Nat.succ (Nat.mul 2 n))) (Nat.pow zd 2)))
    (Nat.mul (Nat.pow zd (Nat.succ (Nat.mul 2 n))) (Nat.sub (Nat.pow zd 2) (Nat.pow zn 2)))))

theorem div_bounds (m n : ℕ) (hn : 0 < n) : ((m / n : ℕ) : ℝ) ≤ m / n ∧ (m : ℝ) / n ≤ (m / n : ℕ) + 1 := by
  have hn' : (0 : ℝ) < n := by exact_mod_cast hn
  constructor
  · exact Nat.cast_div_le
  · rw [div_le_iff₀ hn']
    have := Nat.div_add_mod m n
    have h2 := Nat.mod_lt m hn
    have : m ≤ (m / n + 1) * n := by nlinarith
    exact_mod_cast this

theorem at_bounds {zn zd : ℕ} (hz : 0 < zd) (n : ℕ) :
    (atLo zn zd n : ℝ) ≤ 2 ^ 49 * ∑ i ∈ range n, ((zn : ℝ) / zd) ^ (2 * i + 1) / (2 * i + 1) ∧
      2 ^ 49 * ∑ i ∈ range n, ((zn : ℝ) / zd) ^ (2 * i + 1) / (2 * i + 1) ≤ atLo zn zd n + n := by
  have e2 : ∀ a b, Nat.pow a b = a ^ b := fun _ _ => rfl
  have hz' : (0 : ℝ) < zd := by exact_mod_cast hz
  induction n with
  | zero => simp [atLo]
  | succ n ih =>
    obtain ⟨h1, h2⟩ := div_bounds (2 ^ 49 * zn ^ (2 * n + 1)) ((2 * n + 1) * zd ^ (2 * n + 1)) (by positivity)
    have e : ((2 ^ 49 * zn ^ (2 * n + 1) : ℕ) : ℝ) / ((2 * n + 1) * zd ^ (2 * n + 1) : ℕ) =
        2 ^ 49 * (((zn : ℝ) / zd) ^ (2 * n + 1) / (2 * n + 1)) := by
      push_cast
      rw [div_pow]
      field_simp
      norm_num [mul_comm]
    rw [e] at h1 h2
    have ea : atLo zn zd (n + 1) = atLo zn zd n + 2 ^ 49 * zn ^ (2 * n + 1) / ((2 * n + 1) * zd ^ (2 * n + 1)) := rfl
    rw [sum_range_succ, mul_add, ea]
    push_cast at h1 h2 ⊢
    constructor <;> linarith [ih.1, ih.2]

/-- bounds for `2^48 log (a/A)`, `A ≤ a` -/
theorem lnU {a A : ℕ} (hA : 0 < A) (h : A ≤ a) (n : ℕ) :
    (atLo (a - A) (a + A) n : ℝ) ≤ 2 ^ 48 * log (a / A) ∧
      2 ^ 48 * log (a / A) ≤ (atLo (a - A) (a + A) n + atRem (a - A) (a + A) n : ℕ) := by
  have hA' : (0 : ℝ) < A := by exact_mod_cast hA
  have h' : (A : ℝ) ≤ a := by exact_mod_cast h
  have hd : (0 : ℝ) < a + A := by linarith
  set z : ℝ := ((a - A : ℕ) : ℝ) / (a + A : ℕ) with hz
  have ez : z = (a - A) / (a + A) := by rw [hz, Nat.cast_sub h]; push_cast; rfl
  have z0 : 0 ≤ z := by rw [ez]; exact div_nonneg (by linarith) hd.le
  have z1 : z < 1 := by rw [ez, div_lt_one hd]; linarith
  have er : (1 + z) / (1 - z) = a / A := by rw [ez]; field_simp; ring_nf; field_simp
  have l1 := sum_range_le_log_div z0 z1 n
  have l2 := log_div_le_sum_range_add z0 z1 n
  rw [er] at l1 l2
  obtain ⟨b1, b2⟩ := at_bounds (zn := a - A) (zd := a + A) (by omega) n
  rw [← hz] at b1 b2
  have hq : (a - A) ^ 2 < (a + A) ^ 2 := Nat.pow_lt_pow_left (by omega) (by norm_num)
  have hq0 : 0 < (a + A) ^ 2 - (a - A) ^ 2 := by omega
  have c1 := (div_bounds (2 ^ 49 * ((a - A) ^ (2 * n + 1) * (a + A) ^ 2))
    ((a + A) ^ (2 * n + 1) * ((a + A) ^ 2 - (a - A) ^ 2)) (Nat.mul_pos (Nat.pow_pos (by omega)) hq0)).2
  have e : ((2 ^ 49 * ((a - A) ^ (2 * n + 1) * (a + A) ^ 2) : ℕ) : ℝ) /
      ((a + A) ^ (2 * n + 1) * ((a + A) ^ 2 - (a - A) ^ 2) : ℕ) = 2 ^ 49 * (z ^ (2 * n + 1) / (1 - z ^ 2)) := by
    rw [hz]
    push_cast [Nat.cast_sub hq.le]
    have hz2 : 1 - (((a - A : ℕ) : ℝ) / (a + A)) ^ 2 ≠ 0 := by
      have : ((a - A : ℕ) : ℝ) / (a + A) = z := by rw [hz]; push_cast; rfl
      rw [this]; nlinarith
    have hq' : ((a : ℝ) + A) ^ 2 - ((a - A : ℕ) : ℝ) ^ 2 ≠ 0 := by
      have : (((a - A : ℕ) : ℝ)) ^ 2 < ((a : ℝ) + A) ^ 2 := by exact_mod_cast hq
      linarith
    have : 1 - (((a - A : ℕ) : ℝ) / (a + A)) ^ 2 = (((a : ℝ) + A) ^ 2 - ((a - A : ℕ) : ℝ) ^ 2) / (a + A) ^ 2 := by
      field_simp
    rw [this, div_pow]
    field_simp
    norm_num [mul_comm]
  rw [e] at c1
  have er2 : atRem (a - A) (a + A) n = n + (2 ^ 49 * ((a - A) ^ (2 * n + 1) * (a + A) ^ 2) /
    ((a + A) ^ (2 * n + 1) * ((a + A) ^ 2 - (a - A) ^ 2)) + 1) := rfl
  rw [er2]
  constructor
  · have := mul_le_mul_of_nonneg_left l1 (show (0 : ℝ) ≤ 2 ^ 49 by norm_num)
    have e4 : (2 : ℝ) ^ 49 * (1 / 2 * log (a / A)) = 2 ^ 48 * log (a / A) := by ring
    linarith
  · have := mul_le_mul_of_nonneg_left l2 (show (0 : ℝ) ≤ 2 ^ 49 by norm_num)
    have e4 : (2 : ℝ) ^ 49 * (1 / 2 * log (a / A)) = 2 ^ 48 * log (a / A) := by ring
    push_cast at c1 ⊢
    linarith

/-- lower bound for `2^48 log (a/A)` -/
def lnZ (a A : ℕ) : ℤ × ℤ :=
  if Nat.ble A a then
    (Int.ofNat (atLo (Nat.sub a A) (Nat.add a A) 8), Int.ofNat (Nat.add (atLo (Nat.sub a A) (Nat.add a A) 8) (atRem (Nat.sub a A) (Nat.add a A) 8)))
  else
    (Int.neg (Int.ofNat (Nat.add (atLo (Nat.sub A a) (Nat.add A a) 8) (atRem (Nat.sub A a) (Nat.add A a) 8))), Int.neg (Int.ofNat (atLo (Nat.sub A a) (Nat.add A a) 8)))

theorem lnZ_sound {a A : ℕ} (ha : 0 < a) (hA : 0 < A) :
    ((lnZ a A).1 : ℝ) ≤ 2 ^ 48 * log (a / A) ∧ 2 ^ 48 * log (a / A) ≤ (lnZ a A).2 := by
  unfold lnZ
  split_ifs with h
  · have := lnU hA (Nat.le_of_ble_eq_true h) 8
    exact_mod_cast this
  · have h : ¬ A ≤ a := fun h' => h (Nat.ble_eq_true_of_le h')
    obtain ⟨h1, h2⟩ := lnU ha (by omega : a ≤ A) 8
    have e : log ((a : ℝ) / A) = -log (A / a) := by rw [← log_inv, inv_div]
    rw [e]
    have c : ∀ n : ℕ, ((Int.neg (Int.ofNat n) : ℤ) : ℝ) = -(n : ℝ) := fun n => by
      change ((-(n : ℤ) : ℤ) : ℝ) = _
      push_cast; ring
    simp only [c, Nat.sub_eq, Nat.add_eq]
    constructor <;> linarith

/-- bounds for `2^48 log (a/A)`, using `log (a/A) = (k₂ - k₁) log 2 + log (a 2^k₁/(A 2^k₂))` -/
def lnQ (k1 k2 a A : ℕ) : ℤ × ℤ :=
  (Int.add (Int.sub (Int.ofNat (Nat.mul k2 195103586431999)) (Int.ofNat (Nat.mul k1 195103586572737))) (lnZ (Nat.mul a (Nat.pow 2 k1)) (Nat.mul A (Nat.pow 2 k2))).1,
   Int.add (Int.sub (Int.ofNat (Nat.mul k2 195103586572737)) (Int.ofNat (Nat.mul k1 195103586431999))) (lnZ (Nat.mul a (Nat.pow 2 k1)) (Nat.mul A (Nat.pow 2 k2))).2)

theorem lnQ_sound (k1 k2 : ℕ) {a A : ℕ} (ha : 0 < a) (hA : 0 < A) :
    ((lnQ k1 k2 a A).1 : ℝ) ≤ 2 ^ 48 * log (a / A) ∧ 2 ^ 48 * log (a / A) ≤ (lnQ k1 k2 a A).2 := by
  have e2 : ∀ a b, Nat.pow a b = a ^ b := fun _ _ => rfl
  obtain ⟨h1, h2⟩ := lnZ_sound (a := a * 2 ^ k1) (A := A * 2 ^ k2) (by positivity) (by positivity)
  have g1 := log_two_gt_d9
  have g2 := log_two_lt_d9
  have ha' : (0 : ℝ) < a := by exact_mod_cast ha
  have hA' : (0 : ℝ) < A := by exact_mod_cast hA
  have e : log ((a * 2 ^ k1 : ℕ) / (A * 2 ^ k2 : ℕ) : ℝ) = log (a / A) + k1 * log 2 - k2 * log 2 := by
    push_cast
    rw [log_div (by positivity) (by positivity), log_mul (by positivity) (by positivity),
      log_mul (by positivity) (by positivity), log_div (by positivity) (by positivity), log_pow, log_pow]
    ring
  rw [e] at h1 h2
  have u1 : (195103586431999 : ℝ) ≤ 2 ^ 48 * log 2 := by
    have := mul_lt_mul_of_pos_left g1 (show (0 : ℝ) < 2 ^ 48 by norm_num)
    refine le_trans ?_ this.le
    norm_num
  have u2 : 2 ^ 48 * log 2 ≤ (195103586572737 : ℝ) := by
    have := mul_lt_mul_of_pos_left g2 (show (0 : ℝ) < 2 ^ 48 by norm_num)
    refine this.le.trans ?_
    norm_num
  have k1' : (0 : ℝ) ≤ k1 := Nat.cast_nonneg _
  have k2' : (0 : ℝ) ≤ k2 := Nat.cast_nonneg _
  have m1 := mul_le_mul_of_nonneg_left u1 k1'
  have m2 := mul_le_mul_of_nonneg_left u2 k1'
  have m3 := mul_le_mul_of_nonneg_left u1 k2'
  have m4 := mul_le_mul_of_nonneg_left u2 k2'
  have c1 : ((lnQ k1 k2 a A).1 : ℝ) = k2 * 195103586431999 - k1 * 195103586572737 + (lnZ (a * 2 ^ k1) (A * 2 ^ k2)).1 := by
    change (((((k2 * 195103586431999 : ℕ) : ℤ) - ((k1 * 195103586572737 : ℕ) : ℤ)) + (lnZ (a * 2 ^ k1) (A * 2 ^ k2)).1 : ℤ) : ℝ) = _
    push_cast; ring
  have c2 : ((lnQ k1 k2 a A).2 : ℝ) = k2 * 195103586572737 - k1 * 195103586431999 + (lnZ (a * 2 ^ k1) (A * 2 ^ k2)).2 := by
    change (((((k2 * 195103586572737 : ℕ) : ℤ) - ((k1 * 195103586431999 : ℕ) : ℤ)) + (lnZ (a * 2 ^ k1) (A * 2 ^ k2)).2 : ℤ) : ℝ) = _
    push_cast; ring
  rw [c1, c2]
  constructor <;> linarith

/-! ## Polynomials near the logarithm -/

/-- `c₁ u - c₂ u² + …`, starting at exponent `k` -/
noncomputable def altEval (u : ℝ) : ℕ → List ℕ → ℝ
  | _, [] => 0
  | k, c :: t => c * u ^ k - altEval u (k + 1) t

/-- the polynomial `c₀ + c₁ u - c₂ u² + …`; `k₁`, `k₂` as in `lnQ` -/
structure LC where
  k1 : ℕ
  k2 : ℕ
  c0 : ℤ
  cs : List ℕ

def dist (m n : ℕ) : ℕ := Nat.add (Nat.sub m n) (Nat.sub n m)

theorem dist_eq (m n : ℕ) : (dist m n : ℝ) = |(m : ℝ) - n| := by
  simp only [dist, Nat.add_eq, Nat.sub_eq]
  rcases le_total m n with h | h
  · rw [Nat.sub_eq_zero_of_le h, zero_add, Nat.cast_sub h, abs_of_nonpos (by simpa using h)]; ring
  · rw [Nat.sub_eq_zero_of_le h, add_zero, Nat.cast_sub h, abs_of_nonneg (by simpa using h)]

/-- errors of the coefficients -/
def coefErr (G H a b : ℕ) : ℕ → List ℕ → ℕ
  | _, [] => 0
  | k, c :: t => Nat.add (Nat.succ (Nat.div (Nat.mul (dist G (Nat.mul (Nat.mul H (Nat.mul k (Nat.pow a k))) c)) (Nat.pow b k))
      (Nat.mul H (Nat.mul k (Nat.pow a k))))) (coefErr G H a b (Nat.succ k) t)

/-- error of the constant term -/
def constErr (G H : ℕ) (c0 : ℤ) (q : ℤ × ℤ) : ℕ :=
  Nat.succ (Nat.div (Nat.add (Int.natAbs (Int.sub (Int.mul (Int.ofNat G) q.1) (Int.mul c0 (Int.ofNat (Nat.mul H (Nat.pow 2 48))))))
    (Int.natAbs (Int.sub (Int.mul (Int.ofNat G) q.2) (Int.mul c0 (Int.ofNat (Nat.mul H (Nat.pow 2 48))))))) (Nat.mul H (Nat.pow 2 48)))

/-- error of the truncation after `n` terms -/
def truncErr (G H a b n : ℕ) : ℕ :=
  Nat.succ (Nat.div (Nat.mul G (Nat.pow b (Nat.succ n))) (Nat.mul H (Nat.mul (Nat.pow a n) (Nat.sub a b))))

/-- bound for the difference between the polynomial and `G/H log x` -/
def logErr (G H a b A : ℕ) (z : LC) : ℕ :=
  Nat.add (constErr G H z.c0 (lnQ z.k1 z.k2 a A)) (Nat.add (coefErr G H a b 1 z.cs) (truncErr G H a b z.cs.length))

/-- the series, starting at exponent `k` -/
noncomputable def logSer (w : ℝ) : ℕ → ℕ → ℝ
  | _, 0 => 0
  | k, n + 1 => w ^ k / k - logSer w (k + 1) n

theorem coefErr_sound {G H a b : ℕ} (hH : 0 < H) (ha : 0 < a) {u : ℝ} (hu : |u| ≤ b) (cs : List ℕ) (k : ℕ) (hk : 0 < k) :
    |G / H * logSer (u / a) k cs.length - altEval u k cs| ≤ coefErr G H a b k cs := by
  have hH' : (0 : ℝ) < H := by exact_mod_cast hH
  have ha' : (0 : ℝ) < a := by exact_mod_cast ha
  induction cs generalizing k with
  | nil => simp [logSer, altEval, coefErr]
  | cons c t ih =>
    have hk' : (0 : ℝ) < k := by exact_mod_cast hk
    have h1 := ih (k + 1) (by omega)
    have h2 := (div_bounds (dist G (H * (k * a ^ k) * c) * b ^ k) (H * (k * a ^ k)) (by positivity)).2
    have ec : coefErr G H a b k (c :: t) = dist G (H * (k * a ^ k) * c) * b ^ k / (H * (k * a ^ k)) + 1 + coefErr G H a b (k + 1) t := rfl
    rw [ec]
    simp only [List.length_cons, logSer, altEval]
    have e : (G : ℝ) / H * ((u / a) ^ k / k - logSer (u / a) (k + 1) t.length) - (c * u ^ k - altEval u (k + 1) t) =
        (G - H * (k * a ^ k) * c) * u ^ k / (H * (k * a ^ k)) - (G / H * logSer (u / a) (k + 1) t.length - altEval u (k + 1) t) := by
      rw [div_pow]
      field_simp
      ring
    rw [e]
    refine (abs_sub _ _).trans ?_
    push_cast
    refine add_le_add (le_trans ?_ h2) h1
    push_cast [dist_eq]
    rw [abs_div, abs_mul, abs_pow, abs_of_pos (show (0 : ℝ) < H * (k * a ^ k) by positivity)]
    gcongr

theorem logSer_eq (w : ℝ) (n k : ℕ) :
    logSer w (k + 1) n = (-1) ^ (k + 1) * ∑ i ∈ range n, (-w) ^ (k + i + 1) / ((k + i : ℝ) + 1) := by
  induction n generalizing k with
  | zero => simp [logSer]
  | succ n ih =>
    rw [logSer, ih (k + 1), sum_range_succ', mul_add]
    have e1 : (-1 : ℝ) ^ (k + 1) * ((-w) ^ (k + 0 + 1) / ((k + (0 : ℕ) : ℝ) + 1)) = w ^ (k + 1) / ((k + 1 : ℕ) : ℝ) := by
      rw [add_zero, ← mul_div_assoc, ← mul_pow]
      push_cast
      ring_nf
    have e2 : ∑ i ∈ range n, (-w) ^ (k + 1 + i + 1) / (((k + 1 : ℕ) + i : ℝ) + 1) =
        ∑ i ∈ range n, (-w) ^ (k + (i + 1) + 1) / ((k + (i + 1 : ℕ) : ℝ) + 1) := by
      refine sum_congr rfl fun i _ => ?_
      rw [show k + 1 + i + 1 = k + (i + 1) + 1 by ring]
      push_cast
      ring_nf
    rw [e1, e2, pow_succ]
    ring

theorem log_sound {G H a b A : ℕ} (hH : 0 < H) (hA : 0 < A) (hb : b < a) (z : LC) {x : ℝ} (hx : |A * x - a| ≤ b) :
    |G / H * log x - (z.c0 + altEval (A * x - a) 1 z.cs)| ≤ logErr G H a b A z := by
  have hH' : (0 : ℝ) < H := by exact_mod_cast hH
  have hA' : (0 : ℝ) < A := by exact_mod_cast hA
  have ha : 0 < a := by omega
  have ha' : (0 : ℝ) < a := by exact_mod_cast ha
  have hb' : (b : ℝ) < a := by exact_mod_cast hb
  set u := A * x - (a : ℝ) with hu
  set w := u / a with hw
  have w1 : |w| ≤ b / a := by rw [hw, abs_div, Nat.abs_cast]; gcongr
  have w2 : (b : ℝ) / a < 1 := (div_lt_one ha').2 hb'
  have ex : x = a / A * (1 + w) := by rw [hw, hu]; field_simp; ring
  have h1w : 0 < 1 + w := by linarith [(abs_le.1 w1).1]
  have el : log x = log (a / A) + log (1 + w) := by
    rw [ex, log_mul (by positivity) h1w.ne']
  have t := abs_log_sub_add_sum_range_le (x := -w) (by rw [abs_neg]; linarith) z.cs.length
  have es : logSer w 1 z.cs.length = -∑ i ∈ range z.cs.length, (-w) ^ (i + 1) / ((i : ℝ) + 1) := by
    rw [logSer_eq w z.cs.length 0]
    simp
  rw [sub_neg_eq_add, abs_neg] at t
  have t1 : |log (1 + w) - logSer w 1 z.cs.length| ≤ |w| ^ (z.cs.length + 1) / (1 - |w|) := by
    rw [es, sub_neg_eq_add, add_comm]; exact t
  have t2 : |w| ^ (z.cs.length + 1) / (1 - |w|) ≤ (b / a) ^ (z.cs.length + 1) / (1 - b / a) := by
    have : 0 < 1 - (b : ℝ) / a := by linarith
    gcongr
  have c1 := coefErr_sound (G := G) hH ha hx z.cs 1 one_pos
  rw [← hw] at c1
  have c2 : G / H * ((b / a) ^ (z.cs.length + 1) / (1 - b / a)) ≤ (truncErr G H a b z.cs.length : ℝ) := by
    have := (div_bounds (G * b ^ (z.cs.length + 1)) (H * (a ^ z.cs.length * (a - b))) (by
      have : 0 < a - b := by omega
      positivity)).2
    have e : truncErr G H a b z.cs.length = G * b ^ (z.cs.length + 1) / (H * (a ^ z.cs.length * (a - b))) + 1 := rfl
    rw [e]
    push_cast
    refine le_trans (le_of_eq ?_) this
    push_cast [Nat.cast_sub hb.le]
    have h3 : (a : ℝ) - b ≠ 0 := by linarith
    have h4 : 1 - (b : ℝ) / a ≠ 0 := by linarith
    rw [div_pow]
    field_simp
    ring
  obtain ⟨q1, q2⟩ := lnQ_sound z.k1 z.k2 ha hA
  have c3 : |G / H * log (a / A) - z.c0| ≤ (constErr G H z.c0 (lnQ z.k1 z.k2 a A) : ℝ) := by
    generalize lnQ z.k1 z.k2 a A = q at *
    have e : constErr G H z.c0 q = (((G : ℤ) * q.1 - z.c0 * ((H * 2 ^ 48 : ℕ) : ℤ)).natAbs +
      ((G : ℤ) * q.2 - z.c0 * ((H * 2 ^ 48 : ℕ) : ℤ)).natAbs) / (H * 2 ^ 48) + 1 := rfl
    have h3 := (div_bounds (((G : ℤ) * q.1 - z.c0 * ((H * 2 ^ 48 : ℕ) : ℤ)).natAbs +
      ((G : ℤ) * q.2 - z.c0 * ((H * 2 ^ 48 : ℕ) : ℤ)).natAbs) (H * 2 ^ 48) (by positivity)).2
    rw [e]
    push_cast
    refine le_trans ?_ h3
    push_cast [Nat.cast_natAbs]
    rw [le_div_iff₀ (by positivity)]
    have hG : (0 : ℝ) ≤ G := Nat.cast_nonneg _
    have m1 := mul_le_mul_of_nonneg_left q1 hG
    have m2 := mul_le_mul_of_nonneg_left q2 hG
    rw [show (2 : ℝ) ^ 48 = 281474976710656 by norm_num] at m1 m2
    have hN : (0 : ℝ) < 281474976710656 := by norm_num
    generalize (281474976710656 : ℝ) = N at *
    have e3 : (G / H * log (a / A) - z.c0) * (H * N) = G * (N * log (a / A)) - z.c0 * (H * N) := by
      field_simp
    rw [← abs_of_pos (show (0 : ℝ) < H * N by positivity), ← abs_mul, e3, abs_of_pos (show (0 : ℝ) < H * N by positivity), abs_le]
    have n1 := neg_abs_le ((G : ℝ) * q.1 - z.c0 * (H * N))
    have n2 := le_abs_self ((G : ℝ) * q.2 - z.c0 * (H * N))
    have n3 := abs_nonneg ((G : ℝ) * q.1 - z.c0 * (H * N))
    have n4 := abs_nonneg ((G : ℝ) * q.2 - z.c0 * (H * N))
    constructor <;> linarith
  have eL : logErr G H a b A z = constErr G H z.c0 (lnQ z.k1 z.k2 a A) + (coefErr G H a b 1 z.cs + truncErr G H a b z.cs.length) := rfl
  rw [eL, el]
  have e : G / H * (log (a / A) + log (1 + w)) - (z.c0 + altEval u 1 z.cs) =
      (G / H * log (a / A) - z.c0) + ((G / H * logSer w 1 z.cs.length - altEval u 1 z.cs) +
        G / H * (log (1 + w) - logSer w 1 z.cs.length)) := by ring
  rw [e]
  push_cast
  refine (abs_add_le _ _).trans (add_le_add c3 ((abs_add_le _ _).trans (add_le_add c1 ?_)))
  rw [abs_mul, abs_of_nonneg (show (0 : ℝ) ≤ G / H by positivity)]
  refine le_trans ?_ c2
  gcongr
  exact t1.trans t2

end PyX.Kron
