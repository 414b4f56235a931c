import Verif.Lemmas.Monad
import Mathlib.Analysis.Calculus.Deriv.Pow
import Mathlib.Analysis.Calculus.Deriv.Add
import Mathlib.Analysis.Calculus.Deriv.Mul

/-!
# Bounds for sums of products of powers along a line

`psum ts (y - α) (y - β)` is a function of one variable, and the terms cancel to a large extent. On a short segment it is bounded by its
value and its derivative at the centre and by the sum of the absolute values of what is left, term by term. All of it is done in integers.
-/

namespace PyX.Univ

/-- the sum of `n x^I z^J` -/
noncomputable def psum : List (ℤ × ℕ × ℕ) → ℝ → ℝ → ℝ
  | [], _, _ => 0
  | (n, I, J) :: t, x, z => n * x ^ I * z ^ J + psum t x z

/-- the terms of the derivative along the diagonal -/
def dts : List (ℤ × ℕ × ℕ) → List (ℤ × ℕ × ℕ)
  | [] => []
  | (n, I, J) :: t => (n * I, I - 1, J) :: (n * J, I, J - 1) :: dts t

def neg : List (ℤ × ℕ × ℕ) → List (ℤ × ℕ × ℕ)
  | [] => []
  | (n, I, J) :: t => (-n, I, J) :: neg t

theorem psum_neg (ts : List (ℤ × ℕ × ℕ)) (x z : ℝ) : psum (neg ts) x z = -psum ts x z := by
  induction ts with
  | nil => simp [neg, psum]
  | cons t ts ih => simp only [neg, psum, ih]; push_cast; ring

theorem psum_deriv (ts : List (ℤ × ℕ × ℕ)) (α β y : ℝ) :
    HasDerivAt (fun y => psum ts (y - α) (y - β)) (psum (dts ts) (y - α) (y - β)) y := by
  induction ts with
  | nil => exact hasDerivAt_const y 0
  | cons t ts ih =>
    obtain ⟨n, I, J⟩ := t
    have h1 := ((hasDerivAt_id y).sub_const α).pow I
    have h2 := ((hasDerivAt_id y).sub_const β).pow J
    have h := ((h1.const_mul (n : ℝ)).mul h2).add ih
    refine (h.congr_deriv ?_).congr_of_eventuallyEq (.of_forall fun y => ?_)
    · simp only [dts, psum, id_eq, Pi.pow_apply]; push_cast; ring
    · simp [psum]

/-- `X^n`, by way of the powers of natural numbers -/
def ipow (X : ℤ) (n : ℕ) : ℤ := bif n % 2 == 0 || decide (0 ≤ X) then (X.natAbs ^ n : ℕ) else -(X.natAbs ^ n : ℕ)

theorem ipow_eq (X : ℤ) (n : ℕ) : ipow X n = X ^ n := by
  unfold ipow
  rcases le_or_gt 0 X with h | h
  · simp [h, abs_of_nonneg h]
  · have e : (X.natAbs : ℤ) = -X := by omega
    rcases Nat.even_or_odd n with hn | hn
    · simp [Nat.even_iff.1 hn, e, hn.neg_pow, not_le.2 h]
    · have := Nat.odd_iff.1 hn
      simp [this, not_le.2 h, abs_of_neg h, hn.neg_pow]

/-- value, derivative and remainder of one term, times `N^K` -/
def term (N K w : ℕ) (X Z : ℤ) (t : ℤ × ℕ × ℕ) : ℤ × ℤ × ℤ :=
  let D := t.1 * (N ^ (K - t.2.1 - t.2.2) : ℕ)
  let x := ipow X t.2.1
  let x' := t.2.1 * ipow X (t.2.1 - 1)
  let z := ipow Z t.2.2
  let z' := t.2.2 * ipow Z (t.2.2 - 1)
  (D * (x * z), D * (w * (x' * z + x * z')),
    (D.natAbs * (((X.natAbs + w) ^ t.2.1 * (Z.natAbs + w) ^ t.2.2 : ℕ) - (x.natAbs * z.natAbs : ℕ)
      - (w * (x'.natAbs * z.natAbs + x.natAbs * z'.natAbs) : ℕ) : ℤ)))

def terms (N K w : ℕ) (X Z : ℤ) : List (ℤ × ℕ × ℕ) → ℤ × ℤ × ℤ
  | [] => (0, 0, 0)
  | t :: ts =>
    let a := term N K w X Z t
    let b := terms N K w X Z ts
    (a.1 + b.1, a.2.1 + b.2.1, a.2.2 + b.2.2)

def deg (K : ℕ) : List (ℤ × ℕ × ℕ) → Bool
  | [] => true
  | (_, I, J) :: ts => Nat.ble (I + J) K && deg K ts

/-- what multiplication by `X + w u` does to the expansion of a product -/
theorem grow {u f c0 c1 F C0 C1 X w : ℝ} (hu : |u| ≤ 1) (hw : 0 ≤ w) (h : |f - c0 - c1 * u| ≤ F - C0 - C1) (h1 : |c1| ≤ C1) :
    |f * (X + w * u) - c0 * X - (c1 * X + c0 * w) * u| ≤ F * (|X| + w) - C0 * |X| - (C1 * |X| + C0 * w) := by
  have e : f * (X + w * u) - c0 * X - (c1 * X + c0 * w) * u = (f - c0 - c1 * u) * (X + w * u) + c1 * (w * (u * u)) := by ring
  have a : |X + w * u| ≤ |X| + w := by
    refine (abs_add_le _ _).trans ?_
    rw [abs_mul, abs_of_nonneg hw]
    nlinarith
  have b : |w * (u * u)| ≤ w := by
    rw [abs_mul, abs_mul, abs_of_nonneg hw]
    have := mul_le_one₀ hu (abs_nonneg u) hu
    nlinarith
  have c1' : 0 ≤ C1 := (abs_nonneg _).trans h1
  rw [e]
  calc _ ≤ |f - c0 - c1 * u| * |X + w * u| + |c1| * |w * (u * u)| := by
        refine (abs_add_le _ _).trans ?_
        rw [abs_mul, abs_mul]
    _ ≤ (F - C0 - C1) * (|X| + w) + C1 * w := by
        have h0 := (abs_nonneg _).trans h
        gcongr
    _ = _ := by ring

theorem expand {u X Z w : ℝ} (hu : |u| ≤ 1) (hw : 0 ≤ w) (I J : ℕ) :
    |(X + w * u) ^ I * (Z + w * u) ^ J - X ^ I * Z ^ J - w * (I * X ^ (I - 1) * Z ^ J + X ^ I * (J * Z ^ (J - 1))) * u| ≤
      (|X| + w) ^ I * (|Z| + w) ^ J - |X| ^ I * |Z| ^ J - w * (I * |X| ^ (I - 1) * |Z| ^ J + |X| ^ I * (J * |Z| ^ (J - 1))) := by
  induction J with
  | zero =>
    induction I with
    | zero => simp
    | succ I ih =>
      have h := grow (X := X) hu hw ih (by
        simp only [abs_mul, abs_of_nonneg hw, pow_zero, mul_one, abs_pow, Nat.cast_zero, zero_mul, mul_zero, add_zero, Nat.abs_cast]
        exact le_rfl)
      have e : ∀ a : ℝ, (I : ℝ) * a ^ (I - 1) * a = I * a ^ I := fun a => by
        cases I with
        | zero => simp
        | succ n => simp [pow_succ]; ring
      simp only [pow_zero, mul_one, Nat.cast_zero, zero_mul, mul_zero, add_zero, Nat.add_sub_cancel] at h ⊢
      refine (le_of_eq ?_).trans (h.trans (le_of_eq ?_))
      · congr 1
        have := e X
        push_cast
        rw [pow_succ, pow_succ]
        linear_combination (w * u) * this
      · have := e |X|
        push_cast
        rw [pow_succ, pow_succ]
        linear_combination (-w) * this
  | succ J ih =>
    have h := grow (X := Z) hu hw ih (by
      rw [abs_mul, abs_of_nonneg hw]
      refine mul_le_mul_of_nonneg_left ((abs_add_le _ _).trans (le_of_eq ?_)) hw
      simp only [abs_mul, abs_pow, Nat.abs_cast])
    have e : ∀ a : ℝ, (J : ℝ) * a ^ (J - 1) * a = J * a ^ J := fun a => by
      cases J with
      | zero => simp
      | succ n => simp [pow_succ]; ring
    simp only [Nat.add_sub_cancel] at h ⊢
    refine (le_of_eq ?_).trans (h.trans (le_of_eq ?_))
    · congr 1
      have := e Z
      push_cast
      rw [pow_succ, pow_succ]
      linear_combination (w * u * X ^ I) * this
    · have := e |Z|
      push_cast
      rw [pow_succ, pow_succ]
      linear_combination (-w * |X| ^ I) * this

theorem terms_sound {N K w : ℕ} {X Z : ℤ} {u : ℝ} (hN : 0 < N) (hu : |u| ≤ 1) (ts : List (ℤ × ℕ × ℕ)) (hd : deg K ts = true) :
    |(N : ℝ) ^ K * psum ts ((X + w * u) / N) ((Z + w * u) / N) - (terms N K w X Z ts).1 - (terms N K w X Z ts).2.1 * u| ≤
      (terms N K w X Z ts).2.2 := by
  induction ts with
  | nil => simp [terms, psum]
  | cons t ts ih =>
    obtain ⟨n, I, J⟩ := t
    simp only [deg, Bool.and_eq_true] at hd
    have hk := Nat.le_of_ble_eq_true hd.1
    have hN' : (N : ℝ) ≠ 0 := by positivity
    have h := expand (X := X) (Z := Z) (w := w) hu (by positivity) I J
    have s : (N : ℝ) ^ K = N ^ (K - I - J) * N ^ I * N ^ J := by rw [← pow_add, ← pow_add]; congr 1; omega
    set D : ℝ := n * N ^ (K - I - J) with hD
    have e : (N : ℝ) ^ K * (n * ((X + w * u) / N) ^ I * ((Z + w * u) / N) ^ J) = D * ((X + w * u) ^ I * (Z + w * u) ^ J) := by
      rw [s, div_pow, div_pow, hD]
      field_simp
    have h2 := mul_le_mul_of_nonneg_left h (abs_nonneg D)
    rw [← abs_mul] at h2
    have h3 := ih hd.2
    simp only [terms, psum, term, ipow_eq]
    rw [mul_add, e]
    have h4 := (abs_add_le _ _).trans (add_le_add h2 h3)
    rw [hD] at h4 ⊢
    push_cast
    simp only [abs_mul, abs_pow, Nat.abs_cast] at h4 ⊢
    refine (le_of_eq ?_).trans (h4.trans (le_of_eq ?_))
    · congr 1; ring
    · ring

/-- `psum < Bn/Bd` on the segment `[(m - w)/N, (m + w)/N]` -/
def below (ts : List (ℤ × ℕ × ℕ)) (N K : ℕ) (a b : ℤ) (Bn : ℤ) (Bd m w : ℕ) : Bool :=
  let c := terms N K w (m - a) (m - b) ts
  decide ((c.1 + c.2.1.natAbs + c.2.2) * Bd < Bn * (N ^ K : ℕ))

theorem below_sound {ts : List (ℤ × ℕ × ℕ)} {N K : ℕ} {a b Bn : ℤ} {Bd m w : ℕ} (hN : 0 < N) (hd : deg K ts = true)
    (h : below ts N K a b Bn Bd m w = true) {y : ℝ} (h0 : ((m : ℝ) - w) ≤ N * y) (h1 : N * y ≤ m + w) :
    Bd * psum ts (y - a / N) (y - b / N) < Bn := by
  have hN' : (0 : ℝ) < N := by exact_mod_cast hN
  obtain ⟨u, hu, e⟩ : ∃ u : ℝ, |u| ≤ 1 ∧ N * y = m + w * u := by
    rcases Nat.eq_zero_or_pos w with rfl | hw
    · exact ⟨0, by simp, by simp at *; linarith⟩
    · have hw' : (0 : ℝ) < w := by exact_mod_cast hw
      refine ⟨(N * y - m) / w, ?_, by field_simp; ring⟩
      rw [abs_le]
      constructor
      · rw [le_div_iff₀ hw']; linarith
      · rw [div_le_iff₀ hw']; linarith
  have hs := terms_sound (X := m - a) (Z := m - b) (w := w) hN hu ts hd
  have e1 : (((m - a : ℤ) : ℝ) + w * u) / N = y - a / N := by
    push_cast
    rw [eq_sub_iff_add_eq, ← add_div, div_eq_iff hN'.ne']
    linarith
  have e2 : (((m - b : ℤ) : ℝ) + w * u) / N = y - b / N := by
    push_cast
    rw [eq_sub_iff_add_eq, ← add_div, div_eq_iff hN'.ne']
    linarith
  rw [e1, e2] at hs
  simp only [below, decide_eq_true_eq] at h
  generalize terms N K w (m - a) (m - b) ts = c at *
  obtain ⟨c0, c1, r⟩ := c
  simp only at h hs
  have h' : (((c0 + c1.natAbs + r) * Bd : ℤ) : ℝ) < ((Bn * (N ^ K : ℕ) : ℤ) : ℝ) := by exact_mod_cast h
  push_cast at h'
  have hc : (c1 : ℝ) * u ≤ |(c1 : ℝ)| := (le_abs_self _).trans (by rw [abs_mul]; exact mul_le_of_le_one_right (abs_nonneg _) hu)
  have h2 := (abs_le.1 hs).2
  have h3 : (N : ℝ) ^ K * psum ts (y - a / N) (y - b / N) ≤ c0 + |(c1 : ℝ)| + r := by linarith
  have h4 : (N : ℝ) ^ K * (Bd * psum ts (y - a / N) (y - b / N)) < N ^ K * Bn := by
    calc _ = (N : ℝ) ^ K * psum ts (y - a / N) (y - b / N) * Bd := by ring
      _ ≤ (c0 + |(c1 : ℝ)| + r) * Bd := by gcongr
      _ < _ := by linarith
  exact lt_of_mul_lt_mul_left h4 (by positivity)

/-- segments one after the other, from `s` on -/
def cover (ts : List (ℤ × ℕ × ℕ)) (N K : ℕ) (a b : ℤ) (Bn : ℤ) (Bd : ℕ) : ℕ → List ℕ → ℕ → Bool
  | s, [], e => Nat.beq s e
  | s, w :: l, e => below ts N K a b Bn Bd (s + w) w && cover ts N K a b Bn Bd (s + 2 * w) l e

theorem cover_sound {ts : List (ℤ × ℕ × ℕ)} {N K : ℕ} {a b Bn : ℤ} {Bd : ℕ} (hN : 0 < N) (hd : deg K ts = true) {l : List ℕ} {s e : ℕ}
    (h : cover ts N K a b Bn Bd s l e = true) {y : ℝ} (h0 : (s : ℝ) ≤ N * y) (h1 : N * y < e) :
    Bd * psum ts (y - a / N) (y - b / N) < Bn := by
  induction l generalizing s with
  | nil =>
    have := Nat.eq_of_beq_eq_true h
    subst this
    linarith
  | cons w l ih =>
    simp only [cover, Bool.and_eq_true] at h
    rcases le_or_gt (N * y) ((s + 2 * w : ℕ) : ℝ) with h2 | h2
    · refine below_sound hN hd h.1 ?_ ?_ <;> push_cast at * <;> linarith
    · exact ih h.2 h2.le

end PyX.Univ
