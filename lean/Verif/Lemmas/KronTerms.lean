import Verif.Lemmas.Kron
import Verif.Lemmas.Terms

/-!
# From the tables of IAPWS-IF97 to the expressions of the sign checker
-/

namespace PyX.Kron

open Spec.IF97

/-- `I (I-1) … (I-k+1)` as an integer -/
def ffZ (I : ℤ) : ℕ → ℤ
  | 0 => 1
  | k + 1 => ffZ I k * (I - k)

theorem ffZ_cast (I : ℤ) (k : ℕ) : ((ffZ I k : ℤ) : ℝ) = ff I k := by
  induction k with
  | zero => simp [ffZ, ff]
  | succ k ih => simp [ffZ, ff, ih]

/-- the coefficient of the derivative of a term, times `D` -/
def coef (D : ℤ) (k l : ℕ) (t : Term) : ℚ := D * t.n * (ffZ t.I k * ffZ t.J l : ℤ)

/-- the lists are those of the positive and of the negative monomials of `D xᵐ yⁿ` times the derivative -/
def same (D : ℤ) (k l m n : ℕ) : List Term → List Mono → List Mono → Bool
  | [], [], [] => true
  | [], _, _ => false
  | t :: ts, pos, neg =>
    if coef D k l t = 0 then same D k l m n ts pos neg
    else if 0 < coef D k l t then
      match pos with
      | [] => false
      | (c, i, j) :: pos => (c : ℚ) = coef D k l t && (i : ℤ) = t.I - k + m && (j : ℤ) = t.J - l + n &&
        same D k l m n ts pos neg
    else
      match neg with
      | [] => false
      | (c, i, j) :: neg => (c : ℚ) = -coef D k l t && (i : ℤ) = t.I - k + m && (j : ℤ) = t.J - l + n &&
        same D k l m n ts pos neg

theorem term_eq (D : ℤ) (k l m n : ℕ) (t : Term) {i j : ℕ} (hi : (i : ℤ) = t.I - k + m) (hj : (j : ℤ) = t.J - l + n)
    {x y : ℝ} (hx : x ≠ 0) (hy : y ≠ 0) :
    (coef D k l t : ℝ) * x ^ i * y ^ j = D * (x ^ m * y ^ n) * Term.d t k l x y := by
  have e1 : x ^ i = x ^ (t.I - k) * x ^ m := by
    rw [← zpow_natCast x i, hi, zpow_add₀ hx, zpow_natCast]
  have e2 : y ^ j = y ^ (t.J - l) * y ^ n := by
    rw [← zpow_natCast y j, hj, zpow_add₀ hy, zpow_natCast]
  rw [e1, e2, Term.d, coef, ← ffZ_cast, ← ffZ_cast]
  push_cast
  ring

theorem same_eq {D : ℤ} {k l m n : ℕ} {ts : List Term} {pos neg : List Mono} (h : same D k l m n ts pos neg = true)
    {x y : ℝ} (hx : x ≠ 0) (hy : y ≠ 0) :
    evalN pos x y - evalN neg x y = D * (x ^ m * y ^ n) * dpoly ts k l x y := by
  induction ts generalizing pos neg with
  | nil =>
    cases pos <;> cases neg <;> first | (simp [same] at h; done) | simp [evalN, dpoly]
  | cons t ts ih =>
    have ed : dpoly (t :: ts) k l x y = Term.d t k l x y + dpoly ts k l x y := by simp [dpoly]
    rw [ed]
    unfold same at h
    by_cases h0 : coef D k l t = 0
    · rw [if_pos h0] at h
      rw [ih h]
      have hz : (D : ℝ) * Term.d t k l x y = 0 := by
        have : (coef D k l t : ℝ) = 0 := by rw [h0]; simp
        rw [coef] at this
        push_cast at this
        rw [ffZ_cast, ffZ_cast] at this
        rw [Term.d]
        calc _ = (D * t.n * (ff t.I k * ff t.J l)) * (x ^ (t.I - k) * y ^ (t.J - l)) := by ring
          _ = 0 := by rw [this, zero_mul]
      linear_combination -(x ^ m * y ^ n) * hz
    · rw [if_neg h0] at h
      by_cases hp : 0 < coef D k l t
      · rw [if_pos hp] at h
        cases pos with
        | nil => cases h
        | cons c pos =>
          obtain ⟨c, i, j⟩ := c
          simp only [Bool.and_eq_true, decide_eq_true_eq] at h
          obtain ⟨⟨⟨h1, h2⟩, h3⟩, h4⟩ := h
          have := term_eq D k l m n t h2 h3 hx hy
          rw [← h1] at this
          push_cast at this
          have e : evalN ((c, i, j) :: pos) x y = c * x ^ i * y ^ j + evalN pos x y := by simp [evalN]
          rw [e]
          linear_combination ih h4 + this
      · rw [if_neg hp] at h
        cases neg with
        | nil => cases h
        | cons c neg =>
          obtain ⟨c, i, j⟩ := c
          simp only [Bool.and_eq_true, decide_eq_true_eq] at h
          obtain ⟨⟨⟨h1, h2⟩, h3⟩, h4⟩ := h
          have := term_eq D k l m n t h2 h3 hx hy
          have h1' : (coef D k l t : ℝ) = -(c : ℝ) := by
            have : coef D k l t = -(c : ℚ) := by rw [h1]; ring
            rw [this]; push_cast; rfl
          rw [h1'] at this
          have e : evalN ((c, i, j) :: neg) x y = c * x ^ i * y ^ j + evalN neg x y := by simp [evalN]
          rw [e]
          linear_combination ih h4 + this

/-- the lists are those of the positive and of the negative monomials of `D xᵐ zⁿ` times the derivative at `y = 1/z` -/
def sameZ (D : ℤ) (k l m n : ℕ) : List Term → List Mono → List Mono → Bool
  | [], [], [] => true
  | [], _, _ => false
  | t :: ts, pos, neg =>
    if coef D k l t = 0 then sameZ D k l m n ts pos neg
    else if 0 < coef D k l t then
      match pos with
      | [] => false
      | (c, i, j) :: pos => (c : ℚ) = coef D k l t && (i : ℤ) = t.I - k + m && (j : ℤ) = n - (t.J - l) &&
        sameZ D k l m n ts pos neg
    else
      match neg with
      | [] => false
      | (c, i, j) :: neg => (c : ℚ) = -coef D k l t && (i : ℤ) = t.I - k + m && (j : ℤ) = n - (t.J - l) &&
        sameZ D k l m n ts pos neg

theorem termZ_eq (D : ℤ) (k l m n : ℕ) (t : Term) {i j : ℕ} (hi : (i : ℤ) = t.I - k + m) (hj : (j : ℤ) = n - (t.J - l))
    {x y : ℝ} (hx : x ≠ 0) (hy : y ≠ 0) :
    (coef D k l t : ℝ) * x ^ i * y ^ j = D * (x ^ m * y ^ n) * Term.d t k l x y⁻¹ := by
  have e1 : x ^ i = x ^ (t.I - k) * x ^ m := by
    rw [← zpow_natCast x i, hi, zpow_add₀ hx, zpow_natCast]
  have e2 : y ^ j = y⁻¹ ^ (t.J - l) * y ^ n := by
    rw [← zpow_natCast y j, hj, zpow_sub₀ hy, zpow_natCast, inv_zpow]; ring
  rw [e1, e2, Term.d, coef, ← ffZ_cast, ← ffZ_cast]
  push_cast
  ring

theorem sameZ_eq {D : ℤ} {k l m n : ℕ} {ts : List Term} {pos neg : List Mono} (h : sameZ D k l m n ts pos neg = true)
    {x y : ℝ} (hx : x ≠ 0) (hy : y ≠ 0) :
    evalN pos x y - evalN neg x y = D * (x ^ m * y ^ n) * dpoly ts k l x y⁻¹ := by
  induction ts generalizing pos neg with
  | nil =>
    cases pos <;> cases neg <;> first | (simp [sameZ] at h; done) | simp [evalN, dpoly]
  | cons t ts ih =>
    have ed : dpoly (t :: ts) k l x y⁻¹ = Term.d t k l x y⁻¹ + dpoly ts k l x y⁻¹ := by simp [dpoly]
    rw [ed]
    unfold sameZ at h
    by_cases h0 : coef D k l t = 0
    · rw [if_pos h0] at h
      rw [ih h]
      have hz : (D : ℝ) * Term.d t k l x y⁻¹ = 0 := by
        have : (coef D k l t : ℝ) = 0 := by rw [h0]; simp
        rw [coef] at this
        push_cast at this
        rw [ffZ_cast, ffZ_cast] at this
        rw [Term.d]
        calc _ = (D * t.n * (ff t.I k * ff t.J l)) * (x ^ (t.I - k) * y⁻¹ ^ (t.J - l)) := by ring
          _ = 0 := by rw [this, zero_mul]
      linear_combination -(x ^ m * y ^ n) * hz
    · rw [if_neg h0] at h
      by_cases hp : 0 < coef D k l t
      · rw [if_pos hp] at h
        cases pos with
        | nil => cases h
        | cons c pos =>
          obtain ⟨c, i, j⟩ := c
          simp only [Bool.and_eq_true, decide_eq_true_eq] at h
          obtain ⟨⟨⟨h1, h2⟩, h3⟩, h4⟩ := h
          have := termZ_eq D k l m n t h2 h3 hx hy
          rw [← h1] at this
          push_cast at this
          have e : evalN ((c, i, j) :: pos) x y = c * x ^ i * y ^ j + evalN pos x y := by simp [evalN]
          rw [e]
          linear_combination ih h4 + this
      · rw [if_neg hp] at h
        cases neg with
        | nil => cases h
        | cons c neg =>
          obtain ⟨c, i, j⟩ := c
          simp only [Bool.and_eq_true, decide_eq_true_eq] at h
          obtain ⟨⟨⟨h1, h2⟩, h3⟩, h4⟩ := h
          have := termZ_eq D k l m n t h2 h3 hx hy
          have h1' : (coef D k l t : ℝ) = -(c : ℝ) := by
            have : coef D k l t = -(c : ℚ) := by rw [h1]; ring
            rw [this]; push_cast; rfl
          rw [h1'] at this
          have e : evalN ((c, i, j) :: neg) x y = c * x ^ i * y ^ j + evalN neg x y := by simp [evalN]
          rw [e]
          linear_combination ih h4 + this

theorem term_eq0 (D : ℤ) (t : Term) {i j : ℕ} (hi : (i : ℤ) = t.I) (hj : (j : ℤ) = t.J) (x y : ℝ) :
    (coef D 0 0 t : ℝ) * x ^ i * y ^ j = D * Term.d t 0 0 x y := by
  rw [Term.d, coef, ← hi, ← hj, ffZ, ffZ, ff, ff]
  simp only [CharP.cast_eq_zero, sub_zero, zpow_natCast]
  push_cast
  ring

/-- the same for the polynomial itself, if it has no negative exponents: the variables may vanish -/
theorem same_eq0 {D : ℤ} {ts : List Term} {pos neg : List Mono} (h : same D 0 0 0 0 ts pos neg = true) (x y : ℝ) :
    evalN pos x y - evalN neg x y = D * dpoly ts 0 0 x y := by
  induction ts generalizing pos neg with
  | nil =>
    cases pos <;> cases neg <;> first | (simp [same] at h; done) | simp [evalN, dpoly]
  | cons t ts ih =>
    have ed : dpoly (t :: ts) 0 0 x y = Term.d t 0 0 x y + dpoly ts 0 0 x y := by simp [dpoly]
    rw [ed]
    unfold same at h
    by_cases h0 : coef D 0 0 t = 0
    · rw [if_pos h0] at h
      rw [ih h]
      have hz : (D : ℝ) * Term.d t 0 0 x y = 0 := by
        have : (coef D 0 0 t : ℝ) = 0 := by rw [h0]; simp
        rw [coef] at this
        push_cast at this
        rw [ffZ_cast, ffZ_cast] at this
        rw [Term.d]
        calc _ = (D * t.n * (ff t.I 0 * ff t.J 0)) * (x ^ (t.I - (0 : ℕ)) * y ^ (t.J - (0 : ℕ))) := by ring
          _ = 0 := by rw [this, zero_mul]
      linear_combination -hz
    · rw [if_neg h0] at h
      by_cases hp : 0 < coef D 0 0 t
      · rw [if_pos hp] at h
        cases pos with
        | nil => cases h
        | cons c pos =>
          obtain ⟨c, i, j⟩ := c
          simp only [Bool.and_eq_true, decide_eq_true_eq] at h
          obtain ⟨⟨⟨h1, h2⟩, h3⟩, h4⟩ := h
          have := term_eq0 D t (by simpa using h2) (by simpa using h3) x y
          rw [← h1] at this
          push_cast at this
          have e : evalN ((c, i, j) :: pos) x y = c * x ^ i * y ^ j + evalN pos x y := by simp [evalN]
          rw [e]
          linear_combination ih h4 + this
      · rw [if_neg hp] at h
        cases neg with
        | nil => cases h
        | cons c neg =>
          obtain ⟨c, i, j⟩ := c
          simp only [Bool.and_eq_true, decide_eq_true_eq] at h
          obtain ⟨⟨⟨h1, h2⟩, h3⟩, h4⟩ := h
          have := term_eq0 D t (by simpa using h2) (by simpa using h3) x y
          have h1' : (coef D 0 0 t : ℝ) = -(c : ℝ) := by
            have : coef D 0 0 t = -(c : ℚ) := by rw [h1]; ring
            rw [this]; push_cast; rfl
          rw [h1'] at this
          have e : evalN ((c, i, j) :: neg) x y = c * x ^ i * y ^ j + evalN neg x y := by simp [evalN]
          rw [e]
          linear_combination ih h4 + this

theorem evalN_cons (n I J : ℕ) (ts : List Mono) (x y : ℝ) :
    evalN ((n, I, J) :: ts) x y = n * x ^ I * y ^ J + evalN ts x y := by simp [evalN]

theorem evalN_nil (x y : ℝ) : evalN [] x y = 0 := by simp [evalN]

end PyX.Kron
