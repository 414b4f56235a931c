import Verif.Lemmas.Monad
import Mathlib.Algebra.BigOperators.Intervals
import Mathlib.Tactic.NormNum
import Mathlib.Tactic.Ring
import Mathlib.Tactic.FieldSimp
import Mathlib.Tactic.Linarith

/-!
# Evaluating the embedded Python in exact arithmetic

The lemmas tagged `ideal` push a run through `FP.ideal`.
-/

namespace PyX

open Classical Py Num

@[ideal] theorem lit_ideal (q : ℚ) : FP.ideal.lit q = .fin (q : ℝ) := rfl
@[ideal] theorem ofInt_eq (n : ℤ) : Num.ofInt n = .fin (n : ℝ) := rfl
@[ideal] theorem add_ideal (a b : ℝ) : FP.ideal.add (.fin a) (.fin b) = .fin (a + b) := rfl
@[ideal] theorem sub_ideal (a b : ℝ) : FP.ideal.sub (.fin a) (.fin b) = .fin (a - b) := rfl
@[ideal] theorem mul_ideal (a b : ℝ) : FP.ideal.mul (.fin a) (.fin b) = .fin (a * b) := rfl
@[ideal] theorem neg_fin (a : ℝ) : Num.neg (.fin a) = .fin (-a) := rfl
@[ideal] theorem fabs_fin (a : ℝ) : Num.fabs (.fin a) = .fin |a| := rfl

@[ideal] theorem div_ideal_eq {a b : ℝ} : FP.ideal.div (.fin a) (.fin b) =
    if b = 0 then Py.raise .zeroDivision else pure (.fin (a / b)) := rfl

theorem div_ideal {a b : ℝ} (h : b ≠ 0) : FP.ideal.div (.fin a) (.fin b) = pure (.fin (a / b)) := by
  rw [div_ideal_eq, if_neg h]

@[ideal] theorem exp_ideal (a : ℝ) : FP.ideal.exp (.fin a) = pure (.fin (Real.exp a)) := rfl

theorem log_ideal {a : ℝ} (h : 0 < a) : FP.ideal.log (.fin a) = pure (.fin (Real.log a)) := by
  simp [FP.log, not_le.2 h, FP.ideal]

theorem sqrt_ideal {a : ℝ} (h : 0 ≤ a) : FP.ideal.sqrt (.fin a) = pure (.fin (Real.sqrt a)) := by
  simp [FP.sqrt, not_lt.2 h, FP.ideal]

/-- a positive base: real power -/
theorem pow_ideal_pos {a b : ℝ} (h : 0 < a) :
    FP.ideal.pow (.fin a) (.fin b) = pure (.fin (a ^ b)) := by
  by_cases hb : b = 0
  · simp [FP.pow, hb]
  · simp [FP.pow, hb, h.ne', not_lt.2 h.le, FP.ideal]

/-- an integer exponent -/
theorem pow_ideal_int {a : ℝ} {n : ℤ} (h : a ≠ 0 ∨ 0 ≤ n) :
    FP.ideal.pow (.fin a) (.fin (n : ℝ)) = pure (.fin (a ^ n)) := by
  by_cases hn : n = 0
  · simp [FP.pow, hn]
  · have hn' : (n : ℝ) ≠ 0 := by exact_mod_cast hn
    by_cases ha : a = 0
    · subst ha
      have h0 : 0 ≤ n := by rcases h with h | h; exact absurd rfl h; exact h
      have : ¬ ((n : ℝ) < 0) := by rw [not_lt]; exact_mod_cast h0
      simp [FP.pow, hn, this, zero_zpow]
    · have hi : FP.IsInt (n : ℝ) := ⟨n, rfl⟩
      simp [FP.pow, hn, ha, hi, FP.ideal, Real.rpow_intCast]

/-- a zero base with a positive exponent -/
theorem pow_ideal_zero {b : ℝ} (h : 0 < b) :
    FP.ideal.pow (.fin 0) (.fin b) = pure (.fin 0) := by
  simp [FP.pow, h.ne', not_lt.2 h.le]

/-- a non-negative base with a positive exponent -/
theorem pow_ideal_nonneg {a b : ℝ} (ha : 0 ≤ a) (hb : 0 < b) :
    FP.ideal.pow (.fin a) (.fin b) = pure (.fin (a ^ b)) := by
  rcases ha.eq_or_lt with rfl | ha
  · rw [pow_ideal_zero hb, Real.zero_rpow hb.ne']
  · exact pow_ideal_pos ha

@[ideal] theorem fin_lt (a b : ℝ) : (Num.fin a < Num.fin b) ↔ a < b := Iff.rfl
@[ideal] theorem fin_le (a b : ℝ) : (Num.fin a ≤ Num.fin b) ↔ a ≤ b := by
  show (a < b ∨ a = b) ↔ _
  exact le_iff_lt_or_eq.symm
@[ideal] theorem gt_num (a b : Num) : (a > b) ↔ b < a := Iff.rfl
@[ideal] theorem ge_num (a b : Num) : (a ≥ b) ↔ b ≤ a := Iff.rfl
@[ideal] theorem fin_feq (a b : ℝ) : Num.feq (.fin a) (.fin b) ↔ a = b := Iff.rfl

@[simp] theorem add_nan_left (F : FP) (a : Num) : F.add .nan a = .nan := by cases a <;> rfl
@[simp] theorem add_nan_right (F : FP) (a : Num) : F.add a .nan = .nan := by cases a <;> rfl
@[simp] theorem sub_nan_left (F : FP) (a : Num) : F.sub .nan a = .nan := by cases a <;> rfl
@[simp] theorem sub_nan_right (F : FP) (a : Num) : F.sub a .nan = .nan := by cases a <;> rfl
@[simp] theorem mul_nan_left (F : FP) (a : Num) : F.mul .nan a = .nan := by cases a <;> rfl
@[simp] theorem mul_nan_right (F : FP) (a : Num) : F.mul a .nan = .nan := by cases a <;> rfl
@[simp] theorem neg_nan : Num.neg .nan = .nan := rfl
@[simp] theorem fabs_nan : Num.fabs .nan = .nan := rfl

theorem not_nan_lt (a : Num) : ¬ (Num.nan < a) := by
  intro h; cases a <;> exact h
theorem not_lt_nan (a : Num) : ¬ (a < Num.nan) := by
  intro h; cases a <;> exact h
theorem not_nan_feq (a : Num) : ¬ (Num.feq .nan a) := by
  intro h; cases a <;> exact h
theorem not_feq_nan (a : Num) : ¬ (Num.feq a .nan) := by
  intro h; cases a <;> exact h
theorem not_nan_le (a : Num) : ¬ (Num.nan ≤ a) := by
  rintro (h | h); exact not_nan_lt a h; exact not_nan_feq a h
theorem not_le_nan (a : Num) : ¬ (a ≤ Num.nan) := by
  rintro (h | h); exact not_lt_nan a h; exact not_feq_nan a h

@[ideal] theorem idx_lt {α : Type} {l : List α} {i : ℕ} (h : i < l.length) :
    idx l i = pure l[i] := by
  simp [idx, List.getElem?_eq_getElem h]

/-- a summing loop -/
theorem forRange_sum {n : ℕ} {c : ℝ} (t : ℕ → ℝ) (f : ℕ → Num → Py Num)
    (h : ∀ i, i < n → ∀ s : ℝ, f i (.fin s) = pure (.fin (s + t i))) :
    forRange 0 n (.fin c) f = pure (.fin (c + ∑ i ∈ Finset.range n, t i)) := by
  have := forRange_seq (σ := Num) (Nat.zero_le n)
    (fun k => .fin (c + ∑ i ∈ Finset.range k, t i)) f (fun i _ hi => by
      rw [h i hi, Finset.sum_range_succ, add_assoc])
  simpa using this

end PyX
