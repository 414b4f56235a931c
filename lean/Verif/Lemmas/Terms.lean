import Verif.Lemmas.Ideal
import Verif.Spec.IF97
import Mathlib.Analysis.Calculus.Deriv.ZPow
import Mathlib.Analysis.SpecialFunctions.Log.Deriv

/-!
# Sums of terms `n xᴵ yᴶ`: derivatives, and the loops that add them up
-/

namespace PyX

open Classical Py Num Spec.IF97

/-- `I (I-1) … (I-k+1)` -/
def ff (I : ℤ) : ℕ → ℝ
  | 0 => 1
  | k + 1 => ff I k * ((I : ℝ) - k)

/-- the `k`-th derivative in `x` and `l`-th in `y` of a term -/
noncomputable def Term.d (t : Term) (k l : ℕ) (x y : ℝ) : ℝ :=
  t.n * (ff t.I k * x ^ (t.I - k)) * (ff t.J l * y ^ (t.J - l))

/-- the same derivative of a sum of terms -/
noncomputable def dpoly (t : List Term) (k l : ℕ) (x y : ℝ) : ℝ :=
  (t.map fun t => Term.d t k l x y).sum

theorem poly_eq (t : List Term) (x y : ℝ) : poly t x y = dpoly t 0 0 x y := by
  simp [poly, dpoly, Term.d, ff]

theorem hasDerivAt_ffpow (I : ℤ) (k : ℕ) {x : ℝ} (hx : x ≠ 0) :
    HasDerivAt (fun x : ℝ => ff I k * x ^ (I - k)) (ff I (k + 1) * x ^ (I - (k + 1 : ℕ))) x := by
  have := (hasDerivAt_zpow (I - k) x (Or.inl hx)).const_mul (ff I k)
  refine this.congr_deriv ?_
  rw [show ff I (k + 1) = ff I k * ((I : ℝ) - k) from rfl]
  push_cast
  rw [show I - ((k : ℤ) + 1) = I - k - 1 by ring]
  ring

theorem dpoly_x (t : List Term) (k l : ℕ) {x : ℝ} (y : ℝ) (hx : x ≠ 0) :
    HasDerivAt (fun x => dpoly t k l x y) (dpoly t (k + 1) l x y) x := by
  induction t with
  | nil => simpa [dpoly] using hasDerivAt_const x (0 : ℝ)
  | cons a t ih =>
    simp only [dpoly, List.map_cons, List.sum_cons] at ih ⊢
    refine HasDerivAt.add ?_ ih
    simp only [Term.d]
    exact ((hasDerivAt_ffpow a.I k hx).const_mul _).mul_const _

theorem dpoly_y (t : List Term) (k l : ℕ) (x : ℝ) {y : ℝ} (hy : y ≠ 0) :
    HasDerivAt (fun y => dpoly t k l x y) (dpoly t k (l + 1) x y) y := by
  induction t with
  | nil => simpa [dpoly] using hasDerivAt_const y (0 : ℝ)
  | cons a t ih =>
    simp only [dpoly, List.map_cons, List.sum_cons] at ih ⊢
    refine HasDerivAt.add ?_ ih
    simp only [Term.d]
    exact (hasDerivAt_ffpow a.J l hy).const_mul _

theorem idx_map {α β : Type} (f : α → β) {t : List α} {i : ℕ} (h : i < t.length) :
    idx (t.map f) i = pure (f t[i]) := by
  rw [idx_lt (by simpa using h)]
  simp

theorem idx_cons_map {α β : Type} (f : α → β) (b : β) {t : List α} {i : ℕ} (h : i < t.length) :
    idx (b :: t.map f) (i + 1) = pure (f t[i]) := by
  rw [idx_lt (by simpa using h)]
  simp

private theorem sum_take {α : Type} (t : List α) (g : α → ℝ) {i : ℕ} (h : i < t.length) :
    ((t.take (i + 1)).map g).sum = ((t.take i).map g).sum + g t[i] := by
  rw [List.take_succ_eq_append_getElem h, List.map_append, List.sum_append]
  simp

theorem loop1 {α : Type} {N a b : ℕ} (t : List α) (hN : t.length = N) (hb : b = a + N) (g : α → ℝ) (c : ℝ)
    (f : ℕ → Num → Py Num)
    (h : ∀ i (hi : i < t.length), ∀ s : ℝ, f (i + a) (.fin s) = pure (.fin (s + g t[i]))) :
    forRange a b (.fin c) f = pure (.fin (c + (t.map g).sum)) := by
  subst hN hb
  have := forRange_seq (σ := Num) (Nat.le_add_right a t.length)
    (fun k => .fin (c + ((t.take (k - a)).map g).sum)) f (fun i ha hi => by
      obtain ⟨j, rfl⟩ : ∃ j, i = j + a := ⟨i - a, by omega⟩
      have hj : j < t.length := by omega
      rw [h j hj, show j + a + 1 - a = j + 1 by omega, show j + a - a = j by omega, sum_take t g hj, add_assoc])
  simpa using this

theorem loop2 {α : Type} {N a b : ℕ} (t : List α) (hN : t.length = N) (hb : b = a + N) (g₁ g₂ : α → ℝ)
    (c₁ c₂ : ℝ) (f : ℕ → Num × Num → Py (Num × Num))
    (h : ∀ i (hi : i < t.length), ∀ s₁ s₂ : ℝ, f (i + a) (.fin s₁, .fin s₂) =
      pure (.fin (s₁ + g₁ t[i]), .fin (s₂ + g₂ t[i]))) :
    forRange a b (.fin c₁, .fin c₂) f =
      pure (.fin (c₁ + (t.map g₁).sum), .fin (c₂ + (t.map g₂).sum)) := by
  subst hN hb
  have := forRange_seq (σ := Num × Num) (Nat.le_add_right a t.length)
    (fun k => (.fin (c₁ + ((t.take (k - a)).map g₁).sum), .fin (c₂ + ((t.take (k - a)).map g₂).sum)))
    f (fun i ha hi => by
      obtain ⟨j, rfl⟩ : ∃ j, i = j + a := ⟨i - a, by omega⟩
      have hj : j < t.length := by omega
      rw [h j hj, show j + a + 1 - a = j + 1 by omega, show j + a - a = j by omega, sum_take t _ hj,
        sum_take t _ hj, add_assoc, add_assoc])
  simpa using this

theorem loop4 {α : Type} {N a b : ℕ} (t : List α) (hN : t.length = N) (hb : b = a + N)
    (g₁ g₂ g₃ g₄ : α → ℝ) (c₁ c₂ c₃ c₄ : ℝ)
    (f : ℕ → Num × Num × Num × Num → Py (Num × Num × Num × Num))
    (h : ∀ i (hi : i < t.length), ∀ s₁ s₂ s₃ s₄ : ℝ, f (i + a) (.fin s₁, .fin s₂, .fin s₃, .fin s₄) =
      pure (.fin (s₁ + g₁ t[i]), .fin (s₂ + g₂ t[i]), .fin (s₃ + g₃ t[i]), .fin (s₄ + g₄ t[i]))) :
    forRange a b (.fin c₁, .fin c₂, .fin c₃, .fin c₄) f =
      pure (.fin (c₁ + (t.map g₁).sum), .fin (c₂ + (t.map g₂).sum), .fin (c₃ + (t.map g₃).sum),
        .fin (c₄ + (t.map g₄).sum)) := by
  subst hN hb
  have := forRange_seq (σ := Num × Num × Num × Num) (Nat.le_add_right a t.length)
    (fun k => (.fin (c₁ + ((t.take (k - a)).map g₁).sum), .fin (c₂ + ((t.take (k - a)).map g₂).sum),
      .fin (c₃ + ((t.take (k - a)).map g₃).sum), .fin (c₄ + ((t.take (k - a)).map g₄).sum)))
    f (fun i ha hi => by
      obtain ⟨j, rfl⟩ : ∃ j, i = j + a := ⟨i - a, by omega⟩
      have hj : j < t.length := by omega
      rw [h j hj, show j + a + 1 - a = j + 1 by omega, show j + a - a = j by omega, sum_take t _ hj,
        sum_take t _ hj, sum_take t _ hj, sum_take t _ hj, add_assoc, add_assoc, add_assoc, add_assoc])
  simpa using this

theorem sum_neg_map {α : Type} (t : List α) (g : α → ℝ) :
    (t.map fun a => -g a).sum = -(t.map g).sum := by
  induction t with
  | nil => simp
  | cons a t ih => simp only [List.map_cons, List.sum_cons, ih]; ring

end PyX
