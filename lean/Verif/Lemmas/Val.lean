import Verif.Lemmas.Ideal

/-!
# Runs that return a number, silently
-/

namespace PyX

open Classical Py

/-- the run returns a number with property `P`, without logging anything -/
def Val (x : Py Num) (P : ℝ → Prop) : Prop := ∃ y : ℝ, x = pure (.fin y) ∧ P y

namespace Val

theorem ret {y : ℝ} {P : ℝ → Prop} (h : P y) : Val (pure (.fin y)) P := ⟨y, rfl, h⟩
theorem bind {x : Py Num} {f : Num → Py Num} {P Q : ℝ → Prop} (hx : Val x P)
    (hf : ∀ y, P y → Val (f (.fin y)) Q) : Val (x >>= f) Q := by
  obtain ⟨y, rfl, hy⟩ := hx
  rw [pure_bind]; exact hf y hy
theorem mono {x : Py Num} {P Q : ℝ → Prop} (hx : Val x P) (h : ∀ y, P y → Q y) : Val x Q := by
  obtain ⟨y, e, hy⟩ := hx; exact ⟨y, e, h y hy⟩
/-- a step whose value does not matter -/
theorem any {x : Py Num} {f : Num → Py Num} {Q : ℝ → Prop} (hx : Val x fun _ => True)
    (hf : ∀ y : ℝ, Val (f (.fin y)) Q) : Val (x >>= f) Q := hx.bind fun y _ => hf y

theorem div {a b : ℝ} {P : ℝ → Prop} (hb : b ≠ 0) (h : P (a / b)) : Val (FP.ideal.div (.fin a) (.fin b)) P :=
  ⟨_, div_ideal hb, h⟩
theorem exp {a : ℝ} {P : ℝ → Prop} (h : P (Real.exp a)) : Val (FP.ideal.exp (.fin a)) P := ⟨_, rfl, h⟩
theorem log {a : ℝ} {P : ℝ → Prop} (ha : 0 < a) (h : P (Real.log a)) : Val (FP.ideal.log (.fin a)) P :=
  ⟨_, log_ideal ha, h⟩
theorem sqrt {a : ℝ} {P : ℝ → Prop} (ha : 0 ≤ a) (h : P (Real.sqrt a)) : Val (FP.ideal.sqrt (.fin a)) P :=
  ⟨_, sqrt_ideal ha, h⟩
theorem pow_pos {a b : ℝ} {P : ℝ → Prop} (ha : 0 < a) (h : P (a ^ b)) :
    Val (FP.ideal.pow (.fin a) (.fin b)) P := ⟨_, pow_ideal_pos ha, h⟩
theorem pow_nat {a : ℝ} {n : ℕ} {P : ℝ → Prop} (h : P (a ^ n)) :
    Val (FP.ideal.pow (.fin a) (Num.ofInt (n : ℤ))) P := by
  refine ⟨a ^ n, ?_, h⟩
  have := pow_ideal_int (a := a) (n := (n : ℤ)) (Or.inr (by positivity))
  rw [ofInt_eq, this, zpow_natCast]
theorem pow_int {a : ℝ} {n : ℤ} {P : ℝ → Prop} (ha : a ≠ 0) (h : P (a ^ n)) :
    Val (FP.ideal.pow (.fin a) (Num.ofInt n)) P := by
  refine ⟨a ^ n, ?_, h⟩
  rw [ofInt_eq, pow_ideal_int (Or.inl ha)]
theorem idx {α : Type} {l : List α} {i : ℕ} {f : α → Py Num} {Q : ℝ → Prop} (hi : i < l.length)
    (h : ∀ a, a ∈ l → Val (f a) Q) : Val (PyX.idx l i >>= f) Q := by
  rw [idx_lt hi, pure_bind]; exact h _ (List.getElem_mem hi)

theorem forRange {a b : ℕ} {c : ℝ} (f : ℕ → Num → Py Num)
    (h : ∀ i, a ≤ i → i < b → ∀ s : ℝ, Val (f i (.fin s)) fun _ => True) :
    Val (forRange a b (.fin c) f) fun _ => True := by
  rcases le_or_gt a b with hab | hab
  · obtain ⟨n, rfl⟩ : ∃ n, b = a + n := ⟨b - a, by omega⟩
    clear hab
    induction n generalizing a c with
    | zero => exact ⟨c, by rw [Nat.add_zero, forRange_self], trivial⟩
    | succ n ih =>
      obtain ⟨s', hs, -⟩ := h a le_rfl (by omega) c
      rw [forRange_lt (by omega), hs, pure_bind]
      have := ih (a := a + 1) (c := s') (fun i hi hi' => h i (by omega) (by omega))
      rwa [show a + 1 + n = a + (n + 1) by omega] at this
  · exact ⟨c, by simp [PyX.forRange, show b - a = 0 by omega], trivial⟩

end Val

end PyX
